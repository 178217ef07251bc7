import Verif.Model.Outcome
/-!
# The native libraries that the P/Invoke generator copies

client/codegen_pinvoke/Main.cs (cited as client/codegen_pinvoke/Main.cs): before CppSharp runs for a crate, the libraries of the crate are copied to another name.

Simplifications.  The artifact directory is a list of files, names and contents; it has no subdirectory whose name begins with
the name of a library.  The crate names, which are letters and underscores, are matched literally by the regular expression.
Strings are lists of characters.  What CppSharp does is left out; an exception ends the program.
-/
namespace Verif.Pinvoke

/-- A string. (C# `string`) (client/codegen_pinvoke/Main.cs:150-167) -/
abbrev Str := List Char

/-- `target/debug`: the path of the directory, its files, and whether this is Windows. (`cargo_artifact_dir`, client/codegen_pinvoke/Main.cs:25, 62;
`RuntimeInformation.IsOSPlatform`, client/codegen_pinvoke/Main.cs:155) -/
structure Dir where
  full : Str
  windows : Bool
  files : List (Str × Str)
deriving DecidableEq, Repr

/-- The path separator. (`Directory.GetFiles`, client/codegen_pinvoke/Main.cs:146) -/
def Dir.sep (d : Dir) : Char := if d.windows then '\\' else '/'

/-- The contents of a file. (`File.Copy`, client/codegen_pinvoke/Main.cs:162-166) -/
def Dir.get (d : Dir) (n : Str) : Option Str := (d.files.find? fun f => f.1 = n).map Prod.snd

/-- Write a file. (`File.Copy`, client/codegen_pinvoke/Main.cs:162-166) -/
def Dir.set (d : Dir) (n c : Str) : Dir := { d with files := (n, c) :: d.files.filter fun f => f.1 ≠ n }

/-- All endings of a string, the string itself first. (`Regex.IsMatch` looks for a match at every position, client/codegen_pinvoke/Main.cs:147) -/
def tails : Str → List Str
  | [] => [[]]
  | c :: s => (c :: s) :: tails s

/-- The extensions in the regular expression. (client/codegen_pinvoke/Main.cs:145) -/
def exts : List Str := ["so".toList, "a".toList, "dylib".toList, "dll".toList]

/-- `new Regex($"({crate})[.](so|a|dylib|dll)").IsMatch(path)`. (client/codegen_pinvoke/Main.cs:145-147) -/
def isMatch (crate path : Str) : Bool := (tails path).any fun t => exts.any fun e => (crate ++ '.' :: e).isPrefixOf t

/-- `path.Split('.')`. (client/codegen_pinvoke/Main.cs:152) -/
def split : Str → List Str
  | [] => [[]]
  | '.' :: s => [] :: split s
  | c :: s => match split s with
    | [] => [[c]]
    | x :: xs => (c :: x) :: xs

/-- The file name of a library. (client/codegen_pinvoke/Main.cs:155, 162-166) -/
def libName (windows : Bool) (ext name : Str) : Str := (if !windows && ext ≠ "dll".toList then "lib".toList else []) ++ name ++ '.' :: ext

/-- One turn of the loop: `lib_ext = fileName.Split('.')[1]`, then `File.Copy`. (client/codegen_pinvoke/Main.cs:150-167) -/
def copyOne (crate over : Str) (d : Dir) (path : Str) : Dir × Outcome Unit :=
  match (split path)[1]? with
  | none => (d, .panic "IndexOutOfRangeException")
  | some ext => match d.get (libName d.windows ext crate) with
    | none => (d, .panic "FileNotFoundException")
    | some c => (d.set (libName d.windows ext over) c, .ok ())

/-- The loop. (client/codegen_pinvoke/Main.cs:150-167) -/
def copyAll (crate over : Str) (d : Dir) : List Str → Dir × Outcome Unit
  | [] => (d, .ok ())
  | p :: ps => match copyOne crate over d p with
    | (d1, .ok ()) => copyAll crate over d1 ps
    | (d1, .err m) => (d1, .err m)
    | (d1, .panic m) => (d1, .panic m)

/-- `Directory.GetFiles(...).Where(rgx.IsMatch).ToList()`. (client/codegen_pinvoke/Main.cs:146-148) -/
def found (crate : Str) (d : Dir) : List Str := (d.files.map fun f => d.full ++ d.sep :: f.1).filter (isMatch crate)

/-- The beginning of `Setup`. (client/codegen_pinvoke/Main.cs:141-168) -/
def setup (over : Str) (d : Dir) (crate : Str) : Dir × Outcome Unit :=
  if crate ≠ over then copyAll crate over d (found crate d) else (d, .ok ())

/-- The crates, in order. (client/codegen_pinvoke/Main.cs:55-80) -/
def crates : List Str := ["tp_client".toList, "unity_states".toList, "tp_contract_example".toList]

/-- `Main`: the directory as it is when CppSharp reads it for each crate, and at the end. (client/codegen_pinvoke/Main.cs:83-105, 117) -/
def runAll (over : Str) (d : Dir) : List Str → List (Str × Dir) × Outcome Unit
  | [] => ([], .ok ())
  | c :: cs => match setup over d c with
    | (d1, .ok ()) => match runAll over d1 cs with
      | (l, r) => ((c, d1) :: l, r)
    | (_, .err m) => ([], .err m)
    | (_, .panic m) => ([], .panic m)

/-- `GetEnvironmentVariable(...) ?? "unity_states"`, then the crates in order. (client/codegen_pinvoke/Main.cs:103-104) -/
def main (env : Option Str) (d : Dir) : List (Str × Dir) × Outcome Unit := runAll (env.getD "unity_states".toList) d crates

/-- `Parent ?? Root`: the root stays where it is. (client/codegen_pinvoke/Main.cs:228, 239, 242) -/
def up (p : List String) : List String := p.dropLast

/-- `n` times up. (client/codegen_pinvoke/Main.cs:225-229) -/
def ups : Nat → List String → List String
  | 0, p => p
  | n + 1, p => ups n (up p)

/-- `GetProjectDir`, from the path of the running assembly. (client/codegen_pinvoke/Main.cs:215-243) -/
def projectDir (assembly : List String) : List String :=
  let p := ups 5 assembly
  let p := if p.getLast? ≠ some "client" then up p else p
  up p

end Verif.Pinvoke
