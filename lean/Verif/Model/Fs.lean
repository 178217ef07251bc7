import Verif.Model.Outcome
/-!
# The file system the code generators work on

The parts of `std::fs` and `std::path` used by crates/rsharp/codegen/src/codegen.rs and client/codegen_wrapped/src/lib.rs.
Every call that changes or reads the disk may fail; which ones do is decided by an oracle.

Simplifications.  No links, permissions or concurrent writers; `Path::exists`, `Path::read_dir` do not fail on existing
directories; names are case sensitive.
-/
namespace Verif

/-- A path, as its components. (std `PathBuf`) (client/codegen_wrapped/src/lib.rs:66) -/
abbrev Path := List String

/-- What is at a path. (std `fs`) (client/codegen_wrapped/src/lib.rs:72-110) -/
inductive Entry where
  | dir
  | file (c : String)
deriving DecidableEq, Repr

/-- The files and directories. (std `fs`) (client/codegen_wrapped/src/lib.rs:72-110) -/
structure Fs where
  entries : List (Path × Entry)
deriving DecidableEq, Repr

namespace Fs

/-- What is at `p`. (std `fs::metadata`, `fs::read`) (client/codegen_wrapped/src/lib.rs:72-110) -/
def get (fs : Fs) (p : Path) : Option Entry := (fs.entries.find? fun e => e.1 = p).map Prod.snd

/-- Put something at `p`. (std `fs`) (client/codegen_wrapped/src/lib.rs:72-110) -/
def set (fs : Fs) (p : Path) (x : Entry) : Fs := ⟨(p, x) :: fs.entries.filter fun e => e.1 ≠ p⟩

/-- `p` is directly inside `d`. (std `Path::parent`) (client/codegen_wrapped/src/lib.rs:72-74) -/
def childOf (d p : Path) : Bool := p ≠ [] && p.dropLast = d

/-- Whether a directory has an entry: `read_dir()?.next().is_some()`. (client/codegen_wrapped/src/lib.rs:66) -/
def hasChild (fs : Fs) (d : Path) : Bool := fs.entries.any fun e => childOf d e.1

end Fs

/-- Which calls of the operating system fail: call number `k` succeeds, or fails, for a write after `n` characters.
(the `io::Result`s in client/codegen_wrapped/src/lib.rs:56-112) -/
abbrev Oracle := Nat → Option Nat

/-- The disk, and how many calls have been made. (see `Oracle`) (client/codegen_wrapped/src/lib.rs:56-112) -/
structure Disk where
  fs : Fs
  calls : Nat
deriving DecidableEq, Repr

namespace Disk

/-- `fs::create_dir`, part of `create_dir_all`. (std; client/codegen_wrapped/src/lib.rs:72-74) -/
def createDir (o : Oracle) (d : Disk) (p : Path) : Disk × Outcome Unit :=
  match d.fs.get p with
  | some .dir => (d, .ok ())
  | some (.file _) => (d, .err "not a directory")
  | none => match o d.calls with
    | some _ => (⟨d.fs, d.calls + 1⟩, .err "io")
    | none => (⟨d.fs.set p .dir, d.calls + 1⟩, .ok ())

/-- `fs::create_dir_all`: the ancestors `done ++ [x]` for the components `x` still to come, outermost first. (std;
client/codegen_wrapped/src/lib.rs:72-74) -/
def createDirs (o : Oracle) (d : Disk) (done : Path) : List String → Disk × Outcome Unit
  | [] => (d, .ok ())
  | x :: rest => match d.createDir o (done ++ [x]) with
    | (d', .ok ()) => d'.createDirs o (done ++ [x]) rest
    | (d', .err m) => (d', .err m)
    | (d', .panic m) => (d', .panic m)

/-- `fs::create_dir_all`. (std; client/codegen_wrapped/src/lib.rs:72-74) -/
def createDirAll (o : Oracle) (d : Disk) (p : Path) : Disk × Outcome Unit := d.createDirs o [] p

/-- `fs::read_to_string`. (std; client/codegen_wrapped/src/lib.rs:89-91) -/
def readFile (o : Oracle) (d : Disk) (p : Path) : Disk × Outcome String :=
  match o d.calls, d.fs.get p with
  | none, some (.file c) => (⟨d.fs, d.calls + 1⟩, .ok c)
  | none, some .dir => (⟨d.fs, d.calls + 1⟩, .err "is a directory")
  | none, none => (⟨d.fs, d.calls + 1⟩, .err "not found")
  | some _, _ => (⟨d.fs, d.calls + 1⟩, .err "io")

/-- `File::create`: makes the file, or empties it. (std; client/codegen_wrapped/src/lib.rs:101-105) -/
def createFile (o : Oracle) (d : Disk) (p : Path) : Disk × Outcome Unit :=
  match o d.calls, d.fs.get p, d.fs.get p.dropLast with
  | some _, _, _ => (⟨d.fs, d.calls + 1⟩, .err "io")
  | none, some .dir, _ => (⟨d.fs, d.calls + 1⟩, .err "is a directory")
  | none, some (.file _), _ => (⟨d.fs.set p (.file ""), d.calls + 1⟩, .ok ())
  | none, none, some .dir => (⟨d.fs.set p (.file ""), d.calls + 1⟩, .ok ())
  | none, none, _ => (⟨d.fs, d.calls + 1⟩, .err "not found")

/-- Writing to the open file; a failure leaves a part of the text. (`io::Write`, behind client/codegen_wrapped/src/lib.rs:107-110) -/
def writeFile (o : Oracle) (d : Disk) (p : Path) (s : String) : Disk × Outcome Unit :=
  match o d.calls with
  | some n => (⟨d.fs.set p (.file (String.ofList (s.toList.take n))), d.calls + 1⟩, .err "io")
  | none => (⟨d.fs.set p (.file s), d.calls + 1⟩, .ok ())

end Disk
end Verif
