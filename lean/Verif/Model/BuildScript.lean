/-!
# The build script for macOS hosts

client/build_mac_host.sh, command by command, on the files that matter between runs: the native libraries, the managed
libraries, and the project file of the binding generator, which the option `-w` renames and renames back.

Simplifications.  Every tool (`cargo`, `cross`, `dotnet`) is a command that either produces its outputs from the current
sources or fails; `touch`, `mv` and `rsync` are as documented, `rsync` replaces its target in one step.  A command may fail
before or after it took effect; an interruption of the script (a signal, a crash) at any point is such a failure.
Directories are left out except that `mkdir` may fail.  `dotnet` needs exactly one project file in the current directory.
-/
namespace Verif.Build

/-- The target triples. (client/build_mac_host.sh:27, 49-53) -/
inductive Triple where
  | macArm | macIntel | ios | android64 | android32 | linux
deriving DecidableEq, Repr

/-- The names that the project file of the binding generator has. (client/build_mac_host.sh:103-105, 116, 135, 144) -/
inductive Proj where
  | codegen | codegen60 | codegen61
deriving DecidableEq, Repr

/-- The files. (client/build_mac_host.sh:43, 49-59, 109, 124, 149) -/
inductive File where
  /-- `target/<triple>/<profile>/lib…` -/
  | built (t : Triple) (release : Bool)
  /-- `target/<triple>/lib…`, to which the Unity project has links -/
  | lib (t : Triple)
  /-- `target/lib….dylib` -/
  | root
  /-- a `.csproj` in `client/codegen_pinvoke` -/
  | proj (p : Proj)
  /-- the managed libraries in `bin/main` and `bin/ios` (the three files of each are one here) -/
  | managed (ios : Bool)
deriving DecidableEq, Repr

/-- What is in a file: nothing, something made from version `n` of the sources, or something that was there before.
(client/build_mac_host.sh:35, 49) -/
inductive Content where
  | empty
  | made (n : Nat)
  | other
deriving DecidableEq, Repr

/-- The files and their contents. (client/build_mac_host.sh:1-150) -/
abbrev Disk := File → Option Content

/-- Put something in a file. (client/build_mac_host.sh:43) -/
def Disk.set (d : Disk) (f : File) (c : Option Content) : Disk := fun g => if g = f then c else d g

/-- The options. (client/build_mac_host.sh:12-20) -/
structure Flags where
  android : Bool
  ios : Bool
  linux : Bool
  release : Bool
  workaround : Bool
deriving DecidableEq, Repr

/-- The commands. (client/build_mac_host.sh:34-150) -/
inductive Cmd where
  /-- a tool that makes files from the sources -/
  | make (fs : List File)
  /-- a tool whose output does not matter here, or `mkdir`, `cd` -/
  | tool
  /-- a tool that needs the one project file; `dotnet test` does too, through client/cs/src/client.csproj:35 -/
  | dotnet
  | rsync (src dst : File)
  | touch (f : File)
  /-- `mkdir -p … && touch …` -/
  | place (f : File)
  | mv (a b : File)
deriving DecidableEq, Repr

/-- How a command goes: well; it fails without effect; it fails after taking effect; the `mkdir` in front of it fails.
(`set -e`, client/build_mac_host.sh:4) -/
inductive Fate where
  | ok | before | after | dir
deriving DecidableEq, Repr

/-- How many project files there are. (client/build_mac_host.sh:110-112) -/
def projects (d : Disk) : Nat :=
  [Proj.codegen, .codegen60, .codegen61].countP fun p => (d (.proj p)).isSome

/-- What a command does if it is not made to fail: `none` if it fails by itself. `src` is the version of the sources.
(client/build_mac_host.sh:34-150) -/
def Cmd.effect (src : Nat) (d : Disk) : Cmd → Option Disk
  | .make fs => some fun g => if g ∈ fs then some (.made src) else d g
  | .tool => some d
  | .dotnet => if projects d = 1 then some d else none
  | .rsync a b => (d a).map fun c => d.set b (some c)
  | .touch f => some (if d f = none then d.set f (some .empty) else d)
  | .place f => some (if d f = none then d.set f (some .empty) else d)
  | .mv a b => (d a).map fun c => (d.set a none).set b (some c)

/-- One command, with `set -e`: the disk after it, and whether the script goes on.  A failing `mkdir` on the left of `&&`
does not stop the script (bash manual, `set -e`). (client/build_mac_host.sh:4, 49-53) -/
def Cmd.exec (src : Nat) (w : Fate) (d : Disk) (c : Cmd) : Disk × Bool :=
  match c.effect src d, w with
  | none, _ => (d, false)
  | some d', .ok => (d', true)
  | some _, .before => (d, false)
  | some d', .after => (d', false)
  | some _, .dir => match c with
    | .place _ => (d, true)
    | _ => (d, false)

/-- The commands in turn, the script ending at the first that fails; `w` says how each goes. (client/build_mac_host.sh:4) -/
def exec (src : Nat) (d : Disk) : List (Cmd × Fate) → Disk × Bool
  | [] => (d, true)
  | (c, w) :: rest => match c.exec src w d with
    | (d', true) => exec src d' rest
    | (d', false) => (d', false)

/-- Only if an option was given. (client/build_mac_host.sh:67, 77, 89, 101, 114, 128, 133, 142) -/
def when (b : Bool) (cs : List Cmd) : List Cmd := if b then cs else []

/-- The host is a Mac. (client/build_mac_host.sh:27, 109) -/
def hostTriple (arm : Bool) : Triple := if arm then .macArm else .macIntel

/-- The script. (client/build_mac_host.sh:34-150) -/
def script (arm : Bool) (f : Flags) : List Cmd :=
  [.tool, .make [.built (hostTriple arm) f.release],                                  -- 34-35
   .tool, .tool, .tool,                                                               -- 38-40
   .rsync (.built (hostTriple arm) f.release) (.lib (hostTriple arm)),                -- 43
   .place (.lib .macArm), .place (.lib .ios), .place (.lib .android64), .place (.lib .android32),
   .place (.lib .linux),                                                              -- 49-53
   .tool, .touch (.managed true), .tool] ++                                           -- 56-63
  when f.linux [.make [.built .linux f.release],                                      -- 69
    .rsync (.built .linux f.release) (.lib .linux)] ++                                -- 72
  when f.android [.make [.built .android64 f.release], .make [.built .android32 f.release], -- 79-80
    .rsync (.built .android64 f.release) (.lib .android64),                           -- 83
    .rsync (.built .android32 f.release) (.lib .android32)] ++                        -- 84
  when f.ios [.make [.built .ios f.release],                                          -- 91
    .rsync (.built .ios f.release) (.lib .ios)] ++                                    -- 94
  when f.workaround [.mv (.proj .codegen) (.proj .codegen60)] ++                      -- 105
  [.rsync (.lib (hostTriple arm)) .root, .tool, .dotnet, .dotnet] ++                  -- 109-112
  when f.workaround [.mv (.proj .codegen60) (.proj .codegen)] ++                      -- 116
  [.tool, .dotnet, .tool, .make [.managed false]] ++                                  -- 119-124
  when f.ios ([.tool] ++                                                              -- 131
    when f.workaround [.mv (.proj .codegen) (.proj .codegen61)] ++                    -- 135
    [.dotnet] ++                                                                      -- 140
    when f.workaround [.mv (.proj .codegen61) (.proj .codegen)] ++                    -- 144
    [.tool, .make [.managed true]])                                                   -- 148-149

/-- One run of the script with the sources at version `src`, `w` deciding how command number `k` goes.
(client/build_mac_host.sh:1-150) -/
def run (arm : Bool) (f : Flags) (src : Nat) (w : Nat → Fate) (d : Disk) : Disk × Bool :=
  exec src d ((script arm f).zipIdx.map fun e => (e.1, w e.2))

/-- A fresh checkout: the project file is there under its own name; what else is there (left from other work) may be
anything. (client/codegen_pinvoke/codegen.csproj) -/
structure Fresh (d : Disk) : Prop where
  proj : (d (.proj .codegen)).isSome = true
  no60 : d (.proj .codegen60) = none
  no61 : d (.proj .codegen61) = none

/-- The states after any number of runs with any options, sources and failures. (client/build_mac_host.sh:1-150) -/
inductive Reach (arm : Bool) : Disk → Prop
  | fresh (d : Disk) : Fresh d → Reach arm d
  | run (d : Disk) (f : Flags) (src : Nat) (w : Nat → Fate) : Reach arm d → Reach arm (run arm f src w d).1

end Verif.Build
