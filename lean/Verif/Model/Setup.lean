/-!
# Setting up cross-compilation

cross_compilation/setup.sh, command by command: it makes the image that Cross.toml names, which `cross` needs to build for iOS.

Simplifications.  The repository of `cross` and its submodules have one version during a run.  The path of the checkout has no spaces
(the script does not quote it).  A command may fail before or after it took effect, or be interrupted midway; `git clone` removes what it made
when it fails, but not when the machine stops; the other commands leave nothing that is seen here when they are interrupted midway.  The
working directory and the variables of the shell end with the run.
-/
namespace Verif.Setup

/-- The directory `cross_compilation/build/cross`: not there, empty, an incomplete clone, or a clone of version `v`.
(cross_compilation/setup.sh:9) -/
inductive Dir where
  | absent | empty | part
  | clone (v : Nat)
deriving DecidableEq, Repr

/-- What the script leaves behind: the build directory, the clone in it, the version of its submodules, and the image, with the versions of the
clone and of the submodules it was made from. (cross_compilation/setup.sh:5-18, Cross.toml:1-2) -/
structure Disk where
  build : Bool
  cross : Dir
  subs : Option Nat
  image : Option (Nat × Nat)
deriving DecidableEq, Repr

/-- The commands. (cross_compilation/setup.sh:5-18) -/
inductive Cmd where
  | mkdir | cdBuild | clone | cdCross | submodules | image
deriving DecidableEq, Repr

/-- How a command goes: well; it fails without effect; it is interrupted midway; it fails or is interrupted after taking effect.
(`set -e`, cross_compilation/setup.sh:1) -/
inductive Fate where
  | ok | before | midway | after
deriving DecidableEq, Repr

/-- What a command does if it is not made to fail: `none` if it fails by itself.  `git clone` wants its target absent or empty; `git submodule` and
`cargo` want a clone around them. `up` is the present version of `cross`. (cross_compilation/setup.sh:5-18) -/
def Cmd.effect (up : Nat) (d : Disk) : Cmd → Option Disk
  | .mkdir => some { d with build := true }                                                   -- 5
  | .cdBuild => if d.build then some d else none                                              -- 6
  | .clone => if d.cross = .absent ∨ d.cross = .empty then some { d with cross := .clone up, subs := none } else none  -- 9
  | .cdCross => if d.cross = .absent then none else some d                                    -- 10
  | .submodules => match d.cross with                                                         -- 11
    | .clone _ => some { d with subs := some up }
    | _ => none
  | .image => match d.cross, d.subs with                                                      -- 17-18
    | .clone v, some s => some { d with image := some (v, s) }
    | _, _ => none

/-- What is there when a command is interrupted midway. (cross_compilation/setup.sh:9) -/
def Cmd.half (d : Disk) : Cmd → Disk
  | .clone => { d with cross := .part, subs := none }
  | _ => d

/-- One command: the disk after it, and whether the script goes on. (cross_compilation/setup.sh:1) -/
def Cmd.exec (up : Nat) (w : Fate) (d : Disk) (c : Cmd) : Disk × Bool :=
  match c.effect up d, w with
  | none, _ => (d, false)
  | some d', .ok => (d', true)
  | some _, .before => (d, false)
  | some _, .midway => (c.half d, false)
  | some d', .after => (d', false)

/-- The commands in turn, numbered from `k` on, the script ending at the first that fails. (cross_compilation/setup.sh:1) -/
def exec (up : Nat) (w : Nat → Fate) (k : Nat) (d : Disk) : List Cmd → Disk × Bool
  | [] => (d, true)
  | c :: cs => match c.exec up (w k) d with
    | (d', true) => exec up w (k + 1) d' cs
    | (d', false) => (d', false)

/-- The script. (cross_compilation/setup.sh:5-18) -/
def script : List Cmd := [.mkdir, .cdBuild, .clone, .cdCross, .submodules, .image]

/-- One run, `w` deciding how command number `k` goes. (cross_compilation/setup.sh:1-18) -/
def run (up : Nat) (w : Nat → Fate) (d : Disk) : Disk × Bool := exec up w 0 d script

/-- The states that runs can leave, from a checkout without a clone of `cross` on, whatever image there was.
(cross_compilation/setup.sh:1-18, cross_compilation/.gitignore:1) -/
inductive Reach : Disk → Prop
  | fresh (d : Disk) : d.cross = .absent → Reach d
  | run (d : Disk) (up : Nat) (w : Nat → Fate) : Reach d → Reach (run up w d).1

end Verif.Setup
