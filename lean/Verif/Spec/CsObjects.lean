import Verif.Model.FfiValue
/-!
# The C# API without pointers

What a program against the C# API means to somebody who does not think of native memory: every wrapper is either an
object of its own or a view of a part of another wrapper's object.  There are no pointers, no allocations, no ownership
and nothing is ever freed or emptied.  The native functions act on the objects as in `exec`.
-/
namespace Verif.Ffi

/-- A wrapper: an object, or a part of the object of wrapper number `owner`. -/
inductive Cell where
  | own (o : NObj)
  | view (owner : Nat) (path : List PStep)

namespace Cell

/-- The object a wrapper stands for. -/
def read (cs : List Cell) (i : Nat) : Option NObj :=
  match cs[i]? with
  | some (.own o) => some o
  | some (.view r path) => match cs[r]? with
    | some (.own o) => pathGet path o
    | _ => none
  | none => none

/-- The objects the arguments stand for. -/
def reads (cs : List Cell) : List Nat → Option (List NObj)
  | [] => some []
  | i :: is => match read cs i, reads cs is with
    | some o, some os => some (o :: os)
    | _, _ => none

/-- Replace the object a wrapper stands for. -/
def write (cs : List Cell) (i : Nat) (n : NObj) : Option (List Cell) :=
  match cs[i]? with
  | some (.own _) => some (cs.set i (.own n))
  | some (.view r path) => match cs[r]? with
    | some (.own o) => match pathPut path o n with
      | none => none
      | some o' => some (cs.set r (.own o'))
    | _ => none
  | none => none

/-- The part of a wrapper's object that a further step leads to. -/
def part (cs : List Cell) (i : Nat) (st : PStep) : Cell :=
  match cs[i]? with
  | some (.view r path) => .view r (path ++ [st])
  | _ => .view i [st]

/-- The wrappers after the native function replaced its first parameter, or did not. -/
def written (cs : List Cell) (args : List Nat) : Option NObj → Option (List Cell)
  | none => some cs
  | some n => match args with
    | i :: _ => write cs i n
    | [] => none

/-- One step: a method acts on the objects its arguments stand for; disposing changes nothing. -/
def step (cs : List Cell) : VCall → List Cell × VRes
  | .dispose _ => (cs, .ok none none)
  | .method a d args => match reads cs args with
    | none => (cs, .stuck)
    | some os => match exec a d os with
      | .stuck => (cs, .stuck)
      | .panic m => (cs, .abort m)
      | .done wr ret => match written cs args wr with
        | none => (cs, .stuck)
        | some cs1 => match ret with
          | .nothing => (cs1, .ok none none)
          | .val o => (cs1, .ok none (some o))
          | .box o => (cs1 ++ [.own o], .ok (some cs.length) none)
          | .borrow st => (cs1 ++ [part cs (args.headD 0) st], .ok (some cs.length) none)

/-- The results of a program, up to its end or a panic. -/
def run (cs : List Cell) : List VCall → List VRes
  | [] => []
  | c :: rest => match step cs c with
    | (cs', r) => if r.ends then [r] else r :: run cs' rest

end Cell
end Verif.Ffi
