import Verif.Model.Baseline
import Verif.Model.Engine
/-!
# Programs that hold several baselines and exchange the objects behind `&mut Object`

`Baseline::object_mut` (client/rust/src/baseline.rs:113-117) hands out `&mut Object`.  `Object` has no public
constructor and cannot be moved out of a baseline (client/rust/src/object.rs:12-33), but safe code may still call
`std::mem::swap` on two such references, and the borrow checker accepts that exactly when they come from two
different baselines.

Simplification: a program has a fixed number of baselines, all created at the start.
-/
namespace Verif

/-- The baselines a program holds, by variable. (`Baseline::new`, client/rust/src/baseline.rs:45-58) -/
abbrev Baselines := List Baseline

/-- A program step: an API call on one baseline (client/rust/src/baseline.rs:66-260), or
`std::mem::swap(b[i].object_mut(x)?, b[j].object_mut(y)?)` (client/rust/src/baseline.rs:113-117). -/
inductive WOp where
  | call (i : Nat) (op : BOp)
  | swapObj (i : Nat) (x : Idx) (j : Nat) (y : Idx)

/-- `true` for an API call. (client/rust/src/baseline.rs:66-260) -/
def WOp.isCall : WOp → Bool
  | .call _ _ => true
  | .swapObj _ _ _ _ => false

/-- `std::mem::swap(a.object_mut(x)?, b.object_mut(y)?)` (client/rust/src/baseline.rs:113-117): both handles are
resolved first; an `Err` of either leaves both baselines alone. -/
def swapObjects (a b : Baseline) (x y : Idx) : Baseline × Baseline × BOut :=
  match a.objects.get x, b.objects.get y with
  | some p, some q =>
    match a.objects.modify x (fun _ => q), b.objects.modify y (fun _ => p) with
    | some oa, some ob => ({ a with objects := oa }, { b with objects := ob }, .ok none)
    | _, _ => (a, b, .err "the given handle doesn't exist in the arena")
  | _, _ => (a, b, .err "the given handle doesn't exist in the arena")

/-- One step of the program.  Naming a baseline that does not exist, or one baseline twice (two live `&mut` borrows), does not
compile; the model then changes nothing. (client/rust/src/baseline.rs:66-260, 113-117) -/
def Baselines.step (w : Baselines) : WOp → Baselines × BOut
  | .call i op =>
    match w[i]? with
    | none => (w, .err "no such baseline")
    | some b => let (b', r) := b.step op; (w.set i b', r)
  | .swapObj i x j y =>
    if i = j then (w, .err "borrowed twice")
    else match w[i]?, w[j]? with
      | some a, some b =>
        let (a', b', r) := swapObjects a b x y
        ((w.set i a').set j b', r)
      | _, _ => (w, .err "no such baseline")

/-- Run a program, recording each step with its result. (client/rust/src/baseline.rs:66-260, 113-117) -/
def Baselines.run (w : Baselines) : List WOp → List (WOp × BOut) × Baselines
  | [] => ([], w)
  | op :: ops =>
    let (w', out) := w.step op
    let (log, w'') := w'.run ops
    ((op, out) :: log, w'')

/-- The program's baselines before the first step. (`Baseline::new`, client/rust/src/baseline.rs:45-58) -/
def Baselines.fresh (kinds : List Kind) : Baselines := kinds.map Baseline.new

/-- `*realm.baseline_mut(k) = b` or the effect on the realm of `std::mem::swap(realm.baseline_mut(k), &mut b)`
(client/rust/src/realm.rs:65-70): the reference is to the whole baseline. -/
def Realm.assign (r : Realm) (k : Kind) (b : Baseline) : Realm :=
  match k with
  | .main => { r with main := b }
  | .fork => { r with fork := b }

end Verif
