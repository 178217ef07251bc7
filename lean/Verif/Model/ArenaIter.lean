import Verif.Model.Arena
import Verif.Model.Outcome
/-!
# Iterating over an arena from both ends

The iterators of crates/datastructures/arena/src/lib.rs:177-241 forward to those of `generational_arena`, which walk the slot vector
from either end, skip free slots, and keep the number of entries still to come in a counter that starts at the arena's `len`.
-/
namespace Verif

/-- `Ord for Index` (crates/datastructures/arena/src/lib.rs:165-175): that of `generational_arena::Index`, derived: first the slot, then the
generation. -/
def Idx.lt (a b : Idx) : Prop := a.slot < b.slot ∨ a.slot = b.slot ∧ a.gen < b.gen

namespace Arena
variable {α : Type}

/-- Which end an item is taken from: `next` or `next_back`. (crates/datastructures/arena/src/lib.rs:181-197) -/
inductive End where
  | front
  | back
deriving DecidableEq, Repr

/-- `Iter`, `IterMut`, `IntoIter`: the slots not yet walked over, numbered, and the counter. (crates/datastructures/arena/src/lib.rs:179-180,
214-215; generational_arena `Iter { len, inner }`) -/
structure Iter (α : Type) where
  rest : List (Nat × Slot α)
  left : Nat

/-- The slots with their numbers (`enumerate`). (generational_arena `Arena::iter`, called by crates/datastructures/arena/src/lib.rs:55-61) -/
def number : Nat → List (Slot α) → List (Nat × Slot α)
  | _, [] => []
  | k, s :: l => (k, s) :: number (k + 1) l

/-- `Arena::iter`, `iter_mut`, `into_iter`. (crates/datastructures/arena/src/lib.rs:55-61, 84-92) -/
def iterator (a : Arena α) : Iter α := ⟨number 0 a.slots, a.count⟩

/-- The loop of `next`: skip free slots; the counter must not underflow, and must be zero at the end. (generational_arena `Iter::next`, called by
crates/datastructures/arena/src/lib.rs:184-186) -/
def walk (left : Nat) : List (Nat × Slot α) → Outcome (Option (Idx × α) × List (Nat × Slot α) × Nat)
  | [] => if left = 0 then .ok (none, [], 0) else .panic "debug_assert_eq!(self.len, 0)"
  | (_, .free _) :: rest => walk left rest
  | (k, .occ g v) :: rest => if left = 0 then .panic "attempt to subtract with overflow" else .ok (some (⟨k, g⟩, v), rest, left - 1)

/-- `next` and `next_back`. (crates/datastructures/arena/src/lib.rs:184-186, 193-195, 221-223, 230-232) -/
def Iter.take (it : Iter α) : End → Outcome (Option (Idx × α) × Iter α)
  | .front => match walk it.left it.rest with
    | .ok (x, r, n) => .ok (x, ⟨r, n⟩)
    | .err m => .err m
    | .panic m => .panic m
  | .back => match walk it.left it.rest.reverse with
    | .ok (x, r, n) => .ok (x, ⟨r.reverse, n⟩)
    | .err m => .err m
    | .panic m => .panic m

/-- `size_hint`; `ExactSizeIterator::len` is the same. (crates/datastructures/arena/src/lib.rs:187-189, 198-202, 225-227, 235-239) -/
def Iter.sizeHint (it : Iter α) : Nat × Option Nat := (it.left, some it.left)

/-- A sequence of calls: before each the size hint, then what is returned. (crates/datastructures/arena/src/lib.rs:181-202) -/
def Iter.run (it : Iter α) : List End → Outcome (List ((Nat × Option Nat) × Option (Idx × α)))
  | [] => .ok []
  | e :: es => match it.take e with
    | .ok (x, it') => match it'.run es with
      | .ok xs => .ok ((it.sizeHint, x) :: xs)
      | .err m => .err m
      | .panic m => .panic m
    | .err m => .err m
    | .panic m => .panic m

/-- Calls on `iter_mut`, with what is written through the reference returned, if anything; the arena afterwards, and what was returned.
(crates/datastructures/arena/src/lib.rs:59-61, 214-241) -/
def Iter.runMut (a : Arena α) (it : Iter α) : List (End × (α → α)) → Outcome (Arena α × List (Option (Idx × α)))
  | [] => .ok (a, [])
  | (e, f) :: es => match it.take e with
    | .ok (x, it') =>
      let a' := match x with
        | some (i, _) => (a.modify i f).getD a
        | none => a
      match it'.runMut a' es with
      | .ok (a'', xs) => .ok (a'', x :: xs)
      | .err m => .err m
      | .panic m => .panic m
    | .err m => .err m
    | .panic m => .panic m

end Arena
end Verif
