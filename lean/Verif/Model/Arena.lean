/-!
# Model of the generational arena

`/repo/crates/datastructures/arena/src/lib.rs` is a typed wrapper that forwards every call to
`generational_arena` 0.2.8.  That crate's source is not in /repo; its documented algorithm
(slot vector, free list threaded through free slots, one generation counter bumped by `remove`)
is modelled here and is part of the trusted base.

Simplifications: `usize`/`u64` are `Nat` (no wrap-around), allocation never fails.
-/
namespace Verif

/-- `arena::Index<T>` (crates/datastructures/arena/src/lib.rs:117-177): a wrapped
`generational_arena::Index { index, generation }`, compared by both components.  The phantom type
is dropped, as `Index::new`/`into` (122-134) allow converting to and from the raw index. -/
structure Idx where
  slot : Nat
  gen : Nat
deriving DecidableEq, Repr

/-- A slot of the arena (generational_arena `Entry`). The wrapped type of crates/datastructures/arena/src/lib.rs:25; the crate itself is external. -/
inductive Slot (α : Type) where
  | free (next : Option Nat)
  | occ (gen : Nat) (val : α)
deriving Repr

/-- `Arena<T>` (crates/datastructures/arena/src/lib.rs:24-25, generational_arena `Arena`). -/
structure Arena (α : Type) where
  slots : List (Slot α)
  generation : Nat
  head : Option Nat
  count : Nat

namespace Arena
variable {α : Type}

/-- generational_arena `Arena::reserve`, behind crates/datastructures/arena/src/lib.rs:75-77: append `n` free slots chained in
order, the last pointing at the old free-list head, and make the first the new head.  For `n = 0` the new head is past the
end (`C05_reserve_zero_negation`); `with_capacity` and growth pass at least 1, and so does `ArenaOp.reserve`. -/
def reserve (a : Arena α) (n : Nat) : Arena α :=
  { a with
    slots := a.slots ++ (List.range n).map (fun k =>
      if k + 1 = n then Slot.free a.head else Slot.free (some (a.slots.length + k + 1)))
    head := some a.slots.length }

/-- `Arena::with_capacity` (crates/datastructures/arena/src/lib.rs:43-45): an empty arena with `max n 1` free slots. -/
def withCapacity (n : Nat) : Arena α :=
  reserve { slots := [], generation := 0, head := none, count := 0 } (max n 1)

/-- `Arena::new` (crates/datastructures/arena/src/lib.rs:27-29): default capacity 4. -/
def new : Arena α := withCapacity 4

/-- Outcome of generational_arena `try_insert`: done, full, or a corrupt free list (which panics). Called through crates/datastructures/arena/src/lib.rs:31-33. -/
inductive TryInsert (α : Type) where
  | done (a : Arena α) (i : Idx)
  | full
  | corrupt

/-- generational_arena `try_insert` / `try_alloc_next_index`: take the free-list head, stamp the
slot with the *current* generation. Called through crates/datastructures/arena/src/lib.rs:31-33. -/
def tryInsert (a : Arena α) (v : α) : TryInsert α :=
  match a.head with
  | none => .full
  | some i =>
    match a.slots[i]? with
    | some (.free next) =>
      .done { slots := a.slots.set i (.occ a.generation v), generation := a.generation,
              head := next, count := a.count + 1 } ⟨i, a.generation⟩
    | _ => .corrupt

/-- `Arena::insert` (crates/datastructures/arena/src/lib.rs:31-33) with its panics explicit (`none`): try, else double the number
of slots (`reserve(items.len())`) and try again. -/
def insert? (a : Arena α) (v : α) : Option (Arena α × Idx) :=
  match a.tryInsert v with
  | .done a' i => some (a', i)
  | .corrupt => none
  | .full =>
    match (a.reserve a.slots.length).tryInsert v with
    | .done a' i => some (a', i)
    | _ => none

/-- Total form of `insert?` used by the rest of the model; `Verif.Arena.insert?_eq` proves that in
every reachable arena `insert?` does not panic and equals this. (crates/datastructures/arena/src/lib.rs:31-33) -/
def insert (a : Arena α) (v : α) : Arena α × Idx :=
  match a.insert? v with
  | some r => r
  | none => (a, ⟨a.slots.length, a.generation⟩)

/-- `Arena::get` (crates/datastructures/arena/src/lib.rs:35-37): the slot must be occupied by the same generation. -/
def get (a : Arena α) (i : Idx) : Option α :=
  match a.slots[i.slot]? with
  | some (.occ g v) => if g = i.gen then some v else none
  | _ => none

/-- `Arena::contains` (crates/datastructures/arena/src/lib.rs:51-53). -/
def contains (a : Arena α) (i : Idx) : Bool := (a.get i).isSome

/-- Mutation through `Arena::get_mut` (crates/datastructures/arena/src/lib.rs:39-41): apply `f` to the value if the handle resolves,
`none` (no change) otherwise. -/
def modify (a : Arena α) (i : Idx) (f : α → α) : Option (Arena α) :=
  match a.slots[i.slot]? with
  | some (.occ g v) =>
    if g = i.gen then some { a with slots := a.slots.set i.slot (.occ g (f v)) } else none
  | _ => none

/-- `Arena::remove` (crates/datastructures/arena/src/lib.rs:47-49): if the handle resolves, free the slot (it becomes the free-list
head), bump the generation and return the value; otherwise `none` and no change. -/
def remove (a : Arena α) (i : Idx) : Arena α × Option α :=
  match a.slots[i.slot]? with
  | some (.occ g v) =>
    if g = i.gen then
      ({ slots := a.slots.set i.slot (.free a.head), generation := a.generation + 1,
         head := some i.slot, count := a.count - 1 }, some v)
    else (a, none)
  | _ => (a, none)

/-- `Arena::len` (crates/datastructures/arena/src/lib.rs:63-65): the stored counter. -/
def len (a : Arena α) : Nat := a.count

/-- `Arena::is_empty` (crates/datastructures/arena/src/lib.rs:67-69). -/
def isEmpty (a : Arena α) : Bool := a.count == 0

/-- `Arena::capacity` (crates/datastructures/arena/src/lib.rs:71-73): number of slots (generational_arena returns `items.len()`). -/
def capacity (a : Arena α) : Nat := a.slots.length

/-- Entries of a slot list whose first slot has number `k`. (crates/datastructures/arena/src/lib.rs:55-57) -/
def entriesFrom : Nat → List (Slot α) → List (Idx × α)
  | _, [] => []
  | k, .free _ :: rest => entriesFrom (k + 1) rest
  | k, .occ g v :: rest => (⟨k, g⟩, v) :: entriesFrom (k + 1) rest

/-- `Arena::iter` (crates/datastructures/arena/src/lib.rs:55-57, 179-202): occupied slots in slot order, with their handles. -/
def iter (a : Arena α) : List (Idx × α) := entriesFrom 0 a.slots

/-- `Arena::into_iter` (crates/datastructures/arena/src/lib.rs:84-92): the values in slot order. -/
def intoIter (a : Arena α) : List α := a.iter.map Prod.snd

/-- `Arena::from_iter` (crates/datastructures/arena/src/lib.rs:110-115): reserve room for all items, then insert one by one. -/
def fromIter (l : List α) : Arena α :=
  l.foldl (fun a v => (a.insert v).1) (withCapacity l.length)

/-- `Index` operator (crates/datastructures/arena/src/lib.rs:98-104): panics (`none`) when the handle does not resolve. -/
def index? (a : Arena α) (i : Idx) : Option α := a.get i

end Arena

/-- Calls of the arena API that can change it (crates/datastructures/arena/src/lib.rs:31-77). `overwrite` is a write through
`get_mut`; `reserve n` reserves `n + 1` slots (reserving zero slots is outside the model). -/
inductive ArenaOp (α : Type) where
  | insert (v : α)
  | remove (i : Idx)
  | overwrite (i : Idx) (v : α)
  | reserve (n : Nat)

/-- Observable result of an arena call. (the signatures at crates/datastructures/arena/src/lib.rs:26-77) -/
inductive ArenaOut (α : Type) where
  | handle (i : Idx)
  | value (v : Option α)
  | wrote (b : Bool)
  | unit
deriving Repr

/-- One arena call. (crates/datastructures/arena/src/lib.rs:26-77) -/
def Arena.step {α} (a : Arena α) : ArenaOp α → Arena α × ArenaOut α
  | .insert v => let (a', i) := a.insert v; (a', .handle i)
  | .remove i => let (a', r) := a.remove i; (a', .value r)
  | .overwrite i v =>
    match a.modify i (fun _ => v) with
    | some a' => (a', .wrote true)
    | none => (a, .wrote false)
  | .reserve n => (a.reserve (n + 1), .unit)

/-- A sequence of arena calls, with the results. (crates/datastructures/arena/src/lib.rs:26-77) -/
def Arena.run {α} (a : Arena α) : List (ArenaOp α) → Arena α × List (ArenaOut α)
  | [] => (a, [])
  | op :: ops =>
    let (a', o) := a.step op
    let (a'', os) := a'.run ops
    (a'', o :: os)

end Verif
