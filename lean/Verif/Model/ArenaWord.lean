import Verif.Model.Arena
import Verif.Model.Outcome
import Verif.Model.Profile
/-!
# The arena with its 64-bit generation counter

`Model/Arena` counts generations with a natural number.  The counter of `generational_arena` 0.2.8 is a `u64`, incremented by each
successful `remove`; this is the only arithmetic of the arena that a program could overflow, slot numbers and lengths being bounded
by the memory the slots take up.  The crate is external: its source is not in /repo.
-/
namespace Verif
namespace Arena
variable {α : Type}

/-- `Arena::remove` (crates/datastructures/arena/src/lib.rs:47-49) with the `u64` counter: `mem::replace` the entry by a free one,
`self.generation += 1`, then relink the free list and count down.  On overflow the increment panics in a debug build, when the entry is
already gone, and wraps to 0 in a release build. -/
def removeW (p : Profile) (a : Arena α) (i : Idx) : Arena α × Outcome (Option α) :=
  match a.slots[i.slot]? with
  | some (.occ g v) =>
    if g = i.gen then
      if a.generation + 1 < 2 ^ 64 then
        ({ slots := a.slots.set i.slot (.free a.head), generation := a.generation + 1,
           head := some i.slot, count := a.count - 1 }, .ok (some v))
      else match p with
        | .debug => ({ a with slots := a.slots.set i.slot (.free a.head) }, .panic "attempt to add with overflow")
        | .release =>
          ({ slots := a.slots.set i.slot (.free a.head), generation := 0,
             head := some i.slot, count := a.count - 1 }, .ok (some v))
    else (a, .ok none)
  | _ => (a, .ok none)

/-- One arena call (crates/datastructures/arena/src/lib.rs:26-77) with the `u64` counter. -/
def stepW (p : Profile) (a : Arena α) : ArenaOp α → Arena α × Outcome (ArenaOut α)
  | .insert v => let (a', i) := a.insert v; (a', .ok (.handle i))
  | .remove i => let (a', r) := a.removeW p i; (a', r.map .value)
  | .overwrite i v =>
    match a.modify i (fun _ => v) with
    | some a' => (a', .ok (.wrote true))
    | none => (a, .ok (.wrote false))
  | .reserve n => (a.reserve (n + 1), .ok .unit)

/-- A sequence of arena calls (crates/datastructures/arena/src/lib.rs:26-77) with the `u64` counter; a caught panic does not end it. -/
def runW (p : Profile) (a : Arena α) : List (ArenaOp α) → Arena α × List (Outcome (ArenaOut α))
  | [] => (a, [])
  | op :: ops =>
    let (a', o) := a.stepW p op
    let (a'', os) := a'.runW p ops
    (a'', o :: os)

end Arena
end Verif
