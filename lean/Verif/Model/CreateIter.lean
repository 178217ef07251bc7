import Verif.Model.Baseline
/-!
# `object_create` and the iterators it is given

`Baseline::object_create` takes two iterators written by the caller (client/rust/src/baseline.rs:125-130), which may be long,
endless, report any size hint, or panic.  `Verif.Baseline.objectCreate` takes the lists they yield; here they are pulled one item
at a time, as the code does.

Simplifications.  `size_hint` and the destructors of the iterators return.  An allocation that is too large for the machine but
not for the address space (an abort) is not modelled.
-/
namespace Verif

/-- What one call of `next` of a caller's iterator does. (`impl Iterator<Item = …>`, client/rust/src/baseline.rs:128-129) -/
inductive Pull (α : Type) where
  | item (a : α)
  | done
  | panic
deriving DecidableEq

/-- A caller's iterator: what its calls of `next` give, in order, and `size_hint().0`.
(client/rust/src/baseline.rs:128-129, 141) -/
structure Source (α : Type) where
  pull : Nat → Pull α
  hint : Nat

/-- How much `Vec::with_capacity` takes before it panics with "capacity overflow", for a vector of properties and for one of
channels: `isize::MAX` divided by the size of an item. (client/rust/src/baseline.rs:143) -/
structure Capacity where
  states : Nat
  channels : Nat

namespace Baseline

/-- The loop of `check_types!` (client/rust/src/baseline.rs:142-160) from the pull number `k` on: `zip_longest` pulls the caller's
iterator, then takes the next declared type; `try_fold` leaves at the first error.  Also the number of calls of `next` made
so far. -/
def checkPulls {α : Type} (ty : α → PropType) (pull : Nat → Pull α) : List PropType → Nat → Outcome (List α) × Nat
  | [], k =>
    match pull k with
    | .done => (.ok [], k + 1)
    | .item _ => (.err "properties did not match the number of fields", k + 1)
    | .panic => (.panic "next", k + 1)
  | t :: ts, k =>
    match pull k with
    | .done => (.err "properties did not match the number of fields", k + 1)
    | .panic => (.panic "next", k + 1)
    | .item p =>
      if ty p ≠ t then (.err "property did not match contract type", k + 1)
      else
        let (r, n) := checkPulls ty pull ts (k + 1)
        (r.map (p :: ·), n)

/-- `check_types!` (client/rust/src/baseline.rs:139-162): `Vec::with_capacity` of the size hint first, then the loop. -/
def checkSource {α : Type} (ty : α → PropType) (cap : Nat) (s : Source α) (ts : List PropType) : Outcome (List α) × Nat :=
  if cap < s.hint then (.panic "capacity overflow", 0) else checkPulls ty s.pull ts 0

/-- `Baseline::object_create` (client/rust/src/baseline.rs:125-191) on the caller's iterators, with the numbers of calls of their
`next`.  After the checks (164-165) nothing depends on the iterators any more, and the rest is `objectCreate`. -/
def objectCreateFrom (cap : Capacity) (b : Baseline) (C : ContractTy) (h : Idx) (states : Source DynProp)
    (channels : Source DynChannel) : (Baseline × Outcome Idx) × (Nat × Nat) :=
  if !b.contracts.contains h then ((b, .err "no such contract for that handle"), (0, 0))
  else
    match checkSource DynProp.propType cap.states states C.stateTypes with
    | (.err m, n) => ((b, .err m), (n, 0))
    | (.panic m, n) => ((b, .panic m), (n, 0))
    | (.ok ss, n) =>
      match checkSource Sigma.fst cap.channels channels C.channelTypes with
      | (.err m, k) => ((b, .err m), (n, k))
      | (.panic m, k) => ((b, .panic m), (n, k))
      | (.ok cs, k) => (b.objectCreate C h ss cs, (n, k))

end Baseline
end Verif
