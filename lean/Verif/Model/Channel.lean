import Mathlib.Data.Rat.Floor
import Mathlib.Data.Finset.Max
import Mathlib.Order.Interval.Finset.Defs
import Mathlib.Data.Int.Interval
import Mathlib.Tactic.Linarith
import Verif.Model.Baseline
/-!
# Channel construction and tweening

Models /repo/client/rust/src/contract/properties/channels/{channel,misc}.rs.

`slice::sort_unstable_by` is the standard library's, modelled by its documented contract
(`SortImpl`).  f32 arithmetic of `IntTweenable` is modelled by exact rationals followed by *some*
round-to-nearest function (`F32Round`), i.e. independently of the tie-breaking rule.
-/
namespace Verif

/-- `cmp` is a total order (with ties) on the elements of `l`: what `sort_unstable_by` asks of its
argument. (the closure at client/rust/src/contract/properties/channels/channel.rs:29-33) -/
def TotalOn {α : Type} (cmp : α → α → Ordering) (l : List α) : Prop :=
  (∀ a ∈ l, ∀ b ∈ l, cmp b a = (cmp a b).swap) ∧
  (∀ a ∈ l, ∀ b ∈ l, ∀ c ∈ l, cmp a b ≠ .gt → cmp b c ≠ .gt → cmp a c ≠ .gt)

/-- The documented contract of `slice::sort_unstable_by` (called at client/rust/src/contract/properties/channels/channel.rs:29-33):
`none` is a panic.  If it returns, the result is a rearrangement; if the comparison is a total order on
the elements, it returns and the result is sorted.  For other comparisons the documentation permits
any order, or a panic. -/
structure SortImpl (α : Type) where
  sort : (α → α → Ordering) → List α → Option (List α)
  perm : ∀ (cmp : α → α → Ordering) (l l' : List α), sort cmp l = some l' → l'.Perm l
  sorted : ∀ (cmp : α → α → Ordering) (l : List α), TotalOn cmp l →
    ∃ l', sort cmp l = some l' ∧ l'.Pairwise (fun a b => cmp a b ≠ .gt)

/-- The comparison of `Channel::new` (client/rust/src/contract/properties/channels/channel.rs:29-33). -/
def keyframeCmp {α : Type} (a b : Keyframe α) : Ordering :=
  match fmt64.partialCmp a.time b.time with
  | some o => o
  | none => .eq

/-- `Channel::new` (client/rust/src/contract/properties/channels/channel.rs:26-35). -/
def channelNew {α : Type} (impl : SortImpl (Keyframe α)) (ks : List (Keyframe α)) :
    Option (List (Keyframe α)) :=
  impl.sort keyframeCmp ks

/-! ## Tweening -/

/-- A floating-point time: NaN, an infinity, or a number. (`time: impl Float`, client/rust/src/contract/properties/channels/misc.rs:11) -/
inductive FTime where
  | nan
  | inf (negative : Bool)
  | fin (q : ℚ)

/-- `Float::trunc().is_zero()`: rounding towards zero gives zero; NaN and infinities are not zero. (client/rust/src/contract/properties/channels/misc.rs:12) -/
def FTime.truncIsZero : FTime → Bool
  | .nan => false
  | .inf _ => false
  | .fin q => decide ((if 0 ≤ q then ⌊q⌋ else ⌈q⌉) = 0)

/-- `JumpTweenable::ease` (client/rust/src/contract/properties/channels/misc.rs:9-18). -/
def jumpEase {α : Type} (start target : α) (time : FTime) : α :=
  if time.truncIsZero then start else target

/-- The finite binary32 numbers: `m * 2^e` with a 24-bit significand; by `C38_binary32_numbers` exactly the values of the finite `f32`
bit patterns.  (`f32` of client/rust/src/contract/properties/channels/misc.rs:28) -/
def F32Repr (x : ℚ) : Prop :=
  ∃ m e : ℤ, |m| < 2 ^ 24 ∧ -149 ≤ e ∧ e ≤ 104 ∧ x = m * (2 : ℚ) ^ e

/-- Rounding to a nearest binary32 number, any tie-breaking rule: the behaviour of f32 conversion and
multiplication used by `IntTweenable::ease` (client/rust/src/contract/properties/channels/misc.rs:28-29).  (Overflow to infinity cannot happen: the
values are below 2^65.) -/
structure F32Round where
  rnd : ℚ → ℚ
  repr : ∀ x : ℚ, F32Repr (rnd x)
  nearest : ∀ x y : ℚ, F32Repr y → |rnd x - x| ≤ |y - x|

/-- An integer type `T: PrimInt`, by its range. (client/rust/src/contract/properties/channels/misc.rs:23) -/
structure IntTy where
  lo : ℤ
  hi : ℤ

/-- `i8`, `i32`, `u8`, … (the primitive integer types `IntTweenable<T>` is used with, client/rust/src/contract/properties/channels/misc.rs:23). -/
def IntTy.i8 : IntTy := ⟨-128, 127⟩
/-- See `IntTy.i8`. (client/rust/src/contract/properties/channels/misc.rs:23) -/
def IntTy.u8 : IntTy := ⟨0, 255⟩
/-- See `IntTy.i8`. (client/rust/src/contract/properties/channels/misc.rs:23) -/
def IntTy.i32 : IntTy := ⟨-2147483648, 2147483647⟩
/-- See `IntTy.i8`. (client/rust/src/contract/properties/channels/misc.rs:23) -/
def IntTy.u32 : IntTy := ⟨0, 4294967295⟩

/-- Is a value of the type. (`T` at client/rust/src/contract/properties/channels/misc.rs:23) -/
def IntTy.Has (T : IntTy) (x : ℤ) : Prop := T.lo ≤ x ∧ x ≤ T.hi

instance (T : IntTy) (x : ℤ) : Decidable (T.Has x) := inferInstanceAs (Decidable (_ ∧ _))

/-- `f32 as u32`: truncate towards zero, saturating at the ends. (client/rust/src/contract/properties/channels/misc.rs:29) -/
def asU32 (x : ℚ) : ℤ := if x < 0 then 0 else min ⌊x⌋ 4294967295

/-- `IntTweenable::ease` (client/rust/src/contract/properties/channels/misc.rs:27-32) at a finite time (`to_f32` rounds an f64 time and
keeps an f32 one), with overflow checks on (debug builds): `to - from`, the `from_u32` conversion and the final addition panic when they do not
fit. -/
def intEase (R : F32Round) (T : IntTy) (start target : ℤ) (time : ℚ) : Outcome ℤ :=
  if ¬ T.Has (target - start) then .panic "attempt to subtract with overflow"
  else
    let diff := R.rnd (target - start : ℤ)
    let scaled := asU32 (R.rnd (R.rnd time * diff))
    if ¬ T.Has scaled then .panic "called `Option::unwrap()` on a `None` value"
    else if ¬ T.Has (start + scaled) then .panic "attempt to add with overflow"
    else .ok (start + scaled)

/-- `(time.to_f32().unwrap() * diff) as u32` (client/rust/src/contract/properties/channels/misc.rs:29) at any time: `as u32` turns NaN into 0
and saturates.  A finite time or product beyond the range of f32 becomes an infinity there and a largest `F32Repr` number here; both
are cut down to the same `u32`, since a nonzero `diff` is at least 1. -/
def scaledDiff (R : F32Round) (diff : ℚ) : FTime → ℤ
  | .nan => 0
  | .inf negative => if diff = 0 then 0 else if decide (diff < 0) = negative then 4294967295 else 0
  | .fin q => asU32 (R.rnd (R.rnd q * diff))

/-- `IntTweenable::ease` (client/rust/src/contract/properties/channels/misc.rs:27-32) at any time, as `intEase`. -/
def intEaseAt (R : F32Round) (T : IntTy) (start target : ℤ) (time : FTime) : Outcome ℤ :=
  if ¬ T.Has (target - start) then .panic "attempt to subtract with overflow"
  else
    let scaled := scaledDiff R (R.rnd (target - start : ℤ)) time
    if ¬ T.Has scaled then .panic "called `Option::unwrap()` on a `None` value"
    else if ¬ T.Has (start + scaled) then .panic "attempt to add with overflow"
    else .ok (start + scaled)

end Verif
