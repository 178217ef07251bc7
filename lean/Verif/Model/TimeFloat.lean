import Verif.Model.Channel
import Verif.Model.Time
/-!
# Floating-point views of times and scales

Models the float accessors of client/rust/src/time/mod.rs.  Conversions and divisions are exact rational arithmetic
followed by a rounding to nearest (any tie-breaking rule): `F32Round` for `f32` (see `Model/Channel`), `F64Round` for `f64`.
-/
namespace Verif

/-- The finite binary64 numbers: `m * 2^e` with a 53-bit significand; by `C74_binary64_numbers` exactly the values of the finite `f64`
bit patterns.  (`f64` of client/rust/src/time/mod.rs:103-105) -/
def F64Repr (x : ℚ) : Prop :=
  ∃ m e : ℤ, |m| < 2 ^ 53 ∧ -1074 ≤ e ∧ e ≤ 971 ∧ x = m * (2 : ℚ) ^ e

/-- Rounding to a nearest binary64 number, any tie-breaking rule: f64 conversion and division as used by
`TimeScale::as_f64` (client/rust/src/time/mod.rs:103-105). -/
structure F64Round where
  rnd : ℚ → ℚ
  repr : ∀ x : ℚ, F64Repr (rnd x)
  nearest : ∀ x y : ℚ, F64Repr y → |rnd x - x| ≤ |y - x|

/-- `Ticks::as_millis_i64` (client/rust/src/time/mod.rs:22-24): `as i64` sign-extends. -/
def Ticks.asMillisI64 (t : Ticks) : BitVec 64 := t.signExtend 64

/-- `Ticks::as_secs_f32` (client/rust/src/time/mod.rs:32-34). -/
def Ticks.asSecsF32 (R : F32Round) (t : Ticks) : ℚ := R.rnd (R.rnd (t.toInt : ℚ) / R.rnd 1024)

/-- `TimeScale::numerator_as_i64` (client/rust/src/time/mod.rs:91-93). -/
def TimeScale.numeratorAsI64 (s : TimeScale) : BitVec 64 := s.signExtend 64

/-- `TimeScale::as_f32` (client/rust/src/time/mod.rs:100-102). -/
def TimeScale.asF32 (R : F32Round) (s : TimeScale) : ℚ :=
  R.rnd (R.rnd (s.toInt : ℚ) / R.rnd (TimeScale.denominator.toNat : ℚ))

/-- `TimeScale::as_f64` (client/rust/src/time/mod.rs:103-105). -/
def TimeScale.asF64 (R : F64Round) (s : TimeScale) : ℚ :=
  R.rnd (R.rnd (s.toInt : ℚ) / R.rnd (TimeScale.denominator.toNat : ℚ))

end Verif
