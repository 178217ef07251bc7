import Verif.Model.Channel
/-!
# What a floating-point bit pattern means (IEEE 754)

Independent of how the model compares bit patterns.
-/
namespace Verif.Spec
open Verif

/-- The number a bit pattern stands for, in a format with `p` fraction bits and `eb` exponent bits: sign, exponent and fraction fields from
the top.  An exponent of all ones means infinity or NaN, an exponent of zero a subnormal number. -/
def ieeeValue (p eb : Nat) (n : Nat) : FTime :=
  let s := n / 2 ^ (p + eb)
  let e := n / 2 ^ p % 2 ^ eb
  let m := n % 2 ^ p
  let sign : ℚ := if s = 0 then 1 else -1
  if e = 2 ^ eb - 1 then (if m = 0 then .inf (decide (s ≠ 0)) else .nan)
  else if e = 0 then .fin (sign * ((m : ℚ) / 2 ^ p) * (2 : ℚ) ^ (2 - 2 ^ (eb - 1) : ℤ))
  else .fin (sign * (1 + (m : ℚ) / 2 ^ p) * (2 : ℚ) ^ ((e : ℤ) - (2 ^ (eb - 1) - 1) : ℤ))

/-- The value of an `f32`. -/
def f32Value (x : BitVec 32) : FTime := ieeeValue 23 8 x.toNat
/-- The value of an `f64`. -/
def f64Value (x : BitVec 64) : FTime := ieeeValue 52 11 x.toNat

/-- `x < y` as numbers; false when either is a NaN. -/
def FLt : FTime → FTime → Prop
  | .fin q, .fin r => q < r
  | .fin _, .inf neg => neg = false
  | .inf neg, .fin _ => neg = true
  | .inf neg, .inf neg' => neg = true ∧ neg' = false
  | _, _ => False

/-- `x = y` as numbers; false when either is a NaN. -/
def FEq (x y : FTime) : Prop := x = y ∧ x ≠ .nan

/-- `x ≤ y` as numbers. -/
def FLe (x y : FTime) : Prop := FLt x y ∨ FEq x y

end Verif.Spec
