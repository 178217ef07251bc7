import Verif.Model.Types
/-!
# When two property values are equal: the specification

Written from the IEEE-754 field layout, independently of `Verif.Model.Float`.
-/
namespace Verif.Spec
open Verif

/-- binary32: exponent field all ones and a non-zero fraction field. -/
def F32NaN (x : BitVec 32) : Prop := x.toNat / 2 ^ 23 % 2 ^ 8 = 255 ∧ x.toNat % 2 ^ 23 ≠ 0
/-- binary32: `+0.0` or `-0.0` (everything but the sign is zero). -/
def F32Zero (x : BitVec 32) : Prop := x.toNat % 2 ^ 31 = 0
/-- binary64: exponent field all ones and a non-zero fraction field. -/
def F64NaN (x : BitVec 64) : Prop := x.toNat / 2 ^ 52 % 2 ^ 11 = 2047 ∧ x.toNat % 2 ^ 52 ≠ 0
/-- binary64: `+0.0` or `-0.0`. -/
def F64Zero (x : BitVec 64) : Prop := x.toNat % 2 ^ 63 = 0

/-- Equality of primitive values: identity, except that a NaN equals nothing and the two zeroes are
equal. -/
def PrimSame : (p : PrimType) → p.Carrier → p.Carrier → Prop
  | .f32, a, b => ¬ F32NaN a ∧ ¬ F32NaN b ∧ (a = b ∨ F32Zero a ∧ F32Zero b)
  | .f64, a, b => ¬ F64NaN a ∧ ¬ F64NaN b ∧ (a = b ∨ F64Zero a ∧ F64Zero b)
  | .u8, a, b => a = b | .u16, a, b => a = b | .u32, a, b => a = b | .u64, a, b => a = b
  | .i8, a, b => a = b | .i16, a, b => a = b | .i32, a, b => a = b | .i64, a, b => a = b
  | .bool, a, b => a = b | .string, a, b => a = b
  | .objectHandle, a, b => a = b | .contractDataHandle, a, b => a = b

/-- Equality of property values: vectors have equal length and equal elements. -/
def PropSame : (t : PropType) → t.Carrier → t.Carrier → Prop
  | .prim p, a, b => PrimSame p a b
  | .vec p, a, b => ∃ _h : a.length = b.length, ∀ (i : Nat) (hi : i < a.length),
      PrimSame p a[i] (b[i]'(by omega))

/-- A primitive value that is a NaN. -/
def PrimNaN : (p : PrimType) → p.Carrier → Prop
  | .f32, a => F32NaN a
  | .f64, a => F64NaN a
  | _, _ => False

/-- A property value that is, or contains, a NaN. -/
def PropNaN : (t : PropType) → t.Carrier → Prop
  | .prim p, a => PrimNaN p a
  | .vec p, a => ∃ x ∈ a, PrimNaN p x

end Verif.Spec
