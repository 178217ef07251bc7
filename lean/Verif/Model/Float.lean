/-!
# IEEE-754 comparison on bit patterns

Rust `f32`/`f64` values are modelled as their bit patterns.  Only comparisons are needed by the
code (`PartialEq` on dynamic values, `partial_cmp` on keyframe times, `trunc().is_zero()`; client/rust/src/contract/properties/dynamic/eq_impls.rs, client/rust/src/contract/properties/channels/channel.rs:29-33, client/rust/src/contract/properties/channels/misc.rs:12), and
those are determined by the bits as the IEEE-754 standard prescribes.
-/
namespace Verif

/-- Sign bit, magnitude bits and the bit pattern of +infinity for a binary interchange format. (client/rust/src/contract/properties/channels/channel.rs:4-8, `f64`, and client/rust/src/contract/properties/channels/misc.rs:28, `f32`) -/
structure FloatFmt (w : Nat) where
  mag : BitVec w
  inf : BitVec w

/-- binary32 (Rust `f32`, used by client/rust/src/contract/properties/dynamic/__macro.rs:16). -/
def fmt32 : FloatFmt 32 := ⟨0x7fffffff#32, 0x7f800000#32⟩
/-- binary64 (Rust `f64`, client/rust/src/contract/properties/dynamic/__macro.rs:17 and keyframe times, client/rust/src/contract/properties/channels/channel.rs:7). -/
def fmt64 : FloatFmt 64 := ⟨0x7fffffffffffffff#64, 0x7ff0000000000000#64⟩

namespace FloatFmt
variable {w : Nat} (f : FloatFmt w)

/-- Magnitude (the bits without the sign) as a number; ordered like the absolute value. (used for client/rust/src/contract/properties/channels/channel.rs:31) -/
def magNat (x : BitVec w) : Nat := (x &&& f.mag).toNat

/-- Is the sign bit set? (used for client/rust/src/contract/properties/channels/channel.rs:31) -/
def neg (_f : FloatFmt w) (x : BitVec w) : Bool := x.msb

/-- NaN: magnitude above infinity. (used for client/rust/src/contract/properties/channels/channel.rs:31-32) -/
def isNaN (x : BitVec w) : Bool := f.inf.toNat < f.magNat x

/-- Order key of a non-NaN pattern: sign applied to the magnitude, so `-0.0` and `+0.0` share key 0. (used for client/rust/src/contract/properties/channels/channel.rs:31) -/
def key (x : BitVec w) : Int := if f.neg x then - (f.magNat x : Int) else (f.magNat x : Int)

/-- IEEE `==` (Rust `PartialEq` for floats): false if either is NaN, `-0.0 == +0.0`. (derived `PartialEq`, client/rust/src/contract/properties/channels/channel.rs:4) -/
def feq (x y : BitVec w) : Bool := !f.isNaN x && !f.isNaN y && f.key x == f.key y

/-- Rust `partial_cmp` for floats: `none` if either is NaN. (client/rust/src/contract/properties/channels/channel.rs:31) -/
def partialCmp (x y : BitVec w) : Option Ordering :=
  if f.isNaN x || f.isNaN y then none else some (compare (f.key x) (f.key y))

end FloatFmt
end Verif
