import Verif.Model.FbRead
/-!
# The unchecked accessors

After `flatbuffers::root` has accepted a buffer, the generated accessors that
/repo/client/serialize/rust/src/deserializer/new/mod.rs:129-448 calls read it without looking at its bounds again: they are `unsafe`
code of the flatbuffers crate, 22.12.6, and of what flatc generates from /repo/client/serialize/flatbuffers/*.fbs.  Here `none` is a
read outside of the buffer, a string that is not UTF-8, an overflow, or the `unwrap` of an absent union value.  Each function reads all that can be
reached from a table; the deserializer reads a part of that.
-/
namespace Verif.Fb.Access
open Verif Verif.Fb

/-- `read_scalar_at`: `n` bytes at `p`, copied, so that alignment does not matter (flatbuffers 22.12.6, under
client/serialize/rust/src/deserializer/new/mod.rs:129-448). -/
def peek (b : Bytes) (n p : Nat) : Option Nat :=
  if p + n ≤ b.length then some (ofLe ((b.drop p).take n)) else none

/-- A position or a signed offset as `i32` (`SOffsetT`). (flatbuffers 22.12.6, under
client/serialize/rust/src/deserializer/new/mod.rs:129-448) -/
def i32 (n : Nat) : Int := (BitVec.ofNat 32 n).toInt

/-- `Table::vtable`, `BackwardsSOffset::follow`: `(loc as SOffsetT - off) as usize` (flatbuffers 22.12.6, under
client/serialize/rust/src/deserializer/new/mod.rs:129-448). -/
def vtable (b : Bytes) (p : Nat) : Option Nat :=
  (peek b 4 p).bind fun off =>
    if 0 ≤ i32 p - i32 off ∧ i32 p - i32 off < 2 ^ 31 then some (i32 p - i32 off).toNat else none

/-- `VTable::get` (flatbuffers 22.12.6, under client/serialize/rust/src/deserializer/new/mod.rs:129-448). -/
def slot (b : Bytes) (vt voff : Nat) : Option Nat :=
  (peek b 2 vt).bind fun len => if voff + 2 > len then some 0 else peek b 2 (vt + voff)

/-- `Table::get`: a field, or nothing if it is absent (flatbuffers 22.12.6, under
client/serialize/rust/src/deserializer/new/mod.rs:129-448). -/
def get {α : Type} (b : Bytes) (p voff : Nat) (k : Nat → Option α) : Option (Option α) :=
  (vtable b p).bind fun vt => (slot b vt voff).bind fun o => if o = 0 then some none else (k (p + o)).map some

/-- A scalar field with default 0 (flatbuffers 22.12.6; e.g. client/serialize/flatbuffers/state.fbs:15-18). -/
def scalar (b : Bytes) (p voff n : Nat) : Option Nat := (get b p voff (peek b n)).map fun x => x.getD 0

/-- `ForwardsUOffset::follow` (flatbuffers 22.12.6, under client/serialize/rust/src/deserializer/new/mod.rs:129-448). -/
def fwd {α : Type} (b : Bytes) (k : Nat → Option α) (p : Nat) : Option α := (peek b 4 p).bind fun o => k (p + o)

/-- The elements of a vector, read with `Vector::get` for all indices below its length (flatbuffers 22.12.6, under
client/serialize/rust/src/deserializer/new/mod.rs:129-448). -/
def items {α : Type} (el : Nat → Option α) (size start : Nat) : List Nat → Option (List α)
  | [] => some []
  | i :: is => (el (start + size * i)).bind fun x => (items el size start is).map (x :: ·)

/-- A vector of elements of `size` bytes (flatbuffers 22.12.6, under client/serialize/rust/src/deserializer/new/mod.rs:129-448). -/
def vec {α : Type} (b : Bytes) (size : Nat) (el : Nat → Option α) (p : Nat) : Option (List α) :=
  (peek b 4 p).bind fun n => items el size (p + 4) (List.range n)

/-- A string: `from_utf8_unchecked` on a slice (flatbuffers 22.12.6, under client/serialize/rust/src/deserializer/new/mod.rs:129-448). -/
def string (b : Bytes) (p : Nat) : Option String :=
  (peek b 4 p).bind fun n =>
    if p + 4 + n ≤ b.length then String.fromUTF8? ⟨((b.drop (p + 4)).take n).toArray⟩ else none

/-- `ContractId` (client/serialize/flatbuffers/contract.fbs:11-16). -/
def contractId (b : Bytes) (p : Nat) : Option FbContractId :=
  (get b p 4 (fwd b (string b))).bind fun name =>
    (scalar b p 6 2).bind fun x => (scalar b p 8 2).bind fun y => (scalar b p 10 2).map fun z =>
      ⟨name, (BitVec.ofNat 16 x, BitVec.ofNat 16 y, BitVec.ofNat 16 z)⟩

/-- `ContractStates` (client/serialize/flatbuffers/contract.fbs:19-22). -/
def contractStates (b : Bytes) (p : Nat) : Option FbContractStates :=
  (get b p 4 (fwd b (vec b 4 (fwd b (string b))))).bind fun names =>
    (get b p 6 (fwd b (vec b 1 fun q => (peek b 1 q).map kindOfNo))).map fun types => ⟨names, types⟩

/-- `Contract` (client/serialize/flatbuffers/contract.fbs:6-9). -/
def contract (b : Bytes) (p : Nat) : Option FbContract :=
  (get b p 4 (fwd b (contractId b))).bind fun id => (get b p 6 (fwd b (contractStates b))).map fun states => ⟨id, states⟩

/-- A table with one scalar field of `n` bytes: the values and the handles (client/serialize/flatbuffers/primitive.fbs:8-50,
contract.fbs:24-27, state.fbs:15-18, object.fbs:11-14). -/
def value (b : Bytes) (n p : Nat) : Option Nat := scalar b p 4 n

/-- `Object` (client/serialize/flatbuffers/object.fbs:6-9). -/
def object (b : Bytes) (p : Nat) : Option FbObject :=
  (get b p 4 (fwd b (value b 2))).bind fun c => (get b p 6 (fwd b (vec b 4 (fwd b (value b 4))))).map fun sts =>
    ⟨c.map (BitVec.ofNat 16), sts.map (List.map (BitVec.ofNat 32))⟩

/-- What `p_as_…` reads at the value of the union for the declared discriminants 1 to 14
(client/serialize/flatbuffers/primitive.fbs:57-72, client/serialize/rust/src/deserializer/new/mod.rs:376-423). -/
def payload (b : Bytes) : Nat → Nat → Option FbVal
  | 1, p => (value b 1 p).map fun x => .u8 (BitVec.ofNat 8 x)
  | 2, p => (value b 2 p).map fun x => .u16 (BitVec.ofNat 16 x)
  | 3, p => (value b 4 p).map fun x => .u32 (BitVec.ofNat 32 x)
  | 4, p => (value b 8 p).map fun x => .u64 (BitVec.ofNat 64 x)
  | 5, p => (value b 1 p).map fun x => .i8 (BitVec.ofNat 8 x)
  | 6, p => (value b 2 p).map fun x => .i16 (BitVec.ofNat 16 x)
  | 7, p => (value b 4 p).map fun x => .i32 (BitVec.ofNat 32 x)
  | 8, p => (value b 8 p).map fun x => .i64 (BitVec.ofNat 64 x)
  | 9, p => (value b 1 p).map fun x => .bool (decide (x ≠ 0))
  | 10, p => (value b 4 p).map fun x => .f32 (BitVec.ofNat 32 x)
  | 11, p => (value b 8 p).map fun x => .f64 (BitVec.ofNat 64 x)
  | 12, p => (get b p 4 (fwd b (string b))).map .fbString
  | 13, p => (value b 4 p).map fun x => .objectHandle (BitVec.ofNat 32 x)
  | 14, p => (value b 2 p).map fun x => .contractDataHandle (BitVec.ofNat 16 x)
  | _, _ => none

/-- `State`: `p_type`, and for a declared discriminant `p_as_…().unwrap()`, which reads the offset of the value and follows it
(client/serialize/flatbuffers/state.fbs:6-8, client/serialize/rust/src/deserializer/new/mod.rs:376-423).  With no
value, or with an undeclared discriminant, nothing more is read. -/
def state (b : Bytes) (p : Nat) : Option FbVal :=
  (scalar b p 4 1).bind fun tag =>
    if tag = 0 then some .none_
    else if 14 < tag then some (.unknown tag)
    else (get b p 6 (fwd b (payload b tag))).bind id

/-- `Baseline` (client/serialize/flatbuffers/baseline.fbs:7-11). -/
def baseline (b : Bytes) (p : Nat) : Option FbBaseline :=
  (get b p 4 (fwd b (vec b 4 (fwd b (contract b))))).bind fun cs =>
    (get b p 6 (fwd b (vec b 4 (fwd b (state b))))).bind fun sts =>
      (get b p 8 (fwd b (vec b 4 (fwd b (object b))))).map fun os => ⟨cs, sts, os⟩

/-- All that can be read from the root on (client/serialize/rust/src/deserializer/new/mod.rs:76-77). -/
def everything (b : Bytes) : Option FbBaseline := fwd b (baseline b) 0

end Verif.Fb.Access
