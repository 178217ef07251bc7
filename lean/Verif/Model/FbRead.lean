import Verif.Model.FbBytes
import Verif.Model.Deserializer
/-!
# Reading a buffer, byte by byte

`flatbuffers::root::<fb::Baseline>` (/repo/client/serialize/rust/src/deserializer/new/mod.rs:76-77): the verifier of the flatbuffers
crate, 22.12.6, on the code flatc generates from /repo/client/serialize/flatbuffers/*.fbs, together with the accessors that read what
it has verified.  `none` is `InvalidFlatbuffer`.  Positions count from the beginning.  The limit on the number of tables is in
`Builder.new`; the limits on depth (64, this schema nests at most 5 levels) and on the total size visited (2 GiB) are not modelled.
-/
namespace Verif.Fb
open Verif

/-- `in_buffer` and `read_scalar_at`: a scalar of `n` bytes, aligned (flatbuffers 22.12.6, under
client/serialize/rust/src/deserializer/new/mod.rs:76-77). -/
def rd (b : Bytes) (n p : Nat) : Option Nat :=
  if p % n = 0 ∧ p + n ≤ b.length then some (ofLe ((b.drop p).take n)) else none

/-- A table: its position, the position and the length of its vtable (`TableVerifier`, flatbuffers 22.12.6, under
client/serialize/rust/src/deserializer/new/mod.rs:76-77). -/
structure Tab where
  pos : Nat
  vt : Nat
  len : Nat
deriving DecidableEq, Repr

/-- `deref_soffset`: the signed offset is subtracted (flatbuffers 22.12.6, under
client/serialize/rust/src/deserializer/new/mod.rs:76-77). -/
def derefSoffset (b : Bytes) (p so : Nat) : Option Nat :=
  if so < 2 ^ 31 then
    if so ≤ p then (if p - so < b.length then some (p - so) else none) else none
  else if p + (2 ^ 32 - so) < b.length then some (p + (2 ^ 32 - so)) else none

/-- `visit_table` (flatbuffers 22.12.6, under client/serialize/rust/src/deserializer/new/mod.rs:76-77). -/
def rdTable (b : Bytes) (p : Nat) : Option Tab :=
  (rd b 4 p).bind fun so => (derefSoffset b p so).bind fun vt => (rd b 2 vt).bind fun len =>
    if (vt + len) % 2 = 0 ∧ vt + len ≤ b.length then some ⟨p, vt, len⟩ else none

/-- `TableVerifier::deref`: where a field is; the inner `none` is an absent field (flatbuffers 22.12.6, under
client/serialize/rust/src/deserializer/new/mod.rs:76-77). -/
def Tab.field (b : Bytes) (t : Tab) (voff : Nat) : Option (Option Nat) :=
  if voff < t.len then (rd b 2 (t.vt + voff)).map fun o => if o = 0 then none else some (t.pos + o)
  else some none

/-- A scalar field of `n` bytes with default 0 (flatbuffers 22.12.6; e.g. client/serialize/flatbuffers/state.fbs:15-18). -/
def Tab.scalar (b : Bytes) (t : Tab) (voff n : Nat) : Option Nat :=
  (t.field b voff).bind fun
    | none => some 0
    | some p => rd b n p

/-- `ForwardsUOffset`: follow an offset and read what is there (flatbuffers 22.12.6, under
client/serialize/rust/src/deserializer/new/mod.rs:76-77). -/
def follow {α : Type} (b : Bytes) (k : Nat → Option α) (p : Nat) : Option α :=
  (rd b 4 p).bind fun o => k (p + o)

/-- An optional field that holds an offset (flatbuffers 22.12.6; e.g. client/serialize/flatbuffers/contract.fbs:6-9). -/
def Tab.offset {α : Type} (b : Bytes) (t : Tab) (voff : Nat) (k : Nat → Option α) : Option (Option α) :=
  (t.field b voff).bind fun
    | none => some none
    | some p => (follow b k p).map some

/-- The elements of a vector (flatbuffers 22.12.6, under client/serialize/rust/src/deserializer/new/mod.rs:76-77). -/
def elems {α : Type} (el : Nat → Option α) (size : Nat) : Nat → Nat → Option (List α)
  | _, 0 => some []
  | p, n + 1 => (el p).bind fun x => (elems el size (p + size) n).map (x :: ·)

/-- A vector of elements of `size` bytes (`verify_vector_range`, flatbuffers 22.12.6, under
client/serialize/rust/src/deserializer/new/mod.rs:76-77). -/
def rdVec {α : Type} (b : Bytes) (size : Nat) (el : Nat → Option α) (p : Nat) : Option (List α) :=
  (rd b 4 p).bind fun n =>
    if (p + 4) % size = 0 ∧ p + 4 + n * size ≤ b.length then elems el size (p + 4) n else none

/-- A string: a vector of bytes that are valid UTF-8, followed by a zero byte (flatbuffers 22.12.6, under
client/serialize/rust/src/deserializer/new/mod.rs:76-77). -/
def rdString (b : Bytes) (p : Nat) : Option String :=
  (rd b 4 p).bind fun n =>
    if p + 4 + n ≤ b.length ∧ b[p + 4 + n]? = some 0 then
      String.fromUTF8? ⟨((b.drop (p + 4)).take n).toArray⟩
    else none

/-- `ContractId` (client/serialize/flatbuffers/contract.fbs:11-16). -/
def rdContractId (b : Bytes) (p : Nat) : Option FbContractId :=
  (rdTable b p).bind fun t => (t.offset b 4 (rdString b)).bind fun name =>
    (t.scalar b 6 2).bind fun a => (t.scalar b 8 2).bind fun c => (t.scalar b 10 2).map fun d =>
      ⟨name, (BitVec.ofNat 16 a, BitVec.ofNat 16 c, BitVec.ofNat 16 d)⟩

/-- The kind with a number, if the schema declares it (client/serialize/flatbuffers/primitive.fbs:75-90). -/
def kindOfNo : Nat → Option FbKind
  | 0 => some .u8 | 1 => some .u16 | 2 => some .u32 | 3 => some .u64
  | 4 => some .i8 | 5 => some .i16 | 6 => some .i32 | 7 => some .i64
  | 8 => some .bool | 9 => some .f32 | 10 => some .f64 | 11 => some .string
  | 12 => some .objectHandle | 13 => some .contractDataHandle
  | _ => none

/-- `ContractStates` (client/serialize/flatbuffers/contract.fbs:19-22). -/
def rdContractStates (b : Bytes) (p : Nat) : Option FbContractStates :=
  (rdTable b p).bind fun t => (t.offset b 4 (rdVec b 4 (follow b (rdString b)))).bind fun names =>
    (t.offset b 6 (rdVec b 1 (fun q => (rd b 1 q).map kindOfNo))).map fun types => ⟨names, types⟩

/-- `Contract` (client/serialize/flatbuffers/contract.fbs:6-9). -/
def rdContract (b : Bytes) (p : Nat) : Option FbContract :=
  (rdTable b p).bind fun t => (t.offset b 4 (rdContractId b)).bind fun id =>
    (t.offset b 6 (rdContractStates b)).map fun states => ⟨id, states⟩

/-- A table with one scalar field of `n` bytes: the values and the handles (client/serialize/flatbuffers/primitive.fbs:8-50,
contract.fbs:24-27, state.fbs:15-18, object.fbs:11-14). -/
def rdScalar (b : Bytes) (n p : Nat) : Option Nat :=
  (rdTable b p).bind fun t => t.scalar b 4 n

/-- `FbString` (client/serialize/flatbuffers/primitive.fbs:52-54). -/
def rdFbString (b : Bytes) (p : Nat) : Option (Option String) :=
  (rdTable b p).bind fun t => t.offset b 4 (rdString b)

/-- `Object` (client/serialize/flatbuffers/object.fbs:6-9). -/
def rdObject (b : Bytes) (p : Nat) : Option FbObject :=
  (rdTable b p).bind fun t => (t.offset b 4 (rdScalar b 2)).bind fun c =>
    (t.offset b 6 (rdVec b 4 (follow b (rdScalar b 4)))).map fun sts =>
      ⟨c.map (BitVec.ofNat 16), sts.map (List.map (BitVec.ofNat 32))⟩

/-- The value of a union with the given discriminant, at the given place of its offset (client/serialize/flatbuffers/primitive.fbs:57-72);
a discriminant that is not declared is let through. -/
def rdUnion (b : Bytes) (tag p : Nat) : Option FbVal :=
  match tag with
  | 0 => some .none_
  | 1 => (follow b (rdScalar b 1) p).map fun x => .u8 (BitVec.ofNat 8 x)
  | 2 => (follow b (rdScalar b 2) p).map fun x => .u16 (BitVec.ofNat 16 x)
  | 3 => (follow b (rdScalar b 4) p).map fun x => .u32 (BitVec.ofNat 32 x)
  | 4 => (follow b (rdScalar b 8) p).map fun x => .u64 (BitVec.ofNat 64 x)
  | 5 => (follow b (rdScalar b 1) p).map fun x => .i8 (BitVec.ofNat 8 x)
  | 6 => (follow b (rdScalar b 2) p).map fun x => .i16 (BitVec.ofNat 16 x)
  | 7 => (follow b (rdScalar b 4) p).map fun x => .i32 (BitVec.ofNat 32 x)
  | 8 => (follow b (rdScalar b 8) p).map fun x => .i64 (BitVec.ofNat 64 x)
  | 9 => (follow b (rdScalar b 1) p).map fun x => .bool (decide (x ≠ 0))
  | 10 => (follow b (rdScalar b 4) p).map fun x => .f32 (BitVec.ofNat 32 x)
  | 11 => (follow b (rdScalar b 8) p).map fun x => .f64 (BitVec.ofNat 64 x)
  | 12 => (follow b (rdFbString b) p).map .fbString
  | 13 => (follow b (rdScalar b 4) p).map fun x => .objectHandle (BitVec.ofNat 32 x)
  | 14 => (follow b (rdScalar b 2) p).map fun x => .contractDataHandle (BitVec.ofNat 16 x)
  | n => some (.unknown n)

/-- `State` (client/serialize/flatbuffers/state.fbs:6-8; `visit_union`, flatbuffers 22.12.6): the discriminant and the value are both
present or both absent. -/
def rdState (b : Bytes) (p : Nat) : Option FbVal :=
  (rdTable b p).bind fun t => (t.field b 6).bind fun val => (t.field b 4).bind fun key =>
    match key, val with
    | none, none => some .none_
    | some k, some v => (rd b 1 k).bind fun tag => rdUnion b tag v
    | _, _ => none

/-- `Baseline` (client/serialize/flatbuffers/baseline.fbs:7-11). -/
def rdBaseline (b : Bytes) (p : Nat) : Option FbBaseline :=
  (rdTable b p).bind fun t => (t.offset b 4 (rdVec b 4 (follow b (rdContract b)))).bind fun cs =>
    (t.offset b 6 (rdVec b 4 (follow b (rdState b)))).bind fun sts =>
      (t.offset b 8 (rdVec b 4 (follow b (rdObject b)))).map fun os => ⟨cs, sts, os⟩

/-- `flatbuffers::root::<fb::Baseline>` (client/serialize/rust/src/deserializer/new/mod.rs:76-77).  The identifier is not looked at. -/
def root (b : Bytes) : Option FbBaseline := follow b (rdBaseline b) 0

/-- `DeserializerBuilder::new` on bytes (client/serialize/rust/src/deserializer/new/mod.rs:75-93). -/
def newBytes (b : Bytes) (kind : Kind) : Outcome Builder :=
  match root b with
  | none => .err "Error while verifying flatbuffer"
  | some buf => Builder.new buf kind

/-- The whole restoration from a file (client/serialize/rust/tests/round_trip.rs:85-106): `restore`, starting from bytes. -/
def restoreBytes (b : Bytes) (kind : Kind) (Cs : List ContractTy) (sched : IterOrder (ContractTy × Idx))
    (ord : IterOrder (Nat × Idx)) (hord : HashOrder) : Outcome (List (ContractTy × Idx) × Baseline) :=
  match newBytes b kind with
  | .err m => .err m
  | .panic m => .panic m
  | .ok bd =>
    match bd.registerAll Cs with
    | (_, .err m) => .err m
    | (_, .panic m) => .panic m
    | (bd1, .ok cs) =>
      match (Des.new bd1).deserializeAll (sched.order cs) with
      | (_, .err m) => .err m
      | (_, .panic m) => .panic m
      | (d, .ok ()) =>
        match d.finish ord hord with
        | .err m => .err m
        | .panic m => .panic m
        | .ok b => .ok (cs, b)

end Verif.Fb
