import Verif.Model.Serializer
/-!
# The flatbuffer builder, byte by byte

`FlatBufferBuilder` of the flatbuffers crate, 22.12.6 (/repo/Cargo.lock), as used by
/repo/client/serialize/rust/src/serializer/mod.rs, and the `create` functions flatc generates from
/repo/client/serialize/flatbuffers/*.fbs (client/serialize/rust/build.rs:3-20).  Neither is in /repo; they are modelled after their
published source.  The builder writes from the end of its buffer to the front: `buf` is the part written so far, and an offset
(`WIPOffset`) is a distance from the end.  Growing the underlying vector is not modelled.  A subtraction that overflows panics
(`none`), as in a build with overflow checks.
-/
namespace Verif.Fb
open Verif

/-- A byte string (the `&[u8]` of client/serialize/rust/src/deserializer/new/mod.rs:75). -/
abbrev Bytes := List UInt8

/-- The `n` low bytes of a number, the least significant first: `emplace_scalar`
(flatbuffers 22.12.6, under client/serialize/rust/src/serializer/mod.rs:56-58 and every other `create`). -/
def le : Nat → Nat → Bytes
  | 0, _ => []
  | n + 1, x => UInt8.ofNat (x % 256) :: le n (x / 256)

/-- The number whose bytes are given, the least significant first: `read_scalar_at` (flatbuffers 22.12.6, under
client/serialize/rust/src/deserializer/new/mod.rs:76-77). -/
def ofLe : Bytes → Nat
  | [] => 0
  | b :: bs => b.toNat + 256 * ofLe bs

/-- The last `r` bytes: what a builder offset `r` points to the beginning of
(`WIPOffset`, client/serialize/rust/src/serializer/mod.rs:27-29). -/
def suf (b : Bytes) (r : Nat) : Bytes := b.drop (b.length - r)

/-- `FlatBufferBuilder` (flatbuffers 22.12.6; client/serialize/rust/src/serializer/mod.rs:25): the bytes written, the largest
alignment met (`min_align`) and the offsets of the vtables written (`written_vtable_revpos`). -/
structure Fbb where
  buf : Bytes
  minAlign : Nat
  vtables : List Nat
deriving DecidableEq, Repr

/-- A builder after `reset` (client/serialize/rust/src/serializer/mod.rs:34). -/
def Fbb.empty : Fbb := ⟨[], 0, []⟩

/-- `padding_bytes`: how many bytes make `size` a multiple of `a` (flatbuffers 22.12.6, under
client/serialize/rust/src/serializer/mod.rs:256-271). -/
def padding (size a : Nat) : Nat := (a - size % a) % a

/-- `align`: pad with zeros so that after `len` more bytes the size is a multiple of `a` (flatbuffers 22.12.6, under
client/serialize/rust/src/serializer/mod.rs:256-271). -/
def Fbb.align (f : Fbb) (len a : Nat) : Fbb :=
  ⟨List.replicate (padding (f.buf.length + len) a) 0 ++ f.buf, max f.minAlign a, f.vtables⟩

/-- `push_bytes_unprefixed` (flatbuffers 22.12.6, under client/serialize/rust/src/serializer/mod.rs:271). -/
def Fbb.raw (f : Fbb) (bs : Bytes) : Fbb := ⟨bs ++ f.buf, f.minAlign, f.vtables⟩

/-- `push` of a scalar of `n` bytes (flatbuffers 22.12.6, under client/serialize/rust/src/serializer/mod.rs:57). -/
def Fbb.push (f : Fbb) (n x : Nat) : Fbb := (f.align n n).raw (le n x)

/-- `push` of an offset: the distance from the place written to the target, `SIZE_UOFFSET + written_len - self.value()`
(flatbuffers 22.12.6, under client/serialize/rust/src/serializer/mod.rs:140-147). -/
def Fbb.pushOff (f : Fbb) (t : Nat) : Option Fbb :=
  let g := f.align 4 4
  if t ≤ 4 + g.buf.length then some (g.raw (le 4 (4 + g.buf.length - t))) else none

/-- The bytes of a string (`as_bytes`, client/serialize/rust/src/serializer/mod.rs:98). -/
def strBytes (s : String) : Bytes := s.toByteArray.data.toList

/-- `create_string` (flatbuffers 22.12.6; client/serialize/rust/src/serializer/mod.rs:98, 159, 175). -/
def Fbb.createString (f : Fbb) (s : String) : Fbb × Nat :=
  let bs := strBytes s
  let g := (((f.align (bs.length + 1) 4).push 1 0).raw bs).push 4 bs.length
  (g, g.buf.length)

/-- The elements of a vector of offsets, the last one first (flatbuffers 22.12.6; client/serialize/rust/src/serializer/mod.rs:140). -/
def Fbb.pushOffs (f : Fbb) : List Nat → Option Fbb
  | [] => some f
  | t :: ts => (f.pushOffs ts).bind fun g => g.pushOff t

/-- `create_vector` and `create_vector_from_iter` for offsets (flatbuffers 22.12.6; client/serialize/rust/src/serializer/mod.rs:140,
177, 257-259). -/
def Fbb.createVecOff (f : Fbb) (ts : List Nat) : Option (Fbb × Nat) :=
  ((f.align (ts.length * 4) 4).pushOffs ts).map fun g => (g.push 4 ts.length, (g.push 4 ts.length).buf.length)

/-- The elements of a vector of one-byte scalars, the last one first (flatbuffers 22.12.6;
client/serialize/rust/src/serializer/mod.rs:190). -/
def Fbb.pushBytes (f : Fbb) : List Nat → Fbb
  | [] => f
  | x :: xs => (f.pushBytes xs).push 1 x

/-- `create_vector` for one-byte enums (flatbuffers 22.12.6; client/serialize/rust/src/serializer/mod.rs:190). -/
def Fbb.createVecBytes (f : Fbb) (xs : List Nat) : Fbb × Nat :=
  let g := ((f.align (xs.length * 1) 4).pushBytes xs).push 4 xs.length
  (g, g.buf.length)

/-- What is put into a field of a table: a scalar of `n` bytes or an offset
(client/serialize/flatbuffers/contract.fbs:11-16 has both). -/
inductive Slot where
  | scalar (n x : Nat)
  | off (t : Nat)
deriving DecidableEq, Repr

/-- `push_slot_always` without the bookkeeping (flatbuffers 22.12.6; client/serialize/rust/src/serializer/mod.rs:79-85). -/
def Fbb.pushSlot (f : Fbb) : Slot → Option Fbb
  | .scalar n x => some (f.push n x)
  | .off t => f.pushOff t

/-- The fields of a table, with the places they were put at (`field_locs`) (flatbuffers 22.12.6;
client/serialize/rust/src/serializer/mod.rs:79-85).  A field is named by its offset in the vtable: 4 for the first, 6 for the second,
and so on. -/
def Fbb.pushSlots (f : Fbb) : List (Nat × Slot) → Option (Fbb × List (Nat × Nat))
  | [] => some (f, [])
  | (voff, s) :: rest =>
    (f.pushSlot s).bind fun g => (g.pushSlots rest).map fun e => (e.1, (voff, g.buf.length) :: e.2)

/-- The length of a vtable that has the given fields (`write_vtable`, flatbuffers 22.12.6, under
client/serialize/rust/src/serializer/mod.rs:79-85). -/
def vtableLen (locs : List (Nat × Nat)) : Nat :=
  match (locs.map Prod.fst).max? with
  | none => 4
  | some m => m + 2

/-- The entry of a field: the distance from the table, or 0 if it is absent (`write_vtable`, flatbuffers 22.12.6, under
client/serialize/rust/src/serializer/mod.rs:79-85). -/
def vtableEntry (r : Nat) (locs : List (Nat × Nat)) (voff : Nat) : Nat :=
  match locs.find? fun l => l.1 = voff with
  | none => 0
  | some l => r - l.2

/-- The bytes of a vtable: its length, the size of the table, the entries (`write_vtable`, flatbuffers 22.12.6, under
client/serialize/rust/src/serializer/mod.rs:79-85). -/
def vtableBytes (r start : Nat) (locs : List (Nat × Nat)) : Bytes :=
  le 2 (vtableLen locs) ++ le 2 (r - start) ++
    (List.range ((vtableLen locs - 4) / 2)).flatMap fun i => le 2 (vtableEntry r locs (4 + 2 * i))

/-- The bytes of a vtable written earlier (`VTable::as_bytes`, flatbuffers 22.12.6, under
client/serialize/rust/src/serializer/mod.rs:79-85). -/
def vtableAt (buf : Bytes) (v : Nat) : Bytes := (suf buf v).take (ofLe ((suf buf v).take 2))

/-- The four bytes that lead from a table at `r` to its vtable at `v`: `v - r` in two's complement (`write_vtable`, flatbuffers
22.12.6, under client/serialize/rust/src/serializer/mod.rs:79-85). -/
def soffset (v r : Nat) : Bytes := le 4 (v + 2 ^ 32 - r)

/-- `start_table`, the fields, `end_table` (flatbuffers 22.12.6; client/serialize/rust/src/serializer/mod.rs:79-85).  An equal vtable
written earlier is used again; the crate finds it by binary search in a sorted list without repetitions, here it is the first that
is equal. -/
def Fbb.createTable (f : Fbb) (slots : List (Nat × Slot)) : Option (Fbb × Nat) :=
  (f.pushSlots slots).map fun (g, locs) =>
    let a := g.align 4 4
    let r := a.buf.length + 4
    let vt := vtableBytes r f.buf.length locs
    match a.vtables.find? fun v => vtableAt a.buf v = vt with
    | some v => (a.raw (soffset v r), r)
    | none => (⟨vt ++ (soffset (r + vt.length) r ++ a.buf), a.minAlign, (r + vt.length) :: a.vtables⟩, r)

/-- `finish` (flatbuffers 22.12.6; client/serialize/rust/src/serializer/mod.rs:271): room for the root offset and the identifier, the
identifier (`PREFIX`, client/serialize/rust/src/lib.rs:58), the root offset. -/
def Fbb.finish (f : Fbb) (root : Nat) (ident : Bytes) : Option Bytes :=
  (((f.align 8 f.minAlign).raw ident).pushOff root).map Fbb.buf

/-- The field `voff` with a scalar of `n` bytes: `push_slot`, which leaves out the default 0 (flatbuffers 22.12.6;
client/serialize/rust/src/serializer/mod.rs:79). -/
def scalarSlot (voff n x : Nat) : List (Nat × Slot) := if x = 0 then [] else [(voff, .scalar n x)]

/-- `ContractId::create` (client/serialize/flatbuffers/contract.fbs:11-16, client/serialize/rust/src/serializer/mod.rs:160-168): flatc
writes the fields by decreasing size, the last declared first. -/
def Fbb.createContractId (f : Fbb) (name : Nat) (v : BitVec 16 × BitVec 16 × BitVec 16) : Option (Fbb × Nat) :=
  f.createTable ((4, .off name) :: (scalarSlot 10 2 v.2.2.toNat ++ scalarSlot 8 2 v.2.1.toNat ++ scalarSlot 6 2 v.1.toNat))

/-- `ContractStates::create` (client/serialize/flatbuffers/contract.fbs:19-22, client/serialize/rust/src/serializer/mod.rs:192-198). -/
def Fbb.createContractStates (f : Fbb) (names types : Nat) : Option (Fbb × Nat) :=
  f.createTable [(6, .off types), (4, .off names)]

/-- `Contract::create` (client/serialize/flatbuffers/contract.fbs:6-9, client/serialize/rust/src/serializer/mod.rs:200-205). -/
def Fbb.createContract (f : Fbb) (id states : Nat) : Option (Fbb × Nat) :=
  f.createTable [(6, .off states), (4, .off id)]

/-- `ContractDataHandle::create` (client/serialize/flatbuffers/contract.fbs:24-27, client/serialize/rust/src/serializer/mod.rs:57). -/
def Fbb.createContractDataHandle (f : Fbb) (idx : BitVec 16) : Option (Fbb × Nat) :=
  f.createTable (scalarSlot 4 2 idx.toNat)

/-- `StateHandle::create` and `ObjectHandle::create` (client/serialize/flatbuffers/state.fbs:15-18, object.fbs:11-14,
client/serialize/rust/src/serializer/mod.rs:135-136, 224-229). -/
def Fbb.createHandle32 (f : Fbb) (idx : BitVec 32) : Option (Fbb × Nat) :=
  f.createTable (scalarSlot 4 4 idx.toNat)

/-- `Object::create` (client/serialize/flatbuffers/object.fbs:6-9, client/serialize/rust/src/serializer/mod.rs:141-147). -/
def Fbb.createObject (f : Fbb) (contract states : Nat) : Option (Fbb × Nat) :=
  f.createTable [(6, .off states), (4, .off contract)]

/-- `State::create` for a union with discriminant `tag` (client/serialize/flatbuffers/state.fbs:6-8,
client/serialize/rust/src/serializer/mod.rs:80-86): the value is the second field, its discriminant the first. -/
def Fbb.createState (f : Fbb) (tag p : Nat) : Option (Fbb × Nat) :=
  f.createTable ((6, .off p) :: scalarSlot 4 1 tag)

/-- `Baseline::create` (client/serialize/flatbuffers/baseline.fbs:7-11, client/serialize/rust/src/serializer/mod.rs:260-268). -/
def Fbb.createBaseline (f : Fbb) (contracts states objects : Nat) : Option (Fbb × Nat) :=
  f.createTable [(8, .off objects), (6, .off states), (4, .off contracts)]

/-- The number of a kind (client/serialize/flatbuffers/primitive.fbs:75-90). -/
def kindNo : FbKind → Nat
  | .u8 => 0 | .u16 => 1 | .u32 => 2 | .u64 => 3 | .i8 => 4 | .i16 => 5 | .i32 => 6 | .i64 => 7
  | .bool => 8 | .f32 => 9 | .f64 => 10 | .string => 11 | .objectHandle => 12 | .contractDataHandle => 13

/-- `F32` and `F64` leave the field out if it compares equal to 0.0 (client/serialize/flatbuffers/primitive.fbs:44-50,
client/serialize/rust/src/serializer/mod.rs:79). -/
def floatSlot (n : Nat) (isZero : Bool) (x : Nat) : List (Nat × Slot) := if isZero then [] else [(4, .scalar n x)]

/-- The table of a value and its `State` (the macro `helper!`, client/serialize/rust/src/serializer/mod.rs:75-88). -/
def Fbb.createScalarState (f : Fbb) (tag : Nat) (slots : List (Nat × Slot)) : Option (Fbb × Nat) :=
  (f.createTable slots).bind fun (g, p) => g.createState tag p

/-- A string state (client/serialize/rust/src/serializer/mod.rs:97-108). -/
def Fbb.createStringState (f : Fbb) (s : String) : Option (Fbb × Nat) :=
  let (g, r) := f.createString s
  (g.createTable [(4, .off r)]).bind fun (g, p) => g.createState 12 p

/-- The placeholder offset of a handle state (client/serialize/rust/src/serializer/mod.rs:22). -/
def wipDummy : Nat := 1337

/-- Writing one state value (client/serialize/rust/src/serializer/mod.rs:89-119): the outer `none` is the `todo!` for vectors, the inner
one an overflow in the builder.  The discriminants are those of the union (client/serialize/flatbuffers/primitive.fbs:57-72), from 1. -/
def Fbb.createValue (f : Fbb) : DynProp → Option (Option (Fbb × Nat))
  | .primitive (.u8 v) => some (f.createScalarState 1 (scalarSlot 4 1 v.toNat))
  | .primitive (.u16 v) => some (f.createScalarState 2 (scalarSlot 4 2 v.toNat))
  | .primitive (.u32 v) => some (f.createScalarState 3 (scalarSlot 4 4 v.toNat))
  | .primitive (.u64 v) => some (f.createScalarState 4 (scalarSlot 4 8 v.toNat))
  | .primitive (.i8 v) => some (f.createScalarState 5 (scalarSlot 4 1 v.toNat))
  | .primitive (.i16 v) => some (f.createScalarState 6 (scalarSlot 4 2 v.toNat))
  | .primitive (.i32 v) => some (f.createScalarState 7 (scalarSlot 4 4 v.toNat))
  | .primitive (.i64 v) => some (f.createScalarState 8 (scalarSlot 4 8 v.toNat))
  | .primitive (.bool v) => some (f.createScalarState 9 (scalarSlot 4 1 v.toNat))
  | .primitive (.f32 v) => some (f.createScalarState 10 (floatSlot 4 (fmt32.feq v 0#32) v.toNat))
  | .primitive (.f64 v) => some (f.createScalarState 11 (floatSlot 8 (fmt64.feq v 0#64) v.toNat))
  | .primitive (.string v) => some (f.createStringState v)
  | .primitive (.objectHandle _) => some (some (f, wipDummy))
  | .primitive (.contractDataHandle _) => some (some (f, wipDummy))
  | .vec _ => none

/-- The name strings of a contract, in order (client/serialize/rust/src/serializer/mod.rs:173-176). -/
def Fbb.createStrings (f : Fbb) : List String → Fbb × List Nat
  | [] => (f, [])
  | s :: ss =>
    let (g, r) := f.createString s
    let (h, rs) := g.createStrings ss
    (h, r :: rs)

end Verif.Fb
