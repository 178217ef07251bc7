import Verif.Model.FbTypes
import Verif.Model.Contract
/-!
# Table-level flatbuffers and the bidirectional map

The serialized form (/repo/client/serialize/flatbuffers/*.fbs) at the level of tables, vectors, strings
and unions; every table field is optional, every scalar has its declared width.  The bytes are in
Model/FbBytes (writer) and Model/FbRead (reader); that a finished buffer below 2 GiB reads back as the tables written (except that a
float field equal to its default 0 is left out, which turns minus zero into zero: `fbF32`, `fbF64` in Model/Serializer) is proved
there (C127).  `flatbuffers::root` accepts at most a million tables; its other default limits, 64 levels of nesting and 2 GiB in
total, are respectively never met by this schema and not modelled.
-/
namespace Verif

/-- The union `TpPrimitive` in a `State` table (client/serialize/flatbuffers/primitive.fbs:57-72, client/serialize/flatbuffers/state.fbs:6-8).  `none_` is an
absent union; `unknown` is a discriminant the schema does not define, which the verifier lets through. -/
inductive FbVal where
  | none_
  | unknown (tag : Nat)
  | u8 (v : BitVec 8) | u16 (v : BitVec 16) | u32 (v : BitVec 32) | u64 (v : BitVec 64)
  | i8 (v : BitVec 8) | i16 (v : BitVec 16) | i32 (v : BitVec 32) | i64 (v : BitVec 64)
  | bool (v : Bool) | f32 (v : BitVec 32) | f64 (v : BitVec 64)
  | fbString (v : Option String)
  | objectHandle (idx : BitVec 32) | contractDataHandle (idx : BitVec 16)
deriving DecidableEq, Repr

/-- `State::p_type` (generated from client/serialize/flatbuffers/state.fbs); `none` for an unknown discriminant. (client/serialize/flatbuffers/state.fbs:6-8) -/
def FbVal.tag : FbVal → Option FbTag
  | .none_ => some .none_
  | .unknown _ => none
  | .u8 _ => some .u8 | .u16 _ => some .u16 | .u32 _ => some .u32 | .u64 _ => some .u64
  | .i8 _ => some .i8 | .i16 _ => some .i16 | .i32 _ => some .i32 | .i64 _ => some .i64
  | .bool _ => some .bool | .f32 _ => some .f32 | .f64 _ => some .f64
  | .fbString _ => some .fbString
  | .objectHandle _ => some .objectHandle | .contractDataHandle _ => some .contractDataHandle

/-- `ContractId` (client/serialize/flatbuffers/contract.fbs:11-16). -/
structure FbContractId where
  name : Option String
  version : BitVec 16 × BitVec 16 × BitVec 16
deriving DecidableEq, Repr

/-- `ContractStates` (client/serialize/flatbuffers/contract.fbs:19-22); an element of `types` is `none` when it is not one of the
declared enum values. -/
structure FbContractStates where
  names : Option (List String)
  types : Option (List (Option FbKind))
deriving DecidableEq, Repr

/-- `Contract` (client/serialize/flatbuffers/contract.fbs:6-9). -/
structure FbContract where
  id : Option FbContractId
  states : Option FbContractStates
deriving DecidableEq, Repr

/-- `Object` (client/serialize/flatbuffers/object.fbs:6-9): the contract handle's index and the state handles' indices. -/
structure FbObject where
  contract : Option (BitVec 16)
  states : Option (List (BitVec 32))
deriving DecidableEq, Repr

/-- `Baseline`, the root table (client/serialize/flatbuffers/baseline.fbs:7-11). -/
structure FbBaseline where
  contracts : Option (List FbContract)
  states : Option (List FbVal)
  objects : Option (List FbObject)
deriving DecidableEq, Repr

/-- Tables `flatbuffers::root` visits in a `State` (client/serialize/flatbuffers/state.fbs:6-8): the table itself
and the table of the value, if the discriminant is one the schema defines. -/
def FbVal.tables : FbVal → Nat
  | .none_ => 1
  | .unknown _ => 1
  | _ => 2

/-- Tables visited in a `Contract` (client/serialize/flatbuffers/contract.fbs:6-9): the table itself, and its `id`
and `states` if present. -/
def FbContract.tables (c : FbContract) : Nat :=
  1 + (if c.id.isSome then 1 else 0) + (if c.states.isSome then 1 else 0)

/-- Tables visited in an `Object` (client/serialize/flatbuffers/object.fbs:6-9): the table itself, the contract
handle if present, and each state handle (handles are tables). -/
def FbObject.tables (o : FbObject) : Nat :=
  1 + (if o.contract.isSome then 1 else 0) + (o.states.getD []).length

/-- Tables visited in a whole buffer (client/serialize/flatbuffers/baseline.fbs:7-11).  The verifier counts visits, so
a table that is shared counts each time it is referred to, as it does here. -/
def FbBaseline.tables (b : FbBaseline) : Nat :=
  1 + ((b.contracts.getD []).map FbContract.tables).sum + ((b.states.getD []).map FbVal.tables).sum +
    ((b.objects.getD []).map FbObject.tables).sum

/-- `VerifierOptions::default().max_tables` of the flatbuffers crate, 22.12.6 (Cargo.lock), used by
`flatbuffers::root` (client/serialize/rust/src/deserializer/new/mod.rs:76-77). -/
def maxTables : Nat := 1000000

/-- `bimap::BiHashMap` (used in client/serialize/rust/src/serializer/handle_map.rs:9-17 and deserializer/new/*.rs). -/
structure BiMap (α β : Type) where
  pairs : List (α × β)
deriving Repr

namespace BiMap
variable {α β : Type} [DecidableEq α] [DecidableEq β]

/-- `BiHashMap::new`. (bimap, as in client/serialize/rust/src/serializer/handle_map.rs:10-16) -/
def empty : BiMap α β := ⟨[]⟩

/-- `get_by_left`. (bimap, as in client/serialize/rust/src/serializer/handle_map.rs:10-16) -/
def getL (m : BiMap α β) (a : α) : Option β := (m.pairs.find? fun p => p.1 = a).map Prod.snd

/-- `get_by_right`. (bimap, as in client/serialize/rust/src/serializer/handle_map.rs:10-16) -/
def getR (m : BiMap α β) (b : β) : Option α := (m.pairs.find? fun p => p.2 = b).map Prod.fst

/-- `contains_left` or `contains_right`: the insertion would overwrite something (`Overwritten` is
not `Neither`). (client/serialize/rust/src/deserializer/new/objects.rs:15) -/
def clashes (m : BiMap α β) (a : α) (b : β) : Bool := (m.getL a).isSome || (m.getR b).isSome

/-- `insert`: overwrites the pairs of the same left and of the same right value. (bimap, as in client/serialize/rust/src/deserializer/new/objects.rs:15) -/
def insert (m : BiMap α β) (a : α) (b : β) : BiMap α β :=
  ⟨(a, b) :: m.pairs.filter fun p => decide (p.1 ≠ a ∧ p.2 ≠ b)⟩

end BiMap

/-- The iteration order of one traversal of a hash map: an arbitrary rearrangement. (client/serialize/rust/src/serializer/mod.rs:211-243) -/
structure IterOrder (α : Type) where
  order : List α → List α
  perm : ∀ l : List α, (order l).Perm l

/-- The identity order, for examples. (one possible order at client/serialize/rust/src/serializer/mod.rs:211-243) -/
def IterOrder.id {α : Type} : IterOrder α := ⟨fun l => l, fun _ => List.Perm.refl _⟩

end Verif
