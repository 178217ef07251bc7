import Verif.Model.Flatbuffer
import Verif.Model.Baseline
/-!
# The serializer

Models /repo/client/serialize/rust/src/serializer/{mod,handle_map}.rs at table level.  A slot of the
`states` vector is `none` while it holds `WIP_DUMMY` (client/serialize/rust/src/serializer/mod.rs:22).
-/
namespace Verif

/-- `Serializer` with its `HandleMap` (client/serialize/rust/src/serializer/mod.rs:24-31, client/serialize/rust/src/serializer/handle_map.rs:7-17). -/
structure Ser where
  base : Baseline
  contracts : List FbContract
  states : List (Option FbVal)
  objects : List FbObject
  hObjects : BiMap Idx Nat
  hContracts : BiMap Idx Nat
  hContractStates : BiMap Idx Nat
  hObjectStates : BiMap Idx Nat

/-- What `finish` hands to the flatbuffer builder (client/serialize/rust/src/serializer/mod.rs:256-272).  A slot that still holds
the dummy offset 1337 is `none`.  No buffer that can be read comes of it: with less than 1333 bytes written so far the builder's
subtraction overflows, and otherwise the offset leads to an odd position, where the verifier refuses a table (proved of the bytes:
`finish_sim`, `C51_files_partial`). -/
structure FbOut where
  contracts : List FbContract
  states : List (Option FbVal)
  objects : List FbObject
deriving DecidableEq, Repr

/-- All states, if every slot was filled. (client/serialize/rust/src/serializer/mod.rs:245-272) -/
def filled : List (Option FbVal) → Option (List FbVal)
  | [] => some []
  | none :: _ => none
  | some v :: rest => (filled rest).map (v :: ·)

/-- The tables a reader finds in the finished buffer; `none` if some slot is a dangling offset, so that
the buffer does not encode a table. (client/serialize/rust/src/serializer/mod.rs:245-272) -/
def FbOut.decode (o : FbOut) : Option FbBaseline :=
  (filled o.states).map fun sts => ⟨some o.contracts, some sts, some o.objects⟩

/-- What is read back from a table with the 32-bit float `v`.  The generated builder leaves the field out if it equals the default
0.0 (`push_slot::<f32>(VT_V, v, 0.0)`, which minus zero does, too), and an absent field reads as 0.0.
(client/serialize/flatbuffers/primitive.fbs:44-46, client/serialize/rust/src/serializer/mod.rs:75-84) -/
def fbF32 (v : BitVec 32) : BitVec 32 := if fmt32.feq v 0#32 then 0#32 else v

/-- The same for 64 bits. (client/serialize/flatbuffers/primitive.fbs:48-50, client/serialize/rust/src/serializer/mod.rs:75-84) -/
def fbF64 (v : BitVec 64) : BitVec 64 := if fmt64.feq v 0#64 then 0#64 else v

/-- Encoding of one state value (client/serialize/rust/src/serializer/mod.rs:74-119): outer `none` is the `todo!` for vectors,
inner `none` the dummy slot of a handle. -/
def encodeState : DynProp → Option (Option FbVal)
  | .primitive (.u8 v) => some (some (.u8 v))
  | .primitive (.u16 v) => some (some (.u16 v))
  | .primitive (.u32 v) => some (some (.u32 v))
  | .primitive (.u64 v) => some (some (.u64 v))
  | .primitive (.i8 v) => some (some (.i8 v))
  | .primitive (.i16 v) => some (some (.i16 v))
  | .primitive (.i32 v) => some (some (.i32 v))
  | .primitive (.i64 v) => some (some (.i64 v))
  | .primitive (.bool v) => some (some (.bool v))
  | .primitive (.f32 v) => some (some (.f32 (fbF32 v)))
  | .primitive (.f64 v) => some (some (.f64 (fbF64 v)))
  | .primitive (.string v) => some (some (.fbString (some v)))
  | .primitive (.objectHandle _) => some none
  | .primitive (.contractDataHandle _) => some none
  | .vec _ => none

namespace Ser

/-- `Serializer::new` (client/serialize/rust/src/serializer/mod.rs:33-43). -/
def new (b : Baseline) : Ser :=
  ⟨b, [], [], [], BiMap.empty, BiMap.empty, BiMap.empty, BiMap.empty⟩

/-- The state types of a serialized contract (client/serialize/rust/src/serializer/mod.rs:178-190); `none` is the `Err` for a
vector type. -/
def kindsOf : List PropType → Option (List (Option FbKind))
  | [] => some []
  | .prim p :: ts => (kindsOf ts).map (some (FbKind.ofPrim p) :: ·)
  | .vec _ :: _ => none

/-- `Serializer::serialize_contract` (client/serialize/rust/src/serializer/mod.rs:154-206). -/
def contractTable (C : ContractTy) : Outcome FbContract :=
  match kindsOf C.stateTypes with
  | none => .err "Vectors are not yet supported"
  | some ks => .ok
      ⟨some ⟨some C.id.name, C.id.version⟩, some ⟨some (C.states.map Field.name), some ks⟩⟩

/-- Record the slot of a handle state (client/serialize/rust/src/serializer/mod.rs:123-133). -/
def noteHandle (s : Ser) (t : PropType) (h : Idx) (idx : Nat) : Ser :=
  match t with
  | .prim .objectHandle => { s with hObjectStates := s.hObjectStates.insert h idx }
  | .prim .contractDataHandle => { s with hContractStates := s.hContractStates.insert h idx }
  | _ => s

/-- One iteration of the state loop (client/serialize/rust/src/serializer/mod.rs:63-137). -/
def pushState (s : Ser) (o : Idx) (d : DynId) : Ser × Outcome (BitVec 32) :=
  match s.base.bindState d.id o with
  | .err m => (s, .err m)
  | .panic m => (s, .panic m)
  | .ok h =>
    match s.base.state d.ty h with
    | .err m => (s, .err m)
    | .panic m => (s, .panic m)
    | .ok v =>
      match encodeState (DynProp.ofTyped d.ty v) with
      | none => (s, .panic "Vectors not supported yet")
      | some slot =>
        let idx := s.states.length
        (noteHandle { s with states := s.states ++ [slot] } d.ty h idx, .ok (BitVec.ofNat 32 idx))

/-- The state loop (client/serialize/rust/src/serializer/mod.rs:62-137). -/
def pushStates (s : Ser) (o : Idx) : List DynId → Ser × Outcome (List (BitVec 32))
  | [] => (s, .ok [])
  | d :: ds =>
    match s.pushState o d with
    | (s1, .err m) => (s1, .err m)
    | (s1, .panic m) => (s1, .panic m)
    | (s1, .ok i) =>
      match pushStates s1 o ds with
      | (s2, .err m) => (s2, .err m)
      | (s2, .panic m) => (s2, .panic m)
      | (s2, .ok is) => (s2, .ok (i :: is))

/-- The object loop (client/serialize/rust/src/serializer/mod.rs:60-150); `k` is the contract's serialized index. -/
def pushObjects (s : Ser) (C : ContractTy) (h : Idx) (k : BitVec 16) : List Idx → Ser × Outcome Unit
  | [] => (s, .ok ())
  | o :: os =>
    match s.pushStates o (C.stateIds h) with
    | (s1, .err m) => (s1, .err m)
    | (s1, .panic m) => (s1, .panic m)
    | (s1, .ok is) =>
      pushObjects { s1 with objects := s1.objects ++ [⟨some k, some is⟩],
                            hObjects := s1.hObjects.insert o s1.objects.length } C h k os

/-- `Serializer::serialize` (client/serialize/rust/src/serializer/mod.rs:47-152) for the contract instance of type `C` with handle
`h`.  What was pushed before an error stays. -/
def serialize (s : Ser) (C : ContractTy) (h : Idx) (ord : HashOrder) : Ser × Outcome Unit :=
  match s.base.contractData h with
  | .err m => (s, .err m)
  | .panic m => (s, .panic m)
  | .ok cd =>
    match contractTable C with
    | .err m => (s, .err m)
    | .panic m => (s, .panic m)
    | .ok tbl =>
      let s1 := { s with contracts := s.contracts ++ [tbl],
                         hContracts := s.hContracts.insert h s.contracts.length }
      -- `self.contracts.len() as u16 - 1` (client/serialize/rust/src/serializer/mod.rs:56) overflows when the length is a multiple of 2^16
      if s1.contracts.length % 65536 = 0 then (s1, .panic "attempt to subtract with overflow")
      else s1.pushObjects C h (BitVec.ofNat 16 (s1.contracts.length % 65536 - 1)) (ord.order cd.objects)

/-- The macro `rewrite_states!` (client/serialize/rust/src/serializer/mod.rs:211-243): look the state's value up, translate the
handle to an index, fill the slot. -/
def patch (b : Baseline) (t : PropType) (asHandle : t.Carrier → Idx) (map : BiMap Idx Nat)
    (mk : Nat → FbVal) : List (Idx × Nat) → List (Option FbVal) → Outcome (List (Option FbVal))
  | [], sts => .ok sts
  | (h, i) :: rest, sts =>
    match b.state t h with
    | .err _ => .panic "Unexpectly had a missing handle"
    | .panic m => .panic m
    | .ok v =>
      match map.getL (asHandle v) with
      | none => .panic "No such handle was serialized"
      | some r =>
        match sts[i]? with
        | none => .panic "index out of bounds"
        | some (some _) => .panic "assertion `left == right` failed"
        | some none => patch b t asHandle map mk rest (sts.set i (some (mk r)))

/-- `Serializer::finish` (client/serialize/rust/src/serializer/mod.rs:208-272). -/
def finish (s : Ser) (ordC ordO : IterOrder (Idx × Nat)) : Outcome FbOut :=
  match patch s.base (.prim .contractDataHandle) (fun v => v) s.hContracts
      (fun r => .contractDataHandle (BitVec.ofNat 16 r)) (ordC.order s.hContractStates.pairs) s.states with
  | .err m => .err m
  | .panic m => .panic m
  | .ok sts1 =>
    match patch s.base (.prim .objectHandle) (fun v => v) s.hObjects
        (fun r => .objectHandle (BitVec.ofNat 32 r)) (ordO.order s.hObjectStates.pairs) sts1 with
    | .err m => .err m
    | .panic m => .panic m
    | .ok sts2 => .ok ⟨s.contracts, sts2, s.objects⟩

/-- Serialize several contract instances one after the other, stopping at the first failure (the usage
shown in client/serialize/rust/tests/round_trip.rs). -/
def serializeAll (s : Ser) : List (ContractTy × Idx × HashOrder) → Ser × Outcome Unit
  | [] => (s, .ok ())
  | (C, h, ord) :: rest =>
    match s.serialize C h ord with
    | (s1, .ok ()) => serializeAll s1 rest
    | (s1, .err m) => (s1, .err m)
    | (s1, .panic m) => (s1, .panic m)

end Ser
end Verif
