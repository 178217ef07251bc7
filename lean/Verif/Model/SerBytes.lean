import Verif.Model.FbBytes
/-!
# The serializer, byte by byte

/repo/client/serialize/rust/src/serializer/mod.rs again, with the flatbuffer builder it writes to.
-/
namespace Verif.Fb
open Verif

/-- `Serializer` with its `HandleMap` (client/serialize/rust/src/serializer/mod.rs:24-31, handle_map.rs:7-17); the vectors hold
offsets. -/
structure SerB where
  base : Baseline
  fbb : Fbb
  contracts : List Nat
  states : List Nat
  objects : List Nat
  hObjects : BiMap Idx Nat
  hContracts : BiMap Idx Nat
  hContractStates : BiMap Idx Nat
  hObjectStates : BiMap Idx Nat

/-- The message of an arithmetic overflow in the builder (client/serialize/rust/src/serializer/mod.rs:257-259). -/
def overflow : String := "attempt to subtract with overflow"

namespace SerB

/-- `Serializer::new` (client/serialize/rust/src/serializer/mod.rs:33-43). -/
def new (b : Baseline) : SerB :=
  ⟨b, Fbb.empty, [], [], [], BiMap.empty, BiMap.empty, BiMap.empty, BiMap.empty⟩

/-- The numbers of the state types (client/serialize/rust/src/serializer/mod.rs:178-189); `none` is the `Err` for a vector type. -/
def kindNos : List PropType → Option (List Nat)
  | [] => some []
  | .prim p :: ts => (kindNos ts).map (kindNo (FbKind.ofPrim p) :: ·)
  | .vec _ :: _ => none

/-- `Serializer::serialize_contract` (client/serialize/rust/src/serializer/mod.rs:154-206).  What was written before an error stays in
the builder. -/
def contractTable (f : Fbb) (C : ContractTy) : Fbb × Outcome Nat :=
  let (f1, name) := f.createString C.id.name
  match f1.createContractId name C.id.version with
  | none => (f1, .panic overflow)
  | some (f2, cid) =>
    let (f3, ns) := f2.createStrings (C.states.map Field.name)
    match f3.createVecOff ns with
    | none => (f3, .panic overflow)
    | some (f4, names) =>
      match kindNos C.stateTypes with
      | none => (f4, .err "Vectors are not yet supported")
      | some ks =>
        let (f5, types) := f4.createVecBytes ks
        match f5.createContractStates names types with
        | none => (f5, .panic overflow)
        | some (f6, cstates) =>
          match f6.createContract cid cstates with
          | none => (f6, .panic overflow)
          | some (f7, c) => (f7, .ok c)

/-- Record the slot of a handle state (client/serialize/rust/src/serializer/mod.rs:123-133). -/
def noteHandle (s : SerB) (t : PropType) (h : Idx) (idx : Nat) : SerB :=
  match t with
  | .prim .objectHandle => { s with hObjectStates := s.hObjectStates.insert h idx }
  | .prim .contractDataHandle => { s with hContractStates := s.hContractStates.insert h idx }
  | _ => s

/-- One iteration of the state loop (client/serialize/rust/src/serializer/mod.rs:63-137); the result is the offset of the state
handle. -/
def pushState (s : SerB) (o : Idx) (d : DynId) : SerB × Outcome Nat :=
  match s.base.bindState d.id o with
  | .err m => (s, .err m)
  | .panic m => (s, .panic m)
  | .ok h =>
    match s.base.state d.ty h with
    | .err m => (s, .err m)
    | .panic m => (s, .panic m)
    | .ok v =>
      match s.fbb.createValue (DynProp.ofTyped d.ty v) with
      | none => (s, .panic "Vectors not supported yet")
      | some none => (s, .panic overflow)
      | some (some (f1, off)) =>
        let idx := s.states.length
        let s1 := noteHandle { s with fbb := f1, states := s.states ++ [off] } d.ty h idx
        match s1.fbb.createHandle32 (BitVec.ofNat 32 idx) with
        | none => (s1, .panic overflow)
        | some (f2, r) => ({ s1 with fbb := f2 }, .ok r)

/-- The state loop (client/serialize/rust/src/serializer/mod.rs:62-138). -/
def pushStates (s : SerB) (o : Idx) : List DynId → SerB × Outcome (List Nat)
  | [] => (s, .ok [])
  | d :: ds =>
    match s.pushState o d with
    | (s1, .err m) => (s1, .err m)
    | (s1, .panic m) => (s1, .panic m)
    | (s1, .ok i) =>
      match pushStates s1 o ds with
      | (s2, .err m) => (s2, .err m)
      | (s2, .panic m) => (s2, .panic m)
      | (s2, .ok is) => (s2, .ok (i :: is))

/-- The object loop (client/serialize/rust/src/serializer/mod.rs:60-150); `k` is the offset of the contract's handle. -/
def pushObjects (s : SerB) (C : ContractTy) (h : Idx) (k : Nat) : List Idx → SerB × Outcome Unit
  | [] => (s, .ok ())
  | o :: os =>
    match s.pushStates o (C.stateIds h) with
    | (s1, .err m) => (s1, .err m)
    | (s1, .panic m) => (s1, .panic m)
    | (s1, .ok is) =>
      match s1.fbb.createVecOff is with
      | none => (s1, .panic overflow)
      | some (f1, v) =>
        match f1.createObject k v with
        | none => ({ s1 with fbb := f1 }, .panic overflow)
        | some (f2, r) =>
          pushObjects { s1 with fbb := f2, objects := s1.objects ++ [r],
                                hObjects := s1.hObjects.insert o s1.objects.length } C h k os

/-- `Serializer::serialize` (client/serialize/rust/src/serializer/mod.rs:47-152). -/
def serialize (s : SerB) (C : ContractTy) (h : Idx) (ord : HashOrder) : SerB × Outcome Unit :=
  match s.base.contractData h with
  | .err m => (s, .err m)
  | .panic m => (s, .panic m)
  | .ok cd =>
    match contractTable s.fbb C with
    | (f1, .err m) => ({ s with fbb := f1 }, .err m)
    | (f1, .panic m) => ({ s with fbb := f1 }, .panic m)
    | (f1, .ok off) =>
      let s1 := { s with fbb := f1, contracts := s.contracts ++ [off],
                         hContracts := s.hContracts.insert h s.contracts.length }
      -- `self.contracts.len() as u16 - 1` (client/serialize/rust/src/serializer/mod.rs:56)
      if s1.contracts.length % 65536 = 0 then (s1, .panic overflow)
      else
        match s1.fbb.createContractDataHandle (BitVec.ofNat 16 (s1.contracts.length % 65536 - 1)) with
        | none => (s1, .panic overflow)
        | some (f2, k) => pushObjects { s1 with fbb := f2 } C h k (ord.order cd.objects)

/-- Serialize several contract instances, stopping at the first failure (client/serialize/rust/tests/round_trip.rs:66-80). -/
def serializeAll (s : SerB) : List (ContractTy × Idx × HashOrder) → SerB × Outcome Unit
  | [] => (s, .ok ())
  | (C, h, ord) :: rest =>
    match s.serialize C h ord with
    | (s1, .ok ()) => serializeAll s1 rest
    | (s1, .err m) => (s1, .err m)
    | (s1, .panic m) => (s1, .panic m)

/-- The macro `rewrite_states!` (client/serialize/rust/src/serializer/mod.rs:211-243): `mk` writes the table of the handle and `tag` is
its discriminant. -/
def patch (b : Baseline) (t : PropType) (asHandle : t.Carrier → Idx) (map : BiMap Idx Nat)
    (mk : Fbb → Nat → Option (Fbb × Nat)) (tag : Nat) :
    List (Idx × Nat) → Fbb → List Nat → Outcome (Fbb × List Nat)
  | [], f, sts => .ok (f, sts)
  | (h, i) :: rest, f, sts =>
    match b.state t h with
    | .err _ => .panic "Unexpectly had a missing handle"
    | .panic m => .panic m
    | .ok v =>
      match map.getL (asHandle v) with
      | none => .panic "No such handle was serialized"
      | some r =>
        match (mk f r).bind fun e => e.1.createState tag e.2 with
        | none => .panic overflow
        | some (f1, off) =>
          match sts[i]? with
          | none => .panic "index out of bounds"
          | some old =>
            if old = wipDummy then patch b t asHandle map mk tag rest f1 (sts.set i off)
            else .panic "assertion `left == right` failed"

/-- The bytes "TPF1" (client/serialize/rust/src/lib.rs:58). -/
def prefixBytes : Bytes := [84, 80, 70, 49]

/-- `Serializer::finish` (client/serialize/rust/src/serializer/mod.rs:208-272) and `finished_data` of the builder it returns; `ident` is
the identifier written. -/
def finishWith (ident : Bytes) (s : SerB) (ordC ordO : IterOrder (Idx × Nat)) : Outcome Bytes :=
  match patch s.base (.prim .contractDataHandle) (fun v => v) s.hContracts
      (fun f r => f.createContractDataHandle (BitVec.ofNat 16 r)) 14 (ordC.order s.hContractStates.pairs) s.fbb s.states with
  | .err m => .err m
  | .panic m => .panic m
  | .ok (f1, sts1) =>
    match patch s.base (.prim .objectHandle) (fun v => v) s.hObjects
        (fun f r => f.createHandle32 (BitVec.ofNat 32 r)) 13 (ordO.order s.hObjectStates.pairs) f1 sts1 with
    | .err m => .err m
    | .panic m => .panic m
    | .ok (f2, sts2) =>
      match (f2.createVecOff s.contracts).bind fun (f3, cs) => (f3.createVecOff sts2).bind fun (f4, sts) =>
          (f4.createVecOff s.objects).bind fun (f5, os) => (f5.createBaseline cs sts os).bind fun (f6, r) => f6.finish r ident with
      | none => .panic overflow
      | some bytes => .ok bytes

/-- `Serializer::finish` with the identifier of this format (client/serialize/rust/src/serializer/mod.rs:208-272). -/
def finish (s : SerB) (ordC ordO : IterOrder (Idx × Nat)) : Outcome Bytes := finishWith prefixBytes s ordC ordO

end SerB
end Verif.Fb
