import Verif.Model.Flatbuffer
import Verif.Model.Baseline
/-!
# The deserializer

Models /repo/client/serialize/rust/src/deserializer/new/*.rs at table level (the module `old.rs` is not
exported).  The verified root table is the input; `flatbuffers::root` failing is the `Err` of
`DeserializerBuilder::new`.
-/
namespace Verif

/-- `NullContract` (client/serialize/rust/src/deserializer/new/null_contract.rs:3-30). -/
def nullContractTy : ContractTy := ⟨⟨"teleportal.serialize.NullContract", (0, 0, 0)⟩, [], []⟩

/-- `DeserializerBuilder` (client/serialize/rust/src/deserializer/new/mod.rs:66-73). -/
structure Builder where
  base : Baseline
  contracts : BiMap Nat Idx
  buf : FbBaseline
  nullContract : Idx
  nullObj : Idx

/-- `Deserializer` (client/serialize/rust/src/deserializer/new/mod.rs:114-118) with `InstantiatedStates` (client/serialize/rust/src/deserializer/new/states.rs:13-21) and
`InstantiatedObjects` (client/serialize/rust/src/deserializer/new/objects.rs:7). -/
structure Des where
  b : Builder
  states : BiMap Nat Idx
  objRefs : List (Nat × Nat)
  objects : BiMap Idx Nat

/-- The id part of the search predicate (client/serialize/rust/src/deserializer/new/mod.rs:203-209). -/
def idMatches (C : ContractTy) (c : FbContract) : Bool :=
  match c.id with
  | none => false
  | some id =>
    match id.name with
    | none => false
    | some name => decide (name = C.id.name ∧ id.version = C.id.version)

/-- `zip` of the declared types with the stored kinds, all equal (client/serialize/rust/src/deserializer/new/mod.rs:222-224). -/
def typesAgree : List PropType → List (Option FbKind) → Bool
  | t :: ts, k :: ks => (match k with | some k => k.eqProp t | none => false) && typesAgree ts ks
  | _, _ => true

/-- `zip` of the declared names with the stored names, all equal (client/serialize/rust/src/deserializer/new/mod.rs:218-220). -/
def namesAgree : List String → List String → Bool
  | a :: as, b :: bs => decide (a = b) && namesAgree as bs
  | _, _ => true

/-- The schema part of the search predicate (client/serialize/rust/src/deserializer/new/mod.rs:211-226). -/
def schemaMatches (C : ContractTy) (c : FbContract) : Bool :=
  match c.states with
  | none => false
  | some st =>
    match st.names, st.types with
    | some names, some types =>
      decide (names.length = C.states.length ∧ types.length = C.states.length) &&
        namesAgree (C.states.map Field.name) names && typesAgree C.stateTypes types
    | _, _ => false

/-- `find_serialized_contract` (client/serialize/rust/src/deserializer/new/mod.rs:190-231). -/
def findSerialized (C : ContractTy) (buf : FbBaseline) : Outcome Nat :=
  match buf.contracts with
  | none => .err "There are no contracts to deserialize"
  | some cs =>
    match cs.findIdx? (fun c => idMatches C c && schemaMatches C c) with
    | none => .err "Could not find a matching contract!"
    | some i => .ok i

namespace Builder

/-- `DeserializerBuilder::new` (client/serialize/rust/src/deserializer/new/mod.rs:75-93) on a buffer that encodes tables
of the schema; `flatbuffers::root` refuses it if it visits more than a million of them. -/
def new (buf : FbBaseline) (kind : Kind) : Outcome Builder :=
  if maxTables < buf.tables then .err "Error while verifying flatbuffer" else
  match (Baseline.new kind).registerContract nullContractTy with
  | (b1, .ok h) =>
    match b1.objectCreate nullContractTy h [] [] with
    | (b2, .ok o) => .ok ⟨b2, BiMap.empty, buf, h, o⟩
    | (_, _) => .panic "called `Result::unwrap()` on an `Err` value"
  | (_, _) => .panic "called `Result::unwrap()` on an `Err` value"

/-- `DeserializerBuilder::register_contract` (client/serialize/rust/src/deserializer/new/mod.rs:96-107), with the assertion of
`InstantiatedContracts::add_contract` (client/serialize/rust/src/deserializer/new/contracts.rs:35-40). -/
def registerContract (bd : Builder) (C : ContractTy) : Builder × Outcome Idx :=
  match findSerialized C bd.buf with
  | .err m => (bd, .err m)
  | .panic m => (bd, .panic m)
  | .ok k =>
    match bd.base.registerContract C with
    | (b1, .err m) => ({ bd with base := b1 }, .err m)
    | (b1, .panic m) => ({ bd with base := b1 }, .panic m)
    | (b1, .ok h) =>
      let bd' := { bd with base := b1, contracts := bd.contracts.insert k h }
      if bd.contracts.clashes k h then (bd', .panic "assertion failed") else (bd', .ok h)

end Builder

/-- `objects_with_contract_idx` (client/serialize/rust/src/deserializer/new/mod.rs:236-250): the indices of the objects whose
contract field is present and equal. -/
def objectsWithContract (k : Nat) (objs : List FbObject) : List Nat :=
  (objs.zipIdx.filter fun e => match e.1.contract with
    | none => false
    | some c => decide (c.toNat = k)).map Prod.snd

/-- The type loop of `validate_obj_matches_contract` (client/serialize/rust/src/deserializer/new/mod.rs:309-327): `get` panics out
of range, and building the error message unwraps the name of the discriminant. -/
def checkStates (sts : List FbVal) : List (BitVec 32) → List PropType → Outcome Unit
  | i :: is, t :: ts =>
    match sts[i.toNat]? with
    | none => .panic "index out of bounds"
    | some v =>
      match v.tag with
      | none => .panic "called `Option::unwrap()` on a `None` value"
      | some tag => if tag.eqProp t then checkStates sts is ts else .err "state has the wrong type"
  | _, _ => .ok ()

/-- `obj_t.states().map_or(0, |x| x.len())` (client/serialize/rust/src/deserializer/new/mod.rs:289). -/
def FbObject.numStates (obj : FbObject) : Nat :=
  match obj.states with
  | none => 0
  | some is => is.length

/-- `validate_obj_matches_contract` (client/serialize/rust/src/deserializer/new/mod.rs:261-333); `k` is the registered index of
the contract. -/
def validateObj (C : ContractTy) (k : Nat) (buf : FbBaseline) (p : Nat) : Outcome FbObject :=
  match buf.objects with
  | none => .panic "Tried to validate an `ObjectsIdx` for a `fb::Baseline` without any objects!"
  | some objs =>
    match objs[p]? with
    | none => .panic "index out of bounds"
    | some obj =>
      match obj.contract with
      | none => .err "Object was missing contract field"
      | some c =>
        if c.toNat ≠ k then .err "Object's contract field did not match `contract`"
        else if obj.numStates ≠ C.stateTypes.length then
          .err "number of states in serialized object did not match contract"
        else
          match obj.states with
          | none => .ok obj
          | some is =>
            match buf.states with
            | none => .err "Expected at least one state in the baseline!"
            | some sts =>
              match checkStates sts is C.stateTypes with
              | .ok () => .ok obj
              | .err m => .err m
              | .panic m => .panic m

namespace Des

/-- `InstantiatedStates::get_obj_ref_idx` (client/serialize/rust/src/deserializer/new/states.rs:68-73). -/
def objRef (d : Des) (i : Nat) : Option Nat := (d.objRefs.find? fun e => e.1 = i).map Prod.snd

/-- `Deserializer::new` / `DeserializerBuilder::finish` (client/serialize/rust/src/deserializer/new/mod.rs:109-111, 120-126). -/
def new (bd : Builder) : Des := ⟨bd, BiMap.empty, [], BiMap.empty⟩

/-- The decoding of one union value (client/serialize/rust/src/deserializer/new/mod.rs:376-423), the object case aside: the
property to store, or the `Err`/panic. -/
def decodeVal (contracts : BiMap Nat Idx) : FbVal → Outcome DynProp
  | .u8 v => .ok (.primitive (.u8 v)) | .u16 v => .ok (.primitive (.u16 v))
  | .u32 v => .ok (.primitive (.u32 v)) | .u64 v => .ok (.primitive (.u64 v))
  | .i8 v => .ok (.primitive (.i8 v)) | .i16 v => .ok (.primitive (.i16 v))
  | .i32 v => .ok (.primitive (.i32 v)) | .i64 v => .ok (.primitive (.i64 v))
  | .bool v => .ok (.primitive (.bool v)) | .f32 v => .ok (.primitive (.f32 v))
  | .f64 v => .ok (.primitive (.f64 v))
  | .fbString (some v) => .ok (.primitive (.string v))
  | .fbString none => .panic "called `Option::unwrap()` on a `None` value"
  | .contractDataHandle c =>
    match contracts.getL c.toNat with
    | none => .err "Contract was missing from registry"
    | some h => .ok (.primitive (.contractDataHandle h))
  | .objectHandle _ => .panic "unreachable"
  | .none_ => .panic "Other types are not supported."
  | .unknown _ => .panic "Other types are not supported."

/-- The property loop of `deserialize_obj_with_null` (client/serialize/rust/src/deserializer/new/mod.rs:363-425): the properties
and the null states, tracking object references on the way. -/
def restoreProps (d : Des) : List (DynId × Nat) → Des × Outcome (List DynProp × List (PropId × Nat))
  | [] => (d, .ok ([], []))
  | (id, i) :: rest =>
    match d.b.buf.states with
    | none => (d, .panic "called `Option::unwrap()` on a `None` value")
    | some sts =>
      match sts[i]? with
      | none => (d, .panic "index out of bounds")
      | some (.objectHandle r) =>
        -- `track_obj_reference` (client/serialize/rust/src/deserializer/new/states.rs:42-53)
        if (d.objRef i).isSome then (d, .err "object reference was already tracked!")
        else
          let d1 := { d with objRefs := (i, r.toNat) :: d.objRefs }
          if id.ty ≠ .prim .objectHandle then (d1, .panic "unreachable")
          else
            match restoreProps d1 rest with
            | (d2, .err m) => (d2, .err m)
            | (d2, .panic m) => (d2, .panic m)
            | (d2, .ok (ps, ns)) =>
              (d2, .ok (.primitive (.objectHandle d.b.nullObj) :: ps, (id.id, i) :: ns))
      | some v =>
        match decodeVal d.b.contracts v with
        | .err m => (d, .err m)
        | .panic m => (d, .panic m)
        | .ok p =>
          match restoreProps d rest with
          | (d2, .err m) => (d2, .err m)
          | (d2, .panic m) => (d2, .panic m)
          | (d2, .ok (ps, ns)) => (d2, .ok (p :: ps, ns))

/-- The loop over the null states (client/serialize/rust/src/deserializer/new/mod.rs:433-443), with
`track_instantiated_state` (client/serialize/rust/src/deserializer/new/states.rs:30-38). -/
def trackNulls (o : Idx) : List (PropId × Nat) → Des → Des × Outcome Unit
  | [], d => (d, .ok ())
  | (id, i) :: rest, d =>
    match d.b.base.bindState id o with
    | .err _ => (d, .panic "impossible: we already serialized the state")
    | .panic m => (d, .panic m)
    | .ok h =>
      if d.states.clashes i h then (d, .err "State was already tracked!")
      else trackNulls o rest { d with states := d.states.insert i h }

/-- `deserialize_obj_with_null` (client/serialize/rust/src/deserializer/new/mod.rs:338-448) for the validated object number `p`.
The `assert_eq!` on the number of states (346-350) repeats a check of `validateObj` and is dropped. -/
def deserializeObj (d : Des) (C : ContractTy) (h : Idx) (p : Nat) (obj : FbObject) : Des × Outcome Unit :=
  let is := match obj.states with | none => [] | some is => is.map BitVec.toNat
  match d.restoreProps ((C.stateIds h).zip is) with
  | (d1, .err m) => (d1, .err m)
  | (d1, .panic m) => (d1, .panic m)
  | (d1, .ok (props, nulls)) =>
    match d1.b.base.objectCreate C h props [] with
    | (b1, .err m) => ({ d1 with b := { d1.b with base := b1 } }, .err m)
    | (b1, .panic m) => ({ d1 with b := { d1.b with base := b1 } }, .panic m)
    | (b1, .ok o) =>
      match trackNulls o nulls { d1 with b := { d1.b with base := b1 } } with
      | (d2, .err m) => (d2, .err m)
      | (d2, .panic m) => (d2, .panic m)
      | (d2, .ok ()) =>
        -- `InstantiatedObjects::add_object` (client/serialize/rust/src/deserializer/new/objects.rs:13-18)
        let d3 := { d2 with objects := d2.objects.insert o p }
        if d2.objects.clashes o p then (d3, .panic "the object was already added!") else (d3, .ok ())

/-- The loop of `deserialize_objects` (client/serialize/rust/src/deserializer/new/mod.rs:147-157). -/
def objectLoop (C : ContractTy) (h : Idx) (k : Nat) : List Nat → Des → Des × Outcome Unit
  | [], d => (d, .ok ())
  | p :: ps, d =>
    match validateObj C k d.b.buf p with
    | .err m => (d, .err m)
    | .panic m => (d, .panic m)
    | .ok obj =>
      match d.deserializeObj C h p obj with
      | (d1, .err m) => (d1, .err m)
      | (d1, .panic m) => (d1, .panic m)
      | (d1, .ok ()) => objectLoop C h k ps d1

/-- `Deserializer::deserialize_objects` (client/serialize/rust/src/deserializer/new/mod.rs:132-160) for the contract instance of
type `C` with handle `h`. -/
def deserializeObjects (d : Des) (C : ContractTy) (h : Idx) : Des × Outcome Unit :=
  match d.b.contracts.getR h with
  | none => (d, .panic "Contract was not already registered")
  | some k =>
    match d.b.buf.objects with
    | none => (d, .ok ())
    | some objs => objectLoop C h k (objectsWithContract k objs) d

/-- The second pass of `finish` (client/serialize/rust/src/deserializer/new/mod.rs:166-175). -/
def patchRefs (d : Des) : List (Nat × Idx) → Baseline → Outcome Baseline
  | [], b => .ok b
  | (i, h) :: rest, b =>
    match d.objRef i with
    | none => .panic "State was never tracked!"
    | some p =>
      match d.objects.getR p with
      | none => .err "A state referenced an object that didn't exist in the baseline."
      | some o =>
        match b.stateWrite (.prim .objectHandle) h o with
        | (_, .err m) => .err m
        | (_, .panic m) => .panic m
        | (b1, .ok ()) => patchRefs d rest b1

/-- `Deserializer::finish` (client/serialize/rust/src/deserializer/new/mod.rs:162-184); consumes the deserializer. -/
def finish (d : Des) (ord : IterOrder (Nat × Idx)) (hord : HashOrder) : Outcome Baseline :=
  match patchRefs d (ord.order d.states.pairs) d.b.base with
  | .err m => .err m
  | .panic m => .panic m
  | .ok b1 =>
    match b1.unregisterContract nullContractTy d.b.nullContract hord with
    | (_, .err m) => .err m
    | (_, .panic m) => .panic m
    | (b2, .ok ()) => .ok b2

end Des

/-- A builder obtained from `DeserializerBuilder::new` by the given `register_contract` calls, in order,
with their results.  A call that panics ends the run. (client/serialize/rust/src/deserializer/new/mod.rs) -/
inductive BuilderRun (buf : FbBaseline) (kind : Kind) : List (ContractTy × Outcome Idx) → Builder → Prop
  | new (bd : Builder) : Builder.new buf kind = .ok bd → BuilderRun buf kind [] bd
  | register (regs : List (ContractTy × Outcome Idx)) (bd : Builder) (C : ContractTy) :
      BuilderRun buf kind regs bd → (bd.registerContract C).2.isPanic = false →
      BuilderRun buf kind (regs ++ [(C, (bd.registerContract C).2)]) (bd.registerContract C).1

/-- A deserializer obtained from such a builder by the given `deserialize_objects` calls, in order, with
their results.  A call that panics ends the run. (client/serialize/rust/src/deserializer/new/mod.rs) -/
inductive DesRun (buf : FbBaseline) (kind : Kind) (regs : List (ContractTy × Outcome Idx)) :
    List ((ContractTy × Idx) × Outcome Unit) → Des → Prop
  | new (bd : Builder) : BuilderRun buf kind regs bd → DesRun buf kind regs [] (Des.new bd)
  | objects (calls : List ((ContractTy × Idx) × Outcome Unit)) (d : Des) (C : ContractTy) (h : Idx) :
      DesRun buf kind regs calls d → (d.deserializeObjects C h).2.isPanic = false →
      DesRun buf kind regs (calls ++ [((C, h), (d.deserializeObjects C h).2)]) (d.deserializeObjects C h).1

/-- Register several contract types one after the other, stopping at the first failure (the usage shown in
client/serialize/rust/tests/round_trip.rs:86-93); the contract instances in order. -/
def Builder.registerAll (bd : Builder) : List ContractTy → Builder × Outcome (List (ContractTy × Idx))
  | [] => (bd, .ok [])
  | C :: Cs =>
    match bd.registerContract C with
    | (bd1, .err m) => (bd1, .err m)
    | (bd1, .panic m) => (bd1, .panic m)
    | (bd1, .ok h) =>
      match registerAll bd1 Cs with
      | (bd2, .err m) => (bd2, .err m)
      | (bd2, .panic m) => (bd2, .panic m)
      | (bd2, .ok rs) => (bd2, .ok ((C, h) :: rs))

/-- Deserialize the objects of several contract instances one after the other, stopping at the first failure
(client/serialize/rust/tests/round_trip.rs:94-101). -/
def Des.deserializeAll (d : Des) : List (ContractTy × Idx) → Des × Outcome Unit
  | [] => (d, .ok ())
  | (C, h) :: rest =>
    match d.deserializeObjects C h with
    | (d1, .err m) => (d1, .err m)
    | (d1, .panic m) => (d1, .panic m)
    | (d1, .ok ()) => deserializeAll d1 rest

/-- The whole restoration (client/serialize/rust/tests/round_trip.rs:85-106): build, register the contract
types `Cs`, deserialize their objects in the order `sched` picks, finish.  Gives the contract instances and the
baseline. -/
def restore (buf : FbBaseline) (kind : Kind) (Cs : List ContractTy) (sched : IterOrder (ContractTy × Idx))
    (ord : IterOrder (Nat × Idx)) (hord : HashOrder) : Outcome (List (ContractTy × Idx) × Baseline) :=
  match Builder.new buf kind with
  | .err m => .err m
  | .panic m => .panic m
  | .ok bd =>
    match bd.registerAll Cs with
    | (_, .err m) => .err m
    | (_, .panic m) => .panic m
    | (bd1, .ok cs) =>
      match (Des.new bd1).deserializeAll (sched.order cs) with
      | (_, .err m) => .err m
      | (_, .panic m) => .panic m
      | (d, .ok ()) =>
        match d.finish ord hord with
        | .err m => .err m
        | .panic m => .panic m
        | .ok b => .ok (cs, b)

end Verif
