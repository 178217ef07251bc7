import Verif.Model.Flatbuffer
import Verif.Model.Baseline
/-!
# Specification of the serialized format, at the level of tables

What a table in a buffer says, written from the schema files (client/serialize/flatbuffers/*.fbs), without
reference to the serializer or the deserializer.
-/
namespace Verif.Spec
open Verif

/-- The primitive type a serialized kind stands for (primitive.fbs, by name). -/
def kindPrim : FbKind → PrimType
  | .u8 => .u8 | .u16 => .u16 | .u32 => .u32 | .u64 => .u64
  | .i8 => .i8 | .i16 => .i16 | .i32 => .i32 | .i64 => .i64
  | .bool => .bool | .f32 => .f32 | .f64 => .f64 | .string => .string
  | .objectHandle => .objectHandle | .contractDataHandle => .contractDataHandle

/-- The contract table `c` describes the contract type `C`: same name and version, the same state names in
the same order, and the same state types in the same order (so all of them are primitive). -/
def Describes (c : FbContract) (C : ContractTy) : Prop :=
  c.id = some ⟨some C.id.name, C.id.version⟩ ∧
  ∃ kinds : List FbKind, c.states = some ⟨some (C.states.map Field.name), some (kinds.map some)⟩ ∧
    C.states.map Field.ty = kinds.map fun k => .prim (kindPrim k)

/-- Contract table number `k` is the first one in the buffer that describes `C`. -/
def ContractNo (buf : FbBaseline) (C : ContractTy) (k : Nat) : Prop :=
  ∃ cs c, buf.contracts = some cs ∧ cs[k]? = some c ∧ Describes c C ∧
    ∀ (j : Nat) (c' : FbContract), j < k → cs[j]? = some c' → ¬ Describes c' C

/-- The primitive type of the value in a state table; `none` when it has no value the schema defines. -/
def valPrim : FbVal → Option PrimType
  | .none_ => none | .unknown _ => none
  | .u8 _ => some .u8 | .u16 _ => some .u16 | .u32 _ => some .u32 | .u64 _ => some .u64
  | .i8 _ => some .i8 | .i16 _ => some .i16 | .i32 _ => some .i32 | .i64 _ => some .i64
  | .bool _ => some .bool | .f32 _ => some .f32 | .f64 _ => some .f64 | .fbString _ => some .string
  | .objectHandle _ => some .objectHandle | .contractDataHandle _ => some .contractDataHandle

/-- A 32-bit float without the sign of a zero: minus zero becomes zero, everything else stays. -/
def unsigned32 (v : BitVec 32) : BitVec 32 := if v = 0x80000000#32 then 0#32 else v

/-- A 64-bit float without the sign of a zero. -/
def unsigned64 (v : BitVec 64) : BitVec 64 := if v = 0x8000000000000000#64 then 0#64 else v

/-- A property without the sign of a zero, which the format does not carry. -/
def noSign : DynProp → DynProp
  | .primitive (.f32 v) => .primitive (.f32 (unsigned32 v))
  | .primitive (.f64 v) => .primitive (.f64 (unsigned64 v))
  | p => p

/-- The state value stands for the property, when contract number `c` of the buffer is the contract `h`
with `con c h` and object number `r` is the object `o` with `obj r o`. -/
inductive Denotes (con : Nat → Idx → Prop) (obj : Nat → Idx → Prop) : FbVal → DynProp → Prop
  | u8 (v : BitVec 8) : Denotes con obj (.u8 v) (.primitive (.u8 v))
  | u16 (v : BitVec 16) : Denotes con obj (.u16 v) (.primitive (.u16 v))
  | u32 (v : BitVec 32) : Denotes con obj (.u32 v) (.primitive (.u32 v))
  | u64 (v : BitVec 64) : Denotes con obj (.u64 v) (.primitive (.u64 v))
  | i8 (v : BitVec 8) : Denotes con obj (.i8 v) (.primitive (.i8 v))
  | i16 (v : BitVec 16) : Denotes con obj (.i16 v) (.primitive (.i16 v))
  | i32 (v : BitVec 32) : Denotes con obj (.i32 v) (.primitive (.i32 v))
  | i64 (v : BitVec 64) : Denotes con obj (.i64 v) (.primitive (.i64 v))
  | bool (v : Bool) : Denotes con obj (.bool v) (.primitive (.bool v))
  | f32 (v : BitVec 32) : Denotes con obj (.f32 v) (.primitive (.f32 v))
  | f64 (v : BitVec 64) : Denotes con obj (.f64 v) (.primitive (.f64 v))
  | string (v : String) : Denotes con obj (.fbString (some v)) (.primitive (.string v))
  | object (r : BitVec 32) (o : Idx) (h : obj r.toNat o) :
      Denotes con obj (.objectHandle r) (.primitive (.objectHandle o))
  | contract (c : BitVec 16) (h : Idx) (hc : con c.toNat h) :
      Denotes con obj (.contractDataHandle c) (.primitive (.contractDataHandle h))

/-- Object number `p` of the buffer is `obj`. -/
def ObjectAt (buf : FbBaseline) (p : Nat) (obj : FbObject) : Prop :=
  ∃ objs, buf.objects = some objs ∧ objs[p]? = some obj

/-- State number `i` of the buffer is `v`. -/
def StateAt (buf : FbBaseline) (i : Nat) (v : FbVal) : Prop :=
  ∃ sts, buf.states = some sts ∧ sts[i]? = some v

/-- The indices of the states of an object; an absent vector is empty. -/
def stateIdxs (obj : FbObject) : List Nat := (obj.states.getD []).map BitVec.toNat

/-- The object table `obj` is well formed for the contract type `C`, serialized as number `k`: it names
contract `k` and has exactly one state for each declared field, of the declared type. -/
def WellFormedObj (buf : FbBaseline) (C : ContractTy) (k : Nat) (obj : FbObject) : Prop :=
  (∃ c, obj.contract = some c ∧ c.toNat = k) ∧
  (stateIdxs obj).length = C.states.length ∧
  ∀ (n i : Nat) (f : Field), (stateIdxs obj)[n]? = some i → C.states[n]? = some f →
    ∃ v p, StateAt buf i v ∧ valPrim v = some p ∧ f.ty = .prim p

/-- The buffer has none of the three defects the flatbuffers verifier lets through: state indices out of
range, unions with a discriminant the schema does not define, string tables without a string. -/
structure NoHidden (buf : FbBaseline) : Prop where
  range : ∀ (p i : Nat) (obj : FbObject) (sts : List FbVal), ObjectAt buf p obj → buf.states = some sts →
    i ∈ stateIdxs obj → i < sts.length
  known : ∀ (i g : Nat), ¬ StateAt buf i (.unknown g)
  string : ∀ i : Nat, ¬ StateAt buf i (.fbString none)

/-- Object number `p` belongs to one of the contract types `Cs`. -/
def ObjectOf (buf : FbBaseline) (Cs : List ContractTy) (p : Nat) : Prop :=
  ∃ C ∈ Cs, ∃ (k : Nat) (obj : FbObject) (c : BitVec 16), ContractNo buf C k ∧ ObjectAt buf p obj ∧
    obj.contract = some c ∧ c.toNat = k

/-- None of the object tables that belong to the contract types `Cs` has one of those three defects: all their states exist,
are of a kind the schema defines, and are not string tables without a string. -/
def NoHiddenIn (buf : FbBaseline) (Cs : List ContractTy) : Prop :=
  ∀ (p i : Nat) (obj : FbObject) (sts : List FbVal), ObjectOf buf Cs p → ObjectAt buf p obj → buf.states = some sts →
    i ∈ stateIdxs obj → ∃ v, StateAt buf i v ∧ (∀ g, v ≠ .unknown g) ∧ v ≠ .fbString none

/-- No object table in the buffer belongs to a contract type of `Cs` that has channels. -/
def ChannelsUnused (buf : FbBaseline) (Cs : List ContractTy) : Prop :=
  ∀ C ∈ Cs, C.channels ≠ [] → ∀ p : Nat, ¬ ObjectOf buf [C] p

/-- The buffer holds everything needed to restore the objects of the contract types `Cs`: each type is
described by some table; there is a vector of states if an object has one; their objects are well formed, no reference to an
object is a state of two of them or twice a state of one, and they refer only to objects and contracts of `Cs`. -/
structure Restorable (buf : FbBaseline) (Cs : List ContractTy) : Prop where
  described : ∀ C ∈ Cs, ∃ k, ContractNo buf C k
  hasStates : ∀ (p : Nat) (obj : FbObject), ObjectOf buf Cs p → ObjectAt buf p obj → obj.states ≠ none →
    ∃ sts, buf.states = some sts
  wellFormed : ∀ (C : ContractTy) (k p : Nat) (obj : FbObject) (c : BitVec 16), C ∈ Cs → ContractNo buf C k →
    ObjectAt buf p obj → obj.contract = some c → c.toNat = k → WellFormedObj buf C k obj
  ownStates : ∀ (p p' n n' i : Nat) (obj obj' : FbObject) (r : BitVec 32), ObjectOf buf Cs p → ObjectOf buf Cs p' →
    ObjectAt buf p obj → ObjectAt buf p' obj' → (stateIdxs obj)[n]? = some i → (stateIdxs obj')[n']? = some i →
    StateAt buf i (.objectHandle r) → p = p' ∧ n = n'
  strings : ∀ (p i : Nat) (obj : FbObject), ObjectOf buf Cs p → ObjectAt buf p obj → i ∈ stateIdxs obj →
    ¬ StateAt buf i (.fbString none)
  contractRefs : ∀ (p i : Nat) (obj : FbObject) (c : BitVec 16), ObjectOf buf Cs p → ObjectAt buf p obj →
    i ∈ stateIdxs obj → StateAt buf i (.contractDataHandle c) → ∃ C ∈ Cs, ContractNo buf C c.toNat
  objectRefs : ∀ (p i : Nat) (obj : FbObject) (r : BitVec 32), ObjectOf buf Cs p → ObjectAt buf p obj →
    i ∈ stateIdxs obj → StateAt buf i (.objectHandle r) → ObjectOf buf Cs r.toNat

/-! ## What is to be serialized -/

/-- The objects a contract lists. -/
def objectsOf (b : Baseline) (h : Idx) : List Idx :=
  match b.contractData h with
  | .ok cd => cd.objects
  | _ => []

/-- How many objects the contracts list in total. -/
def objectCount (b : Baseline) (cs : List (ContractTy × Idx)) : Nat :=
  (cs.map fun e => (objectsOf b e.2).length).sum

/-- How many states their objects have in total. -/
def stateCount (b : Baseline) (cs : List (ContractTy × Idx)) : Nat :=
  (cs.map fun e => (objectsOf b e.2).length * e.1.states.length).sum

/-- How many tables the saved form of the contracts has: the root; for each contract its own, one for the id and one
for the states; for each object its own and one for the contract's number; for each state its own, one for the value
and one for the state's number in the object. -/
def savedTables (b : Baseline) (cs : List (ContractTy × Idx)) : Nat :=
  1 + 3 * cs.length + 2 * objectCount b cs + 3 * stateCount b cs

end Verif.Spec
