import Verif.Spec.RoundTrip
import Verif.Model.Serializer
import Verif.Model.Deserializer
/-!
# Specification of saving and restoring

One save followed by one restore, with everything the caller and the platform choose, and chains of those.
-/
namespace Verif.Spec
open Verif

/-- Everything that is free in a save followed by a restore: the `serialize` calls in order (with the hash order each
of them meets), the hash orders of the serializer's `finish`, the contract types registered in the deserializer and
their order, main or fork, the order of the `deserialize_objects` calls, and the hash orders of its `finish`. -/
structure Cycle where
  calls : List (ContractTy × Idx × HashOrder)
  ordC : IterOrder (Idx × Nat)
  ordO : IterOrder (Idx × Nat)
  types : List ContractTy
  kind : Kind
  sched : IterOrder (ContractTy × Idx)
  ord : IterOrder (Nat × Idx)
  hord : HashOrder

/-- The choices are about the contracts `cs`: each is serialized once and its type registered once. -/
def Cycle.Fits (c : Cycle) (cs : List (ContractTy × Idx)) : Prop :=
  (c.calls.map fun e => (e.1, e.2.1)).Perm cs ∧ c.types.Perm (cs.map Prod.fst)

/-- Save contracts of `b` and restore the buffer, stopping at the first failure
(client/serialize/rust/tests/round_trip.rs:66-106). -/
def Cycle.run (c : Cycle) (b : Baseline) : Outcome (List (ContractTy × Idx) × Baseline) :=
  match (Ser.new b).serializeAll c.calls with
  | (_, .err m) => .err m
  | (_, .panic m) => .panic m
  | (s, .ok ()) =>
    match s.finish c.ordC c.ordO with
    | .err m => .err m
    | .panic m => .panic m
    | .ok out =>
      match out.decode with
      | none => .err "Error while verifying flatbuffer"
      | some buf => restore buf c.kind c.types c.sched c.ord c.hord

/-- `b'`, `cs'` is what is left after any number of cycles, starting from the contracts `cs` of `b`. -/
inductive Chain (b : Baseline) (cs : List (ContractTy × Idx)) : Baseline → List (ContractTy × Idx) → Prop
  | start : Chain b cs b cs
  | next (b' : Baseline) (cs' : List (ContractTy × Idx)) (c : Cycle) (b'' : Baseline) (cs'' : List (ContractTy × Idx)) :
      Chain b cs b' cs' → c.Fits cs' → c.run b' = .ok (cs'', b'') → Chain b cs b'' cs''

/-- The contracts `cs` of `b` can be saved and read back: `b` is reachable by public calls, and the contracts are
different, can be serialized, refer to nothing else, have no channels and not the internal id, and their saved form has
at most a million tables. -/
structure Savable (kind : Kind) (evs : List Event) (b : Baseline) (cs : List (ContractTy × Idx)) : Prop where
  history : History kind evs b
  serializable : Serializable evs b cs
  closed : Closed b cs
  different : (cs.map Prod.snd).Nodup
  notNull : ∀ e ∈ cs, e.1.id ≠ ⟨"teleportal.serialize.NullContract", (0, 0, 0)⟩
  noChannels : NoChannelObjects b cs
  size : savedTables b cs ≤ 1000000

/-- The contracts `cs` of `b` can be written out, however many tables that takes (at most 2^32 objects and states, which
is what the numbers in the format can count). -/
structure CanWrite (kind : Kind) (evs : List Event) (b : Baseline) (cs : List (ContractTy × Idx)) : Prop where
  history : History kind evs b
  serializable : Serializable evs b cs
  closed : Closed b cs
  different : (cs.map Prod.snd).Nodup
  notNull : ∀ e ∈ cs, e.1.id ≠ ⟨"teleportal.serialize.NullContract", (0, 0, 0)⟩
  noChannels : NoChannelObjects b cs
  objects : objectCount b cs ≤ 2 ^ 32
  states : stateCount b cs ≤ 2 ^ 32

/-- The contracts `cs` are used with the types they were registered and their objects were created with. -/
structure UsedAs (evs : List Event) (b : Baseline) (cs : List (ContractTy × Idx)) : Prop where
  ids : ∀ (C : ContractTy) (h : Idx) (cd : ContractData), (C, h) ∈ cs → b.contractData h = .ok cd → cd.id = C.id
  typed : ∀ (C C' : ContractTy) (h o : Idx), (C, h) ∈ cs → CreatedAs evs C' h o → C' = C

/-- Everything that saving and restoring the contracts `cs` of `b` takes. -/
structure Survives (b : Baseline) (cs : List (ContractTy × Idx)) : Prop where
  /-- they are registered -/
  registered : ∀ (C : ContractTy) (h : Idx), (C, h) ∈ cs → (b.contractData h).isOk = true
  /-- no contract occurs twice -/
  different : (cs.map Prod.snd).Nodup
  /-- of the contracts that have states, all listed objects are alive -/
  present : ∀ (C : ContractTy) (h o : Idx), (C, h) ∈ cs → C.states ≠ [] → o ∈ objectsOf b h → (b.object o).isOk = true
  /-- no state is a vector -/
  primitive : ∀ (C : ContractTy) (h : Idx) (f : Field), (C, h) ∈ cs → f ∈ C.states → ∃ p, f.ty = .prim p
  /-- no state refers to something that is not saved too -/
  closed : Closed b cs
  /-- no contract with channels has objects -/
  noChannels : NoChannelObjects b cs
  /-- none has the id that the deserializer uses internally -/
  notNull : ∀ e ∈ cs, e.1.id ≠ ⟨"teleportal.serialize.NullContract", (0, 0, 0)⟩
  /-- there are at most 65,535 contracts, and a million tables -/
  few : cs.length ≤ 65535
  size : savedTables b cs ≤ 1000000

end Verif.Spec
