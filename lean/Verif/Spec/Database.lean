import Verif.Spec.HandleMap
import Verif.Model.Baseline
/-!
# Specification of a baseline: a database of four kinds of maps

Contracts, objects, and for every property type a map of state values and a map of channels.  Each is a
plain partial map from handles to values, together with the handles given out so far.  The calls are
described by what they look up and what they write; nothing here knows about arenas, slots, generations,
type-indexed storage or loops.
-/
namespace Verif.Spec

/-- `m` with the fresh handle `i` now meaning `v`. -/
def HMap.add {α : Type} (m : HMap α) (i : Idx) (v : α) : HMap α := ⟨m.put i (some v), i :: m.issued⟩

/-- `m` with the meaning of `i` replaced by `v`. -/
def HMap.set {α : Type} (m : HMap α) (i : Idx) (v : α) : HMap α := ⟨m.put i (some v), m.issued⟩

/-- `m` without the handles in `is`. -/
def HMap.dropAll {α : Type} (m : HMap α) (is : List Idx) : HMap α :=
  ⟨fun j => if j ∈ is then none else m.find j, m.issued⟩

/-- One map per property type. -/
abbrev TMap (F : PropType → Type) := (t : PropType) → HMap (F t)

/-- The database. -/
structure DB where
  contracts : HMap ContractData
  objects : HMap ObjectD
  states : TMap PropType.Carrier
  channels : TMap PropType.Chan

/-- The empty database. -/
def DB.empty : DB := ⟨HMap.empty, HMap.empty, fun _ => HMap.empty, fun _ => HMap.empty⟩

/-- `Alloc m ps is m'`: storing the typed values `ps` one after the other, each under a handle never
given out before at its type, yields the handles `is` and the maps `m'`. -/
inductive Alloc {F : PropType → Type} : TMap F → List ((t : PropType) × F t) → List Idx → TMap F → Prop
  | nil (m : TMap F) : Alloc m [] [] m
  | cons (m : TMap F) (t : PropType) (v : F t) (i : Idx) (ps : List ((t : PropType) × F t))
      (is : List Idx) (m' : TMap F) (fresh : i ∉ (m t).issued)
      (rest : Alloc (Function.update m t ((m t).add i v)) ps is m') :
      Alloc m (⟨t, v⟩ :: ps) (i :: is) m'

/-- Some registered contract has this id. -/
def DB.HasId (db : DB) (id : ContractId) : Prop := ∃ k cd, db.contracts.find k = some cd ∧ cd.id = id

/-- What a creation needs: a registered contract and values of exactly the declared types. -/
def DB.CanCreate (db : DB) (C : ContractTy) (h : Idx) (ss : List DynProp) (cs : List DynChannel) : Prop :=
  (∃ cd, db.contracts.find h = some cd) ∧ ss.map DynProp.propType = C.states.map Field.ty ∧
    cs.map Sigma.fst = C.channels.map Field.ty

/-- What it takes for all objects of a contract to be removable. -/
def DB.CanClear (db : DB) (C : ContractTy) (os : List Idx) : Prop :=
  os = [] ∨ ((C.states = [] ∧ C.channels = []) ∧ ∀ o ∈ os, ∃ ob, db.objects.find o = some ob)

/-- `Step db op out db'`: the specification allows the call `op` on `db` to answer `out` and leave `db'`. -/
inductive DB.Step : DB → BOp → BOut → DB → Prop
  /-- registering an unused id adds an empty contract under a fresh handle -/
  | register (db : DB) (C : ContractTy) (k : Idx) (unused : ¬ db.HasId C.id)
      (fresh : k ∉ db.contracts.issued) :
      DB.Step db (.register C) (.ok (some k)) { db with contracts := db.contracts.add k ⟨C.id, []⟩ }
  | registerTaken (db : DB) (C : ContractTy) (msg : String) (taken : db.HasId C.id) :
      DB.Step db (.register C) (.err msg) db
  /-- creating stores every value under a fresh handle, and an object holding those handles under
  another, which is added to the contract -/
  | create (db : DB) (C : ContractTy) (h o : Idx) (ss : List DynProp) (cs : List DynChannel)
      (cd : ContractData) (is js : List Idx) (S : TMap PropType.Carrier) (K : TMap PropType.Chan)
      (can : db.CanCreate C h ss cs) (reg : db.contracts.find h = some cd)
      (hS : Alloc db.states (ss.map DynProp.typed) is S) (hK : Alloc db.channels cs js K)
      (fresh : o ∉ db.objects.issued) :
      DB.Step db (.create C h ss cs) (.ok (some o))
        { contracts := db.contracts.set h ⟨cd.id, o :: cd.objects⟩
          objects := db.objects.add o ⟨is, js, h, TimeWarp.default⟩
          states := S
          channels := K }
  | createBad (db : DB) (C : ContractTy) (h : Idx) (ss : List DynProp) (cs : List DynChannel) (msg : String)
      (cannot : ¬ db.CanCreate C h ss cs) : DB.Step db (.create C h ss cs) (.err msg) db
  /-- removing an object drops it and nothing else - neither its values nor the contract's record of
  it - and reports success only when the contract type has no field -/
  | remove (db : DB) (C : ContractTy) (o : Idx) (ob : ObjectD) (live : db.objects.find o = some ob)
      (bare : C.states = [] ∧ C.channels = []) :
      DB.Step db (.remove C o) (.ok none) { db with objects := db.objects.dropAll [o] }
  | removeErr (db : DB) (C : ContractTy) (o : Idx) (ob : ObjectD) (msg : String)
      (live : db.objects.find o = some ob) (fields : ¬ (C.states = [] ∧ C.channels = [])) :
      DB.Step db (.remove C o) (.err msg) { db with objects := db.objects.dropAll [o] }
  | removeDead (db : DB) (C : ContractTy) (o : Idx) (msg : String) (dead : db.objects.find o = none) :
      DB.Step db (.remove C o) (.err msg) db
  /-- unregistering a handle that is not of this contract is refused -/
  | unregisterBad (db : DB) (C : ContractTy) (h : Idx) (ord : HashOrder) (msg : String)
      (bad : ¬ ∃ cd, db.contracts.find h = some cd ∧ cd.id = C.id) :
      DB.Step db (.unregister C h ord) (.err msg) db
  /-- if all its objects can be removed, they and the contract are -/
  | unregister (db : DB) (C : ContractTy) (h : Idx) (ord : HashOrder) (cd : ContractData)
      (reg : db.contracts.find h = some cd) (hid : cd.id = C.id) (can : db.CanClear C cd.objects) :
      DB.Step db (.unregister C h ord) (.ok none)
        { db with objects := db.objects.dropAll cd.objects, contracts := db.contracts.dropAll [h] }
  /-- otherwise the call panics, leaving the contract registered with no objects: for a contract with
  fields one listed object is gone, for one without fields some of those still present are gone -/
  | unregisterPanic (db : DB) (C : ContractTy) (h : Idx) (ord : HashOrder) (cd : ContractData)
      (gone : List Idx) (msg : String) (reg : db.contracts.find h = some cd) (hid : cd.id = C.id)
      (cannot : ¬ db.CanClear C cd.objects) (sub : ∀ o ∈ gone, o ∈ cd.objects)
      (one : ¬ (C.states = [] ∧ C.channels = []) → ∃ o, gone = [o])
      (present : C.states = [] ∧ C.channels = [] → ∀ o ∈ gone, ∃ ob, db.objects.find o = some ob) :
      DB.Step db (.unregister C h ord) (.panic msg)
        { db with objects := db.objects.dropAll gone, contracts := db.contracts.set h ⟨cd.id, []⟩ }
  /-- writes replace what the handle means, if it means something -/
  | writeState (db : DB) (t : PropType) (h : Idx) (v old : t.Carrier)
      (live : (db.states t).find h = some old) :
      DB.Step db (.writeState t h v) (.ok none)
        { db with states := Function.update db.states t ((db.states t).set h v) }
  | writeStateDead (db : DB) (t : PropType) (h : Idx) (v : t.Carrier) (msg : String)
      (dead : (db.states t).find h = none) : DB.Step db (.writeState t h v) (.err msg) db
  | writeChannel (db : DB) (t : PropType) (h : Idx) (v old : t.Chan)
      (live : (db.channels t).find h = some old) :
      DB.Step db (.writeChannel t h v) (.ok none)
        { db with channels := Function.update db.channels t ((db.channels t).set h v) }
  | writeChannelDead (db : DB) (t : PropType) (h : Idx) (v : t.Chan) (msg : String)
      (dead : (db.channels t).find h = none) : DB.Step db (.writeChannel t h v) (.err msg) db
  | setWarp (db : DB) (o : Idx) (w : TimeWarp) (ob : ObjectD) (live : db.objects.find o = some ob) :
      DB.Step db (.setWarp o w) (.ok none) { db with objects := db.objects.set o { ob with warp := w } }
  | setWarpDead (db : DB) (o : Idx) (w : TimeWarp) (msg : String) (dead : db.objects.find o = none) :
      DB.Step db (.setWarp o w) (.err msg) db

/-- The specification allows the whole sequence of calls with the recorded answers. -/
inductive DB.Run : DB → List Event → DB → Prop
  | nil (db : DB) : DB.Run db [] db
  | cons (db : DB) (op : BOp) (out : BOut) (db1 : DB) (evs : List Event) (db' : DB)
      (first : DB.Step db op out db1) (rest : DB.Run db1 evs db') : DB.Run db ((op, out) :: evs) db'

/-- A reader answers with the meaning of a handle, or with an error if it has none. -/
def Reads {α : Type} (answer : Outcome α) (meaning : Option α) : Prop :=
  match meaning with
  | some v => answer = .ok v
  | none => answer.isErr = true

/-- Every reader of the baseline answers from the database. -/
structure Answers (b : Baseline) (db : DB) : Prop where
  contract : ∀ k : Idx, Reads (b.contractData k) (db.contracts.find k)
  object : ∀ o : Idx, Reads (b.object o) (db.objects.find o)
  state : ∀ (t : PropType) (h : Idx), Reads (b.state t h) ((db.states t).find h)
  channel : ∀ (t : PropType) (h : Idx), Reads (b.channel t h) ((db.channels t).find h)
  iter : (∀ (o : Idx) (ob : ObjectD), (o, ob) ∈ b.iterObjects ↔ db.objects.find o = some ob) ∧
    (b.iterObjects.map Prod.fst).Nodup
  bindState : ∀ (id : PropId) (o : Idx), Reads (b.bindState id o)
    ((db.objects.find o).bind fun ob => if ob.contract = id.contract then ob.states[id.idx]? else none)
  bindChannel : ∀ (id : PropId) (o : Idx), Reads (b.bindChannel id o)
    ((db.objects.find o).bind fun ob => if ob.contract = id.contract then ob.channels[id.idx]? else none)

end Verif.Spec
