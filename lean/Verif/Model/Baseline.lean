import Mathlib.Logic.Function.Basic
import Verif.Model.Outcome
import Verif.Model.Contract
import Verif.Model.Time
/-!
# Baselines, objects, states and channels

Models client/rust/src/baseline.rs and client/rust/src/object.rs, client/rust/src/contract/mod.rs (`ContractData`),
contract/properties/states/{mod,handle}.rs and channels/{mod,channel,handle}.rs.

Simplifications.
* A reference returned by a reader is modelled by the value it refers to; a `&mut` returned by
  `state_mut`/`channel_mut`/`object_mut` is modelled by the write its holder performs (`stateWrite`,
  `channelWrite`, `setWarp`).  `std::mem::swap` of two `&mut Object` of different baselines is
  modelled in Verif/Model/MutSwap.lean.
* `HashSet<ObjectHandle>` is a list without repetition; iteration order is a parameter (`HashOrder`).
* `log::warn!` is dropped.
-/
namespace Verif

/-- `Keyframe<T>` (client/rust/src/contract/properties/channels/channel.rs:5-21); `time` is an f64 bit pattern. -/
structure Keyframe (α : Type) where
  value : α
  time : BitVec 64
deriving DecidableEq, Repr

/-- `Channel<T>` (client/rust/src/contract/properties/channels/channel.rs:24-45): its keyframes. -/
@[reducible] def PropType.Chan (t : PropType) : Type := List (Keyframe t.Carrier)

/-- `DynChannel` (client/rust/src/contract/properties/channels/dyn_channel/mod.rs:17): a channel of one of the 28 types.
`DynChannel::prop_type` (87-125) is the first component. -/
abbrev DynChannel := (t : PropType) × t.Chan

/-- `Object` (client/rust/src/object.rs:13-19). -/
structure ObjectD where
  states : List Idx
  channels : List Idx
  contract : Idx
  warp : TimeWarp
deriving DecidableEq, Repr

/-- `ContractData` (client/rust/src/contract/mod.rs:80-102). -/
structure ContractData where
  id : ContractId
  objects : List Idx
deriving DecidableEq, Repr

/-- `BaselineKind` (client/rust/src/baseline.rs:29-34). -/
inductive Kind where
  | main | fork
deriving DecidableEq, Repr

/-- `StateArenaMap` / `ChannelArenaMap` (client/rust/src/contract/properties/states/mod.rs:38-51, client/rust/src/contract/properties/channels/mod.rs:30-43): a typemap from
`T` to an arena of `F T`, an entry being absent until the first insertion at that type. -/
abbrev Store (F : PropType → Type) := (t : PropType) → Option (Arena (F t))

namespace Store
variable {F : PropType → Type}

/-- `StateArenaMap::new` / `ChannelArenaMap::new` (client/rust/src/contract/properties/states/mod.rs:40-42, client/rust/src/contract/properties/channels/mod.rs:32-34). -/
def empty : Store F := fun _ => none

/-- Look a handle up (client/rust/src/contract/properties/states/handle.rs:26-35, client/rust/src/contract/properties/channels/handle.rs:27-36, client/rust/src/baseline.rs:237-246). -/
def get (s : Store F) (t : PropType) (h : Idx) : Option (F t) :=
  match s t with
  | none => none
  | some a => a.get h

/-- Insert, creating the arena if it is missing (`entry().or_insert_with(Arena::new)`,
client/rust/src/baseline.rs:287-305). -/
def create (s : Store F) (t : PropType) (v : F t) : Store F × Idx :=
  let a := match s t with
    | none => Arena.new
    | some a => a
  let (a', i) := a.insert v
  (Function.update s t (some a'), i)

/-- Overwrite through `get_mut` (client/rust/src/contract/properties/states/handle.rs:37-46, client/rust/src/contract/properties/channels/handle.rs:38-47, client/rust/src/baseline.rs:248-260);
`none` means the handle does not resolve. -/
def write (s : Store F) (t : PropType) (h : Idx) (v : F t) : Option (Store F) :=
  match s t with
  | none => none
  | some a =>
    match a.modify h (fun _ => v) with
    | none => none
    | some a' => some (Function.update s t (some a'))

/-- `state_remove` / `channel_remove` (client/rust/src/baseline.rs:262-285). -/
def remove (s : Store F) (t : PropType) (h : Idx) : Store F × Option (F t) :=
  match s t with
  | none => (s, none)
  | some a => let (a', r) := a.remove h; (Function.update s t (some a'), r)

end Store

/-- `Baseline` (client/rust/src/baseline.rs:36-42). -/
structure Baseline where
  kind : Kind
  objects : Arena ObjectD
  contracts : Arena ContractData
  states : Store PropType.Carrier
  channels : Store PropType.Chan

/-- `Object::bind_state` (client/rust/src/object.rs:85-98) and `Object::bind_channel` (100-113) on the index list of the
object: reject a foreign contract, then index. -/
def bindIdx (ob : ObjectD) (fields : List Idx) (id : PropId) : Outcome Idx :=
  if id.contract ≠ ob.contract then .err "id for another contract"
  else match fields[id.idx]? with
    | none => .err "field index out of bounds"
    | some i => .ok i

/-- `Object::state` (client/rust/src/object.rs:35-52) and `Object::channel` (54-71): same, but asserting. -/
def assertIdx (ob : ObjectD) (fields : List Idx) (id : PropId) : Outcome Idx :=
  if id.contract ≠ ob.contract then .panic "id for another contract"
  else match fields[id.idx]? with
    | none => .panic "unreachable"
    | some i => .ok i

/-- `Object::state` (client/rust/src/object.rs:35-52). -/
def ObjectD.state (ob : ObjectD) (id : PropId) : Outcome Idx := assertIdx ob ob.states id
/-- `Object::channel` (client/rust/src/object.rs:54-71). -/
def ObjectD.channel (ob : ObjectD) (id : PropId) : Outcome Idx := assertIdx ob ob.channels id
/-- `Object::bind_state` (client/rust/src/object.rs:85-98). -/
def ObjectD.bindState (ob : ObjectD) (id : PropId) : Outcome Idx := bindIdx ob ob.states id
/-- `Object::bind_channel` (client/rust/src/object.rs:100-113). -/
def ObjectD.bindChannel (ob : ObjectD) (id : PropId) : Outcome Idx := bindIdx ob ob.channels id

/-- The iteration order of one `HashSet` traversal: an arbitrary rearrangement. (`for obj in objs`, client/rust/src/baseline.rs:88-91) -/
structure HashOrder where
  order : List Idx → List Idx
  perm : ∀ l : List Idx, (order l).Perm l

/-- The identity order, for examples. (one possible order at client/rust/src/baseline.rs:88-91) -/
def HashOrder.id : HashOrder := ⟨fun l => l, fun _ => List.Perm.refl _⟩

namespace Baseline

/-- `Baseline::new` (client/rust/src/baseline.rs:45-58). -/
def new (kind : Kind) : Baseline :=
  { kind := kind, objects := Arena.new, contracts := Arena.new,
    states := Store.empty, channels := Store.empty }

/-- `Baseline::contract_data` (client/rust/src/baseline.rs:97-101). -/
def contractData (b : Baseline) (h : Idx) : Outcome ContractData :=
  match b.contracts.get h with
  | none => .err "no contract exists for that handle"
  | some cd => .ok cd

/-- `Baseline::iter_objects` (client/rust/src/baseline.rs:103-105). -/
def iterObjects (b : Baseline) : List (Idx × ObjectD) := b.objects.iter

/-- `Baseline::object` (client/rust/src/baseline.rs:107-111). -/
def object (b : Baseline) (o : Idx) : Outcome ObjectD :=
  match b.objects.get o with
  | none => .err "the given handle doesn't exist in the arena"
  | some ob => .ok ob

/-- `baseline[obj]` (client/rust/src/baseline.rs:336-342): panics instead. -/
def indexObject (b : Baseline) (o : Idx) : Outcome ObjectD :=
  match b.objects.index? o with
  | none => .panic "no element at index"
  | some ob => .ok ob

/-- `Baseline::register_contract` (client/rust/src/baseline.rs:66-75); the returned contract instance is its handle. -/
def registerContract (b : Baseline) (C : ContractTy) : Baseline × Outcome Idx :=
  if b.contracts.iter.any (fun e => e.2.id = C.id) then (b, .err "contract already added")
  else
    let (cs, h) := b.contracts.insert ⟨C.id, []⟩
    ({ b with contracts := cs }, .ok h)

/-- `check_types!` (client/rust/src/baseline.rs:139-162): `zip_longest` of the properties with the declared types,
failing at the first mismatch or as soon as one side is longer. -/
def checkTypes {α : Type} (ty : α → PropType) : List α → List PropType → Outcome (List α)
  | [], [] => .ok []
  | p :: ps, t :: ts =>
    if ty p ≠ t then .err "property did not match contract type"
    else (checkTypes ty ps ts).map (p :: ·)
  | _, _ => .err "properties did not match the number of fields"

/-- The creation loops (client/rust/src/baseline.rs:171-176) with `state_create`/`channel_create` (287-305). -/
def createAll {F : PropType → Type} (s : Store F) : List ((t : PropType) × F t) → Store F × List Idx
  | [] => (s, [])
  | p :: ps =>
    let (s1, i) := s.create p.1 p.2
    let (s2, is) := createAll s1 ps
    (s2, i :: is)

/-- `Baseline::object_create` (client/rust/src/baseline.rs:125-191) for the contract instance of type `C` with handle
`h`. -/
def objectCreate (b : Baseline) (C : ContractTy) (h : Idx) (states : List DynProp)
    (channels : List DynChannel) : Baseline × Outcome Idx :=
  if !b.contracts.contains h then (b, .err "no such contract for that handle")
  else
    match checkTypes DynProp.propType states C.stateTypes with
    | .err m => (b, .err m)
    | .panic m => (b, .panic m)
    | .ok states =>
      match checkTypes Sigma.fst channels C.channelTypes with
      | .err m => (b, .err m)
      | .panic m => (b, .panic m)
      | .ok channels =>
        let (ss, sh) := createAll b.states (states.map DynProp.typed)
        let (cs, ch) := createAll b.channels channels
        let (objs, o) := b.objects.insert ⟨sh, ch, h, TimeWarp.default⟩
        let b1 := { b with states := ss, channels := cs, objects := objs }
        match b1.contracts.modify h (fun cd => { cd with objects := cd.objects.insert o }) with
        | none => (b1, .panic "we already checked this")
        | some contracts => ({ b1 with contracts := contracts }, .ok o)

/-- `Baseline::state` (client/rust/src/baseline.rs:229-231, client/rust/src/contract/properties/states/handle.rs:26-35). -/
def state (b : Baseline) (t : PropType) (h : Idx) : Outcome t.Carrier :=
  match b.states.get t h with
  | none => .err "the given handle doesn't exist"
  | some v => .ok v

/-- `Baseline::channel` (client/rust/src/baseline.rs:237-246). -/
def channel (b : Baseline) (t : PropType) (h : Idx) : Outcome t.Chan :=
  match b.channels.get t h with
  | none => .err "the given handle doesn't exist"
  | some v => .ok v

/-- A write through `Baseline::state_mut` (client/rust/src/baseline.rs:233-235, client/rust/src/contract/properties/states/handle.rs:37-46). -/
def stateWrite (b : Baseline) (t : PropType) (h : Idx) (v : t.Carrier) : Baseline × Outcome Unit :=
  match b.states.write t h v with
  | none => (b, .err "the given handle doesn't exist")
  | some s => ({ b with states := s }, .ok ())

/-- A write through `Baseline::channel_mut` (client/rust/src/baseline.rs:248-260, `keyframes_mut` client/rust/src/contract/properties/channels/channel.rs:41-43). -/
def channelWrite (b : Baseline) (t : PropType) (h : Idx) (v : t.Chan) : Baseline × Outcome Unit :=
  match b.channels.write t h v with
  | none => (b, .err "the given handle doesn't exist")
  | some s => ({ b with channels := s }, .ok ())

/-- `Baseline::object_mut` (client/rust/src/baseline.rs:113-117) followed by `*time_warp_mut() = w`
(client/rust/src/object.rs:81-83), the only public mutation of an object. -/
def setWarp (b : Baseline) (o : Idx) (w : TimeWarp) : Baseline × Outcome Unit :=
  match b.objects.modify o (fun ob => { ob with warp := w }) with
  | none => (b, .err "the given handle doesn't exist in the arena")
  | some objs => ({ b with objects := objs }, .ok ())

/-- `Baseline::bind_state` (client/rust/src/baseline.rs:309-319). -/
def bindState (b : Baseline) (id : PropId) (o : Idx) : Outcome Idx :=
  match b.objects.get o with
  | none => .err "the given ObjectHandle doesn't exist in the arena"
  | some ob => ob.bindState id

/-- `Baseline::bind_channel` (client/rust/src/baseline.rs:321-331). -/
def bindChannel (b : Baseline) (id : PropId) (o : Idx) : Outcome Idx :=
  match b.objects.get o with
  | none => .err "the given ObjectHandle doesn't exist in the arena"
  | some ob => ob.bindChannel id

/-- The state loop of `object_remove` (client/rust/src/baseline.rs:204-212). -/
def removeStates (o : Idx) : List DynId → Baseline → Baseline × Outcome Unit
  | [], b => (b, .ok ())
  | d :: ds, b =>
    match b.bindState d.id o with
    | .err m => (b, .err m)
    | .panic m => (b, .panic m)
    | .ok i => removeStates o ds { b with states := (b.states.remove d.ty i).1 }

/-- The channel loop of `object_remove` (client/rust/src/baseline.rs:214-222). -/
def removeChannels (o : Idx) : List DynId → Baseline → Baseline × Outcome Unit
  | [], b => (b, .ok ())
  | d :: ds, b =>
    match b.bindChannel d.id o with
    | .err m => (b, .err m)
    | .panic m => (b, .panic m)
    | .ok i => removeChannels o ds { b with channels := (b.channels.remove d.ty i).1 }

/-- `Baseline::object_remove` (client/rust/src/baseline.rs:193-225): the object leaves the arena *first*. -/
def objectRemove (b : Baseline) (C : ContractTy) (o : Idx) : Baseline × Outcome Unit :=
  match b.objects.remove o with
  | (_, none) => (b, .err "object did not exist")
  | (objs, some ob) =>
    let b1 := { b with objects := objs }
    match removeStates o (C.stateIds ob.contract) b1 with
    | (b2, .err m) => (b2, .err m)
    | (b2, .panic m) => (b2, .panic m)
    | (b2, .ok ()) => removeChannels o (C.channelIds ob.contract) b2

/-- The loop of `unregister_contract` (client/rust/src/baseline.rs:89-92): `object_remove(..).expect(..)`. -/
def removeObjects (C : ContractTy) : List Idx → Baseline → Baseline × Outcome Unit
  | [], b => (b, .ok ())
  | o :: os, b =>
    match b.objectRemove C o with
    | (b1, .ok ()) => removeObjects C os b1
    | (b1, .err _) => (b1, .panic "failed to remove object")
    | (b1, .panic m) => (b1, .panic m)

/-- `Baseline::unregister_contract` (client/rust/src/baseline.rs:77-95). -/
def unregisterContract (b : Baseline) (C : ContractTy) (h : Idx) (ord : HashOrder) :
    Baseline × Outcome Unit :=
  match b.contracts.get h with
  | none => (b, .err "there is no contract with that id to unregister")
  | some cd =>
    if cd.id ≠ C.id then (b, .err "handle did not match the provided contract type")
    else
      match b.contracts.modify h (fun cd => { cd with objects := [] }) with
      | none => (b, .err "there is no contract with that id to unregister")
      | some contracts =>
        match removeObjects C (ord.order cd.objects) { b with contracts := contracts } with
        | (b1, .err m) => (b1, .err m)
        | (b1, .panic m) => (b1, .panic m)
        | (b1, .ok ()) => ({ b1 with contracts := (b1.contracts.remove h).1 }, .ok ())

end Baseline

/-- The calls of the public API that can change a baseline (client/rust/src/baseline.rs:66-260).  Contract instances
are pairs of a contract type and a handle; nothing forces the handle to have been issued for that
type, as `Contract::new` (client/rust/src/contract/mod.rs:45) is public. -/
inductive BOp where
  | register (C : ContractTy)
  | unregister (C : ContractTy) (h : Idx) (ord : HashOrder)
  | create (C : ContractTy) (h : Idx) (states : List DynProp) (channels : List DynChannel)
  | remove (C : ContractTy) (o : Idx)
  | writeState (t : PropType) (h : Idx) (v : t.Carrier)
  | writeChannel (t : PropType) (h : Idx) (v : t.Chan)
  | setWarp (o : Idx) (w : TimeWarp)

/-- What the caller of a `BOp` sees: a handle or nothing, or an error, or a panic. (client/rust/src/baseline.rs:66-260, the `Result`s) -/
abbrev BOut := Outcome (Option Idx)

/-- One API call (client/rust/src/baseline.rs:66-260), with its observable result. -/
def Baseline.step (b : Baseline) : BOp → Baseline × BOut
  | .register C => let (b', r) := b.registerContract C; (b', r.map some)
  | .unregister C h ord => let (b', r) := b.unregisterContract C h ord; (b', r.map fun _ => none)
  | .create C h ss cs => let (b', r) := b.objectCreate C h ss cs; (b', r.map some)
  | .remove C o => let (b', r) := b.objectRemove C o; (b', r.map fun _ => none)
  | .writeState t h v => let (b', r) := b.stateWrite t h v; (b', r.map fun _ => none)
  | .writeChannel t h v => let (b', r) := b.channelWrite t h v; (b', r.map fun _ => none)
  | .setWarp o w => let (b', r) := b.setWarp o w; (b', r.map fun _ => none)

/-- An API call together with its result. (the public methods, client/rust/src/baseline.rs:41-333) -/
abbrev Event := BOp × BOut

/-- `Trace b evs b'`: starting from `b`, performing the calls of `evs` in order gives the recorded
results and ends in `b'`.  Calls that return `Err` or panic are part of a trace. (the public methods, client/rust/src/baseline.rs:41-333) -/
inductive Trace : Baseline → List Event → Baseline → Prop
  | nil (b : Baseline) : Trace b [] b
  | cons (b : Baseline) (op : BOp) (evs : List Event) (b' : Baseline) :
      Trace (b.step op).1 evs b' → Trace b ((op, (b.step op).2) :: evs) b'

/-- Perform a list of calls, recording the events (a trace by `Verif.runOps_trace`). (the public methods, client/rust/src/baseline.rs:41-333) -/
def Baseline.runOps (b : Baseline) : List BOp → List Event × Baseline
  | [] => ([], b)
  | op :: ops =>
    let (b', out) := b.step op
    let (evs, b'') := b'.runOps ops
    ((op, out) :: evs, b'')

/-- `History kind evs b`: `b` is the baseline after the calls `evs` on a fresh baseline. (`Baseline::new`, client/rust/src/baseline.rs:42-59, then public methods) -/
def History (kind : Kind) (evs : List Event) (b : Baseline) : Prop :=
  Trace (Baseline.new kind) evs b

end Verif
