import Verif.Model.Types
/-!
# Contracts, property ids and the field iterators

Models client/rust/src/contract/mod.rs, client/rust/src/contract/properties/mod.rs (`prop_iter!`),
contract/properties/states/{id,iter}.rs and client/rust/src/contract/properties/channels/mod.rs.
-/
namespace Verif

/-- `ContractId` (client/rust/src/contract/mod.rs:18-27): equal iff name and version are equal. -/
structure ContractId where
  name : String
  version : BitVec 16 × BitVec 16 × BitVec 16
deriving DecidableEq, Repr

/-- One declared field of a `States`/`Channels` struct: its name and type
(`field_names`, `enumerate_types`: client/rust/src/contract/properties/states/iter.rs:7-11, client/rust/src/contract/properties/channels/mod.rs:75-79). -/
structure Field where
  name : String
  ty : PropType
deriving DecidableEq, Repr

/-- A type implementing `Contract` (client/rust/src/contract/mod.rs:39-72): `ID`, `States`, `Channels`.  Rust types
are compile-time objects; here a contract type is a value. -/
structure ContractTy where
  id : ContractId
  states : List Field
  channels : List Field
deriving DecidableEq, Repr

/-- `C::States::enumerate_types()` (client/rust/src/contract/properties/states/iter.rs:9). -/
def ContractTy.stateTypes (C : ContractTy) : List PropType := C.states.map Field.ty
/-- `C::Channels::enumerate_types()` (client/rust/src/contract/properties/channels/mod.rs:77). -/
def ContractTy.channelTypes (C : ContractTy) : List PropType := C.channels.map Field.ty

/-- A property id: `StateId<T>` (client/rust/src/contract/properties/states/id.rs:13-38) or `ChannelId<T>` (client/rust/src/contract/properties/channels/mod.rs:46-72).  The
phantom `T` is carried outside, as the type index of the functions that take an id. -/
structure PropId where
  idx : Nat
  contract : Idx
deriving DecidableEq, Repr

/-- `DynStateId`/`DynChannelId`: an id together with its static type
(client/rust/src/contract/properties/states/id.rs:41, client/rust/src/contract/properties/channels/mod.rs:95 via client/rust/src/contract/properties/dynamic/__macro.rs:110-165). -/
structure DynId where
  ty : PropType
  id : PropId
deriving DecidableEq, Repr

/-- `DynStateId::new` / `DynChannelId::new` (client/rust/src/contract/properties/dynamic/__macro.rs:116-161): the 28-arm match wraps the
id at the type named by the tag. -/
def DynId.new (contract : Idx) (idx : Nat) (ty : PropType) : DynId := ⟨ty, ⟨idx, contract⟩⟩

/-- `StatesIter` / `ChannelsIter` (client/rust/src/contract/properties/mod.rs:6-21). -/
structure PropIter where
  types : List PropType
  contract : Idx
  pos : Nat
deriving DecidableEq, Repr

namespace PropIter

/-- `$iter_name::new` (client/rust/src/contract/properties/mod.rs:14-20). -/
def new (types : List PropType) (contract : Idx) : PropIter := ⟨types, contract, 0⟩

/-- `next` (client/rust/src/contract/properties/mod.rs:26-31). -/
def next (it : PropIter) : Option DynId × PropIter :=
  match it.types[it.pos]? with
  | none => (none, it)
  | some t => (some (DynId.new it.contract it.pos t), { it with pos := it.pos + 1 })

/-- `size_hint` (client/rust/src/contract/properties/mod.rs:33-36): lower and upper bound; `none` is the subtraction overflow
panic (`len - pos`), which happens only if `pos` exceeds the length. -/
def sizeHint (it : PropIter) : Option (Nat × Option Nat) :=
  if it.pos ≤ it.types.length then
    some (it.types.length - it.pos, some (it.types.length - it.pos))
  else none

/-- Result of `nth`: a value, or the `expect` panic. (client/rust/src/contract/properties/mod.rs:38-52) -/
inductive NthOut where
  | val (r : Option DynId)
  | panic
deriving DecidableEq, Repr

/-- `nth` (client/rust/src/contract/properties/mod.rs:38-51), as written: the type is read at the *old* position, the position
advances by one only, and the id carries the incremented position.  Simplification: `pos + n` is a
`usize` addition that can overflow for an absurd `n` (a debug panic); not modelled. -/
def nth (it : PropIter) (n : Nat) : NthOut × PropIter :=
  let newPos := it.pos + n
  if newPos ≥ it.types.length then
    (.val none, { it with pos := it.types.length })
  else
    match it.types[it.pos]? with
    | none => (.panic, it)
    | some t =>
      let it' := { it with pos := it.pos + 1 }
      (.val (some (DynId.new it.contract it'.pos t)), it')

/-- Collecting the iterator with a `for` loop: call `next` until it answers `None`
(used by client/rust/src/baseline.rs:204, 214 and client/serialize/rust/src/serializer/mod.rs).  `fuel` bounds the loop; it is called with the
number of remaining fields. -/
def drainFuel : Nat → PropIter → List DynId
  | 0, _ => []
  | fuel + 1, it =>
    match it.next with
    | (none, _) => []
    | (some d, it') => d :: drainFuel fuel it'

/-- All remaining ids. (repeated `next`, client/rust/src/contract/properties/mod.rs:26-36) -/
def drain (it : PropIter) : List DynId := drainFuel (it.types.length - it.pos + 1) it

end PropIter

/-- `Contract::state_iter` (client/rust/src/contract/mod.rs:50-52), collected. -/
def ContractTy.stateIds (C : ContractTy) (h : Idx) : List DynId :=
  (PropIter.new C.stateTypes h).drain
/-- `Contract::chan_iter` (client/rust/src/contract/mod.rs:53-55), collected. -/
def ContractTy.channelIds (C : ContractTy) (h : Idx) : List DynId :=
  (PropIter.new C.channelTypes h).drain

/-- `Contract::state_id` (client/rust/src/contract/mod.rs:58-63). -/
def ContractTy.stateId (C : ContractTy) (h : Idx) (idx : Nat) : Option DynId :=
  (C.stateTypes[idx]?).map fun t => DynId.new h idx t
/-- `Contract::chan_id` (client/rust/src/contract/mod.rs:66-71). -/
def ContractTy.chanId (C : ContractTy) (h : Idx) (idx : Nat) : Option DynId :=
  (C.channelTypes[idx]?).map fun t => DynId.new h idx t

end Verif
