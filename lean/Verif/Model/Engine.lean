import Verif.Model.Baseline
/-!
# Realms, collactions and the engine

Models client/rust/src/realm.rs, action/{mod,property}.rs and client/rust/src/engine.rs.

Simplifications.
* The realm id is dropped (an opaque string never read by the engine).
* The crossbeam channel is modelled by its contract: a FIFO queue with optional capacity, linearised
  at the moment a send is accepted or a receive succeeds, and a count of live senders.  A blocking
  `send` is its acceptance event; a `recv_timeout` that waits is the event at which it returns.
* `tracing::warn!` is dropped.
-/
namespace Verif

/-- `Realm` (client/rust/src/realm.rs:19-24). -/
structure Realm where
  time : Ticks
  main : Baseline
  fork : Baseline

namespace Realm

/-- `Realm::new` (client/rust/src/realm.rs:26-42). -/
def new : Realm := ⟨Ticks.new 0#32, Baseline.new .main, Baseline.new .fork⟩

/-- `Realm::baseline` (client/rust/src/realm.rs:58-63). -/
def baseline (r : Realm) : Kind → Baseline
  | .main => r.main
  | .fork => r.fork

/-- `Realm::baseline_mut` (client/rust/src/realm.rs:65-70), used to perform one API call on that baseline. -/
def onBaseline (r : Realm) (k : Kind) (op : BOp) : Realm × BOut :=
  match k with
  | .main => let (b, out) := Baseline.step r.main op; ({ r with main := b }, out)
  | .fork => let (b, out) := Baseline.step r.fork op; ({ r with fork := b }, out)

/-- A sequence of API calls on either baseline (`baseline_mut(kind)`, client/rust/src/realm.rs:65-70). -/
def run (r : Realm) : List (Kind × BOp) → Realm
  | [] => r
  | (k, op) :: ops => run (r.onBaseline k op).1 ops

end Realm

/-- `DynStateHandle` (client/rust/src/contract/properties/states/dyn_handle.rs:13-16): a handle with its static type; also
`DynChannelHandle` (client/rust/src/contract/properties/channels/dyn_handle.rs). -/
structure DynHandle where
  ty : PropType
  idx : Idx
deriving DecidableEq, Repr

/-- `StateAction` (client/rust/src/action/property.rs:25-34). -/
inductive StateAction where
  | assert (handle : DynHandle) (data : DynProp)
  | write (handle : DynHandle) (data : DynProp)
deriving DecidableEq, Repr

/-- `ChannelAction` (client/rust/src/action/property.rs:15-24). -/
inductive ChannelAction where
  | assert (handle : DynHandle) (data : DynProp)
  | write (handle : DynHandle) (data : DynProp)
deriving DecidableEq, Repr

/-- `Action` with `PropertyAction` (client/rust/src/action/mod.rs:8-10, client/rust/src/action/property.rs:10-13). -/
inductive Action where
  | state (a : StateAction)
  | channel (a : ChannelAction)
deriving DecidableEq, Repr

/-- The `ActionKind`s that `IAction::kind` can return (client/rust/src/action/mod.rs:39-53; the other variants have
no action). -/
inductive ActionKind where
  | stateWrite | stateAssert | channelWrite | channelAssert
deriving DecidableEq, Repr

/-- `IAction::kind` (client/rust/src/action/property.rs:36-60). -/
def Action.kind : Action → ActionKind
  | .state (.write ..) => .stateWrite
  | .state (.assert ..) => .stateAssert
  | .channel (.write ..) => .channelWrite
  | .channel (.assert ..) => .channelAssert

/-- `Collaction` (client/rust/src/action/mod.rs:22-34). -/
abbrev Collaction := List Action

/-- `Baseline::state(DynStateHandle)` (client/rust/src/contract/properties/states/dyn_handle.rs:21-31): the value wrapped at its type. -/
def Baseline.dynState (b : Baseline) (h : DynHandle) : Outcome DynProp :=
  (b.state h.ty h.idx).map (DynProp.ofTyped h.ty)

/-- `CollactionResult` (client/rust/src/action/mod.rs:36), or a panic. -/
inductive CResult where
  | accepted (c : Collaction)
  | rejected (c : Collaction)
  | panicked (msg : String)
deriving DecidableEq, Repr

namespace Engine

/-- `Engine::apply_action` (client/rust/src/engine.rs:103-146), as written: a state write reaches `todo!`.  The action
is taken by `&mut`, so it is returned.  The `debug_assert` (128) is included; without debug assertions
the `todo!` behind it panics instead. -/
def applyAction (r : Realm) (a : Action) : Realm × Action × Outcome Unit :=
  match a with
  | .state (.assert h d) =>
    match (r.baseline .fork).dynState h with
    | .err m => (r, a, .err m)
    | .panic m => (r, a, .panic m)
    | .ok v => if v.beq d.borrow then (r, a, .ok ()) else (r, a, .err "Assert failed!")
  | .state (.write h d) =>
    match (r.baseline .fork).dynState h with
    | .err m => (r, a, .err m)
    | .panic m => (r, a, .panic m)
    | .ok v =>
      if v.propType ≠ d.propType then (r, a, .panic "assertion failed")
      else (r, a, .panic "not yet implemented: Figure out how to swap")
  | .channel _ => (r, a, .ok ())

/-- `Engine::reverse_action` (client/rust/src/engine.rs:148-165). -/
def reverseAction (r : Realm) (a : Action) : Realm × Action × Outcome Unit :=
  match a.kind with
  | .stateAssert => (r, a, .ok ())
  | .stateWrite =>
    match applyAction r a with
    | (r', a', .ok ()) => (r', a', .ok ())
    | (r', a', .err _) => (r', a', .panic "TODO: How do we handle failure")
    | (r', a', .panic m) => (r', a', .panic m)
  | _ => (r, a, .ok ())

/-- `Engine::reverse_actions` (client/rust/src/engine.rs:167-171). -/
def reverseActions (r : Realm) : List Action → Realm × List Action × Outcome Unit
  | [] => (r, [], .ok ())
  | a :: as =>
    match reverseAction r a with
    | (r', a', .ok ()) => let (r'', as', o) := reverseActions r' as; (r'', a' :: as', o)
    | (r', a', o) => (r', a' :: as, o)

/-- The loop of `Engine::apply_collaction` (client/rust/src/engine.rs:80-97): `done` are the actions already applied,
most recent first; `rest` those still to come. -/
def applyLoop (r : Realm) (done : List Action) : List Action → Realm × CResult
  | [] => (r, .accepted done.reverse)
  | a :: rest =>
    match applyAction r a with
    | (r', a', .ok ()) => applyLoop r' (a' :: done) rest
    | (r', _, .panic m) => (r', .panicked m)
    | (r', a', .err _) =>
      match reverseActions r' (a' :: done) with
      | (r'', done', .ok ()) => (r'', .rejected (done'.reverse ++ rest))
      | (r'', _, .err m) => (r'', .panicked m)
      | (r'', _, .panic m) => (r'', .panicked m)

/-- `Engine::apply_collaction` (client/rust/src/engine.rs:74-101). -/
def applyCollaction (r : Realm) (c : Collaction) : Realm × CResult := applyLoop r [] c

end Engine

/-- `Engine` and its channel (client/rust/src/engine.rs:29-43).  `cap = none` is the unbounded channel; `senders`
counts the live `ActionSender`s. -/
structure EngineS where
  realm : Realm
  queue : List Collaction
  cap : Option Nat
  senders : Nat

/-- What can happen to an engine and its channel. (client/rust/src/engine.rs:33-72 and `Sender::send`) -/
inductive EOp where
  /-- `try_send` by some sender, or the attempt of a blocking `send` -/
  | send (c : Collaction)
  /-- a rendezvous (`queue_capacity = Some(0)`): a blocked `send` meets `try_apply`/`apply_timeout` -/
  | handoff (c : Collaction)
  | cloneSender
  | dropSender
  /-- `Engine::try_apply` (client/rust/src/engine.rs:59-63) -/
  | tryApply
  /-- `Engine::apply_timeout` (client/rust/src/engine.rs:68-72), at the moment it returns -/
  | applyTimeout
  /-- `Engine::tick` (client/rust/src/engine.rs:45-47) -/
  | tick (d : Ticks)
  /-- `Engine::realm_mut` (client/rust/src/engine.rs:53-55) used for one baseline call -/
  | edit (k : Kind) (op : BOp)

/-- What the caller sees.  `applied c r`: collaction `c` left the queue and applying it gave `r`. (client/rust/src/engine.rs:45-101) -/
inductive EOut where
  | sent
  | full
  | disconnected
  | empty
  | timeout
  | applied (c : Collaction) (r : CResult)
  | done
  | edited (o : BOut)
deriving DecidableEq

namespace EngineS

/-- `Engine::new` (client/rust/src/engine.rs:34-43). -/
def new (r : Realm) (cap : Option Nat) : EngineS := ⟨r, [], cap, 1⟩

/-- Is there room for one more element? (crossbeam `bounded(cap)` / `unbounded()`, client/rust/src/engine.rs:35-39) -/
def hasRoom (e : EngineS) : Bool :=
  match e.cap with
  | none => true
  | some n => e.queue.length < n

/-- One event (client/rust/src/engine.rs:45-72 with the channel operations of crossbeam). -/
def step (e : EngineS) : EOp → EngineS × EOut
  | .send c =>
    if e.senders = 0 then (e, .disconnected)
    else if e.hasRoom then ({ e with queue := e.queue ++ [c] }, .sent) else (e, .full)
  | .handoff c =>
    if e.senders = 0 then (e, .disconnected)
    else if e.cap = some 0 then
      let (r, out) := Engine.applyCollaction e.realm c
      ({ e with realm := r }, .applied c out)
    else (e, .full)
  | .cloneSender => if e.senders = 0 then (e, .disconnected) else ({ e with senders := e.senders + 1 }, .done)
  | .dropSender => if e.senders = 0 then (e, .disconnected) else ({ e with senders := e.senders - 1 }, .done)
  | .tryApply =>
    match e.queue with
    | c :: q =>
      let (r, out) := Engine.applyCollaction e.realm c
      ({ e with realm := r, queue := q }, .applied c out)
    | [] => (e, if e.senders = 0 then .disconnected else .empty)
  | .applyTimeout =>
    match e.queue with
    | c :: q =>
      let (r, out) := Engine.applyCollaction e.realm c
      ({ e with realm := r, queue := q }, .applied c out)
    | [] => (e, if e.senders = 0 then .disconnected else .timeout)
  | .tick d => ({ e with realm := { e.realm with time := Ticks.add e.realm.time d } }, .done)
  | .edit k op => let (r, o) := e.realm.onBaseline k op; ({ e with realm := r }, .edited o)

/-- Run a schedule, recording events. (client/rust/src/engine.rs:33-72) -/
def run (e : EngineS) : List EOp → EngineS × List (EOp × EOut)
  | [] => (e, [])
  | op :: ops =>
    let (e', o) := e.step op
    let (e'', evs) := e'.run ops
    (e'', (op, o) :: evs)

end EngineS
end Verif
