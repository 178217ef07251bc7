import Verif.Model.Engine
/-!
# Threads that share one engine

Models `Engine::new` handing out an `ActionSender` (client/rust/src/engine.rs:14, 34-43: a crossbeam `Sender`, cloned once per
thread) and an engine that is run on a thread of its own (engine.rs:20-28, 57-72).  `Verif.Model.Engine` models the channel as a
queue; here the senders are threads with a program each, a `send` on a full channel waits, and the engine can go away.

The crossbeam channel (external crate, written down from its documentation) is modelled by its contract:
* `send` waits while a bounded channel is full; `try_send` does not wait; both fail once the receiver is gone, and give the message
  back;
* `bounded(0)` has no buffer: a `send` waits until a receive takes its message directly, longest-waiting first; `try_send` succeeds
  only if a receive is waiting at that moment;
* dropping the receiver discards what is queued.

Simplifications.  Each event is atomic (it is the moment at which the channel operation takes effect).  Which waiting `send` gets
a place that has become free is up to the schedule.  A panic in `apply_collaction` unwinds the thread that owns the engine and so
drops the engine, unless that thread catches it (`catches`).  The client number attached to a queued collaction is for the
specification only: nothing depends on it.
-/
namespace Verif.Clients
open Verif

/-- What a client does with its `ActionSender` (client/rust/src/engine.rs:14): `Sender::send` or `Sender::try_send`. -/
inductive SOp where
  | send (c : Collaction)
  | trySend (c : Collaction)
deriving DecidableEq, Repr

/-- The collaction an operation sends (client/rust/src/engine.rs:14). -/
def SOp.coll : SOp → Collaction
  | .send c => c
  | .trySend c => c

/-- A thread with its clone of the sender: what it still has to do, and whether the clone is alive
(client/rust/src/engine.rs:34-43). -/
structure Client where
  prog : List SOp
  live : Bool
deriving DecidableEq, Repr

/-- The engine (client/rust/src/engine.rs:29-32), its channel and the clients.  `parked` are the clients waiting in `send`, the
longest-waiting first. -/
structure Sys where
  realm : Realm
  cap : Option Nat
  catches : Bool
  alive : Bool
  queue : List (Nat × Collaction)
  parked : List Nat
  clients : List Client

/-- What can happen (client/rust/src/engine.rs:45-72). -/
inductive Ev where
  /-- client `i` goes on: its next send, or, at the end of its program, the drop of its sender -/
  | client (i : Nat)
  /-- `Engine::try_apply` (client/rust/src/engine.rs:59-63) -/
  | tryApply
  /-- `Engine::apply_timeout` (client/rust/src/engine.rs:68-72), at the moment it returns; `meet` is a client that comes to send while
  the engine waits, which matters for `bounded(0)` only -/
  | applyTimeout (meet : Option Nat)
  /-- `Engine::tick` (client/rust/src/engine.rs:45-47) -/
  | tick (d : Ticks)
  /-- one call through `Engine::realm_mut` (client/rust/src/engine.rs:53-55) -/
  | edit (k : Kind) (op : BOp)
  /-- the owner drops the engine -/
  | dropEngine

/-- What is seen. (client/rust/src/engine.rs:45-72) -/
inductive Out where
  /-- client `i`'s send returned `Ok`; the collaction is queued -/
  | sent (i : Nat) (c : Collaction)
  /-- client `i`'s `try_send` returned `Err(Full(c))` -/
  | full (i : Nat) (c : Collaction)
  /-- client `i`'s send returned `Err` with the collaction: the engine is gone -/
  | refused (i : Nat) (c : Collaction)
  /-- client `i` waits in `send` -/
  | waits (i : Nat)
  /-- client `i` dropped its sender -/
  | dropped (i : Nat)
  /-- the engine took `c`, sent by client `i`, from the queue; applying it gave `r` -/
  | applied (i : Nat) (c : Collaction) (r : CResult)
  /-- the engine took `c` directly from client `i`, whose send returned `Ok`; applying it gave `r` -/
  | handed (i : Nat) (c : Collaction) (r : CResult)
  | empty
  | timeout
  | disconnected
  | done
  | edited (o : BOut)
  /-- nothing to do (the thread is finished, or the engine is gone) -/
  | idle
deriving DecidableEq

/-- Is there a free place in the buffer?  (`bounded(cap)`, `unbounded()`, client/rust/src/engine.rs:35-39) -/
def Sys.hasRoom (s : Sys) : Bool :=
  match s.cap with
  | none => true
  | some n => s.queue.length < n

/-- Client `i` has finished the operation at the head of its program (client/rust/src/engine.rs:14). -/
def Sys.advance (s : Sys) (i : Nat) (rest : List SOp) : Sys :=
  { s with clients := s.clients.set i ⟨rest, true⟩, parked := s.parked.filter (fun j => !decide (j = i)) }

/-- The engine is dropped, and with it the receiver and everything queued (client/rust/src/engine.rs:29-32). -/
def Sys.kill (s : Sys) : Sys := { s with alive := false, queue := [] }

/-- `let result = self.apply_collaction(collaction); Ok(result)` (client/rust/src/engine.rs:61-62, 70-71): a panic leaves the
function and takes the engine with it, unless the caller catches it. -/
def Sys.apply (s : Sys) (c : Collaction) : Sys × CResult :=
  let (r, res) := Engine.applyCollaction s.realm c
  match res with
  | .panicked m => if s.catches then ({ s with realm := r }, .panicked m) else ({ s with realm := r }.kill, .panicked m)
  | _ => ({ s with realm := r }, res)

/-- The engine takes the collaction client `i` is about to send, without a buffer (`bounded(0)`, client/rust/src/engine.rs:36). -/
def Sys.takeFrom (s : Sys) (i : Nat) (needSend : Bool) : Option (Collaction × Sys) :=
  match s.clients[i]? with
  | some ⟨.send c :: rest, _⟩ => some (c, s.advance i rest)
  | some ⟨.trySend c :: rest, _⟩ => if needSend then none else some (c, s.advance i rest)
  | _ => none

/-- The receive of `try_apply` and `apply_timeout` (client/rust/src/engine.rs:60, 69), and the application of what it found.
`meet`: a client that comes to send during the wait; `none'` is what a fruitless wait returns. -/
def Sys.recv (s : Sys) (meet : Option Nat) (none' : Out) : Sys × Out :=
  let nothing : Sys × Out := (s, if s.clients.any (·.live) then none' else .disconnected)
  match s.queue with
  | (i, c) :: q =>
    let (s', r) := ({ s with queue := q } : Sys).apply c
    (s', .applied i c r)
  | [] =>
    if s.cap = some 0 then
      match s.parked with
      | i :: _ =>
        match s.takeFrom i true with
        | some (c, s1) => let (s', r) := s1.apply c; (s', .handed i c r)
        | none => nothing
      | [] =>
        match meet with
        | some i =>
          match s.takeFrom i false with
          | some (c, s1) => let (s', r) := s1.apply c; (s', .handed i c r)
          | none => nothing
        | none => nothing
    else nothing

/-- Client `i` goes on (crossbeam `Sender::send`, `Sender::try_send` and `drop` on the channel of client/rust/src/engine.rs:35-39). -/
def Sys.clientStep (s : Sys) (i : Nat) : Sys × Out :=
  match s.clients[i]? with
  | none => (s, .idle)
  | some ⟨[], live⟩ => if live then ({ s with clients := s.clients.set i ⟨[], false⟩ }, .dropped i) else (s, .idle)
  | some ⟨op :: rest, _⟩ =>
    if s.alive then
      if s.hasRoom then
        let s1 := s.advance i rest
        ({ s1 with queue := s1.queue ++ [(i, op.coll)] }, .sent i op.coll)
      else
        match op with
        | .trySend c => (s.advance i rest, .full i c)
        | .send _ => if s.parked.contains i then (s, .waits i) else ({ s with parked := s.parked ++ [i] }, .waits i)
    else (s.advance i rest, .refused i op.coll)

/-- One event (client/rust/src/engine.rs:45-72). -/
def Sys.step (s : Sys) : Ev → Sys × Out
  | .client i => s.clientStep i
  | .tryApply => if s.alive then s.recv none .empty else (s, .idle)
  | .applyTimeout meet => if s.alive then s.recv meet .timeout else (s, .idle)
  | .tick d => if s.alive then ({ s with realm := { s.realm with time := Ticks.add s.realm.time d } }, .done) else (s, .idle)
  | .edit k op =>
    if s.alive then let (r, o) := s.realm.onBaseline k op; ({ s with realm := r }, .edited o) else (s, .idle)
  | .dropEngine => if s.alive then (s.kill, .done) else (s, .idle)

/-- A schedule, with what is seen (client/rust/src/engine.rs:45-72). -/
def Sys.run (s : Sys) : List Ev → Sys × List Out
  | [] => (s, [])
  | e :: es =>
    let (s', o) := s.step e
    let (s'', os) := s'.run es
    (s'', o :: os)

/-- `Engine::new` (client/rust/src/engine.rs:34-43) and one thread per program, each with its clone of the sender. -/
def Sys.start (r : Realm) (cap : Option Nat) (catches : Bool) (progs : List (List SOp)) : Sys :=
  ⟨r, cap, catches, true, [], [], progs.map fun p => ⟨p, true⟩⟩

end Verif.Clients
