import Verif.Model.Wrapper
/-!
# One C# wrapper, several threads

`Dispose` and `StealInner` (crates/rsharp/cs/src/RSharp.cs:117-141) read and clear the field `inner` in separate steps,
without a lock.  Here each step is on its own and the steps of several calls interleave.

Simplifications: reading or writing the field `Ptr<T>? inner` is one step (in .NET it may be torn, which adds behaviours);
the native destructor runs in the step that reads the pointer; memory is sequentially consistent.
-/
namespace Verif
variable {P : Type}

/-- The calls that race. (crates/rsharp/cs/src/RSharp.cs:117-141; the finalizer calls `Dispose`, 126-129) -/
inductive RCall where
  | dispose
  | steal
deriving DecidableEq, Repr

/-- Where a thread is in its call. (crates/rsharp/cs/src/RSharp.cs:117-124 and 136-141) -/
inductive Pc (P : Type) where
  /-- at the beginning -/
  | start
  /-- `Dispose`: the condition of line 119 was true, line 121 comes next -/
  | checked
  /-- `this.inner = null` comes next (line 123 or 139); the result so far -/
  | clearing (r : WRes P)
  /-- the call has returned or thrown -/
  | done (r : WRes P)
deriving DecidableEq, Repr

/-- The next step of a call on a wrapper. (crates/rsharp/cs/src/RSharp.cs:117-124 and 136-141) -/
def raceStep (w : Wrapper P) (c : RCall) : Pc P → Wrapper P × Pc P
  | .start => match c with
    | .dispose => (w, if w.own = .owned ∧ w.inner.isSome = true then .checked else .clearing .nothing)
    | .steal => match w.inner with
      | none => (w, .done .exception)
      | some p => (w, .clearing (.returned p))
  | .checked => match w.inner with
    | none => (w, .done .exception)
    | some p => (w, .clearing (.dropped p))
  | .clearing r => ({ w with inner := none }, .done r)
  | .done r => (w, .done r)

/-- A wrapper and the threads that call it, one call each. (crates/rsharp/cs/src/RSharp.cs:117-141) -/
structure RaceCfg (P : Type) where
  w : Wrapper P
  threads : List (RCall × Pc P)
deriving DecidableEq, Repr

/-- Thread `t` makes a step. (crates/rsharp/cs/src/RSharp.cs:117-141) -/
def RaceCfg.step (s : RaceCfg P) (t : Nat) : RaceCfg P :=
  match s.threads[t]? with
  | none => s
  | some (c, pc) => ⟨(raceStep s.w c pc).1, s.threads.set t (c, (raceStep s.w c pc).2)⟩

/-- A schedule: which thread makes the next step. (crates/rsharp/cs/src/RSharp.cs:117-141) -/
def RaceCfg.run (s : RaceCfg P) (sched : List Nat) : RaceCfg P := sched.foldl RaceCfg.step s

/-- A new wrapper and the calls about to be made on it. (crates/rsharp/cs/src/RSharp.cs:111-115) -/
def RaceCfg.init (p : P) (own : Ownership) (calls : List RCall) : RaceCfg P :=
  ⟨Wrapper.new p own, calls.map fun c => (c, .start)⟩

/-- All calls are over, with these results. (crates/rsharp/cs/src/RSharp.cs:117-141) -/
def RaceCfg.Finished (s : RaceCfg P) (rs : List (WRes P)) : Prop := s.threads.map Prod.snd = rs.map Pc.done

end Verif
