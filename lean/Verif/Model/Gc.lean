import Verif.Model.FfiHeap
/-!
# The garbage collector

Every wrapper class has a finalizer that calls `Dispose` (crates/rsharp/cs/src/RSharp.cs:72-75, 126-129).  The collector
runs it, at a time of its own choosing, once no live variable refers to the wrapper.  Wrappers hold plain pointers
(`IntPtr`), so a wrapper borrowed from another one (`OwnershipSemantics.SharedRef`, `MutRef`) does not keep that one
alive.  A method reads its pointers into locals before it enters the native function (e.g. client/cs/src/StateAccessors.cs:16-19), and
nothing in the API calls `GC.KeepAlive`; so the wrappers passed to a call are collectable as soon as their pointers
have been read, unless the program uses them again.

Simplifications: finalizers run one at a time and each as a whole, between calls or between the reading of the pointers
and the native function.  Variables are live exactly as long as a later instruction uses them (the optimising JIT).
-/
namespace Verif.Ffi

/-- An instruction of a program: a call, or `GC.KeepAlive(x)`, which does nothing but use `x`. (crates/rsharp/cs/src/RSharp.cs:91-145) -/
inductive Instr where
  | call (c : Call)
  | keepAlive (i : Nat)
deriving DecidableEq, Repr

/-- The wrappers an instruction uses. (arguments of the methods cited in `Model/FfiHeap`) (crates/rsharp/cs/src/RSharp.cs:103-124) -/
def Instr.uses : Instr → List Nat
  | .call (.method _ args) => args
  | .call (.dispose i) => [i]
  | .keepAlive i => [i]

/-- A later instruction uses the wrapper, so the collector leaves it alone. (finalizers: crates/rsharp/cs/src/RSharp.cs:126-129) -/
def mentioned (p : List Instr) (i : Nat) : Prop := ∃ x ∈ p, i ∈ x.uses

/-- The finalizers of some wrappers, one after the other. (crates/rsharp/cs/src/RSharp.cs:126-129) -/
def World.finalize (w : World) : List Nat → World × List Res
  | [] => (w, [])
  | i :: is => let (w1, r) := w.dispose i; let (w2, rs) := w1.finalize is; (w2, r :: rs)

/-- A method call during which finalizers run after the pointers have been read and before the native function is entered
(compare `World.call`). (e.g. client/cs/src/StateAccessors.cs:13-20) -/
def World.callDuring (w : World) (m : Method) (args : List Nat) (fs : List Nat) : World × List Res :=
  if !typed w.ws args m.args then (w, [.illTyped])
  else if !guards w.ws args m then (w, [.exception])
  else match evalPasses w.ws args m.pass with
    | (ws', none) => (⟨ws', w.heap⟩, [.exception])
    | (ws', some ptrs) =>
      let (w1, rs) := (⟨ws', w.heap⟩ : World).finalize fs
      match w1.heap.native m.sig ptrs with
      | .error f => (w1, rs ++ [.fault f])
      | .ok (h', r) => match m.ret, r with
        | some (c, o), some p => (⟨w1.ws ++ [⟨c, Wrapper.new p o⟩], h'⟩, rs ++ [.ok (some w1.ws.length)])
        | _, _ => (⟨w1.ws, h'⟩, rs ++ [.ok none])

/-- The executions of a program under every schedule of the collector, up to any point, with all results.  A finalizer may
run for any wrapper constructed so far that no later instruction uses. (crates/rsharp/cs/src/RSharp.cs:126-129) -/
inductive GcRun : World → List Instr → List Res → Prop
  | stop (w : World) (p : List Instr) : GcRun w p []
  | finalize (w : World) (p : List Instr) (i : Nat) (rs : List Res) : i < w.ws.length → ¬ mentioned p i →
      GcRun (w.dispose i).1 p rs → GcRun w p ((w.dispose i).2 :: rs)
  | keepAlive (w : World) (i : Nat) (p : List Instr) (rs : List Res) : GcRun w p rs → GcRun w (.keepAlive i :: p) rs
  | dispose (w : World) (i : Nat) (p : List Instr) (rs : List Res) :
      GcRun (w.dispose i).1 p rs → GcRun w (.call (.dispose i) :: p) ((w.dispose i).2 :: rs)
  | method (w : World) (a : Api) (args : List Nat) (p : List Instr) (fs : List Nat) (rs : List Res) :
      (∀ i ∈ fs, i < w.ws.length ∧ ¬ mentioned p i) →
      GcRun (w.callDuring a.method args fs).1 p rs →
      GcRun w (.call (.method a args) :: p) ((w.callDuring a.method args fs).2 ++ rs)

end Verif.Ffi
