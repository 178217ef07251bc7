import Mathlib.Data.List.Forall2
import Verif.Spec.Program
import Verif.Spec.SaveRestore
/-!
# Specification of transparent saving

What must be saved so that a program cannot tell the restored baseline from the original, which variable of the one stands for which
of the other, and the lives of a program that is saved and restored now and then.
-/
namespace Verif.Spec
open Verif

/-- The contracts `cs` are the whole baseline, no object has a time warp and no state is minus zero (the format carries neither
time warps nor the signs of zeros). -/
structure Whole (b : Baseline) (cs : List (ContractTy × Idx)) : Prop where
  contracts : ∀ (h : Idx) (cd : ContractData), b.contractData h = .ok cd → ∃ C, (C, h) ∈ cs
  objects : ∀ (o : Idx) (ob : ObjectD), b.object o = .ok ob → ∃ C h, (C, h) ∈ cs ∧ o ∈ objectsOf b h
  warps : ∀ (o : Idx) (ob : ObjectD), b.object o = .ok ob → ob.warp = TimeWarp.default
  zeros : NoMinusZero b cs

/-- No program that registers contracts with these ids only, and does not count the objects of the whole baseline, can tell the two apart,
whatever hash orders it meets on either side. -/
def IndistinguishableTo (own : ContractId → Prop) (env : Env) (b : Baseline) (env' : Env) (b' : Baseline) : Prop :=
  ∀ is : List Instr, (∀ C : ContractTy, Instr.register C ∈ is → own C.id) → Instr.countObjects ∉ is →
    ∀ ords ords' : Nat → HashOrder, (runProg is ords env b).1 = (runProg is ords' env' b').1

/-- The id of one of these contracts, or of none that is registered. -/
def OwnOrFree (b : Baseline) (cs : List (ContractTy × Idx)) (id : ContractId) : Prop :=
  (∃ e ∈ cs, e.1.id = id) ∨ ∀ (h : Idx) (cd : ContractData), b.contractData h = .ok cd → cd.id ≠ id

/-- The variable of the restored program that stands for a variable of the original one: instances, contract handles and object
handles are mapped, a state handle is got by binding the same field again. -/
inductive StandsFor (b : Baseline) (cs : List (ContractTy × Idx)) (b' : Baseline) (φ ψ : Idx → Idx) : Held → Held → Prop
  | inst (C : ContractTy) (h : Idx) : (C, h) ∈ cs → StandsFor b cs b' φ ψ (.inst C h) (.inst C (ψ h))
  | con (C : ContractTy) (h : Idx) : (C, h) ∈ cs → StandsFor b cs b' φ ψ (.con h) (.con (ψ h))
  | obj (C : ContractTy) (h o : Idx) : (C, h) ∈ cs → o ∈ objectsOf b h → StandsFor b cs b' φ ψ (.obj o) (.obj (φ o))
  | state (C : ContractTy) (h o : Idx) (n : Nat) (f : Field) (i j : Idx) : (C, h) ∈ cs → o ∈ objectsOf b h → C.states[n]? = some f →
      b.bindState ⟨n, h⟩ o = .ok i → b'.bindState ⟨n, ψ h⟩ (φ o) = .ok j → StandsFor b cs b' φ ψ (.state f.ty i) (.state f.ty j)

/-- What the program `is`, with variables `env` and baseline `b`, sees in a life in which it is stopped, saved and continued from the
restored baseline any number of times. -/
inductive Life : Env → Baseline → List Instr → List Seen → Prop
  | last (env : Env) (b : Baseline) (is : List Instr) (ords : Nat → HashOrder) : Life env b is (runProg is ords env b).1
  | restart (env : Env) (b : Baseline) (is : List Instr) (ords : Nat → HashOrder) (ss : List Seen) (env1 : Env) (b1 : Baseline)
      (kind : Kind) (evs : List Event) (cs : List (ContractTy × Idx)) (c : Cycle) (cs' : List (ContractTy × Idx)) (b1' : Baseline)
      (φ ψ : Idx → Idx) (env1' : Env) (is' : List Instr) (ss' : List Seen) :
      runProg is ords env b = (ss, some (env1, b1)) → Savable kind evs b1 cs → Whole b1 cs → c.Fits cs → c.kind = b1.kind →
      c.run b1 = .ok (cs', b1') → SameContents b1 cs b1' cs' φ ψ → List.Forall₂ (StandsFor b1 cs b1' φ ψ) env1 env1' →
      Life env1' b1' is' ss' → Life env b (is ++ is') (ss ++ ss')

end Verif.Spec
