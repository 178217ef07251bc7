import Verif.Spec.RoundTrip
/-!
# Specification: baselines that are built with care
-/
namespace Verif.Spec
open Verif

/-- The value is not a handle, or that of one of the contracts `cs` or of an object of one. -/
def FromWithin (b : Baseline) (cs : List (ContractTy × Idx)) (v : DynProp) : Prop :=
  (∀ o : Idx, v = .primitive (.objectHandle o) → ∃ C h, (C, h) ∈ cs ∧ o ∈ objectsOf b h) ∧
  ∀ k : Idx, v = .primitive (.contractDataHandle k) → ∃ C, (C, k) ∈ cs

/-- The baseline `b` comes about by calls that keep the contracts `cs` fit for saving: they have states of primitive types only and not the
internal id; their objects are created with their types, if they have no channels; and no handle from outside of them is put into their states.
Anything can be done with other contracts: they can be registered and unregistered, and their objects created and removed (also if these calls fail or panic half way). -/
inductive Built (kind : Kind) : Baseline → List (ContractTy × Idx) → Prop
  | start : Built kind (Baseline.new kind) []
  | register (b : Baseline) (cs : List (ContractTy × Idx)) (C : ContractTy) (b' : Baseline) (h : Idx) : Built kind b cs →
      (∀ f ∈ C.states, ∃ p, f.ty = .prim p) → C.id ≠ ⟨"teleportal.serialize.NullContract", (0, 0, 0)⟩ →
      b.registerContract C = (b', .ok h) → Built kind b' (cs ++ [(C, h)])
  | create (b : Baseline) (cs : List (ContractTy × Idx)) (C : ContractTy) (h : Idx) (ss : List DynProp) (b' : Baseline) (o : Idx) : Built kind b cs →
      (C, h) ∈ cs → C.channels = [] → (∀ v ∈ ss, FromWithin b cs v) → b.objectCreate C h ss [] = (b', .ok o) → Built kind b' cs
  | write (b : Baseline) (cs : List (ContractTy × Idx)) (t : PropType) (i : Idx) (v : t.Carrier) (b' : Baseline) : Built kind b cs →
      FromWithin b cs (DynProp.ofTyped t v) → b.stateWrite t i v = (b', .ok ()) → Built kind b' cs
  | registerOther (b : Baseline) (cs : List (ContractTy × Idx)) (C : ContractTy) (b' : Baseline) (h : Idx) : Built kind b cs →
      b.registerContract C = (b', .ok h) → Built kind b' cs
  | createOther (b : Baseline) (cs : List (ContractTy × Idx)) (C : ContractTy) (h : Idx) (ss : List DynProp) (ch : List DynChannel)
      (b' : Baseline) (o : Idx) : Built kind b cs → (∀ e ∈ cs, e.2 ≠ h) → b.objectCreate C h ss ch = (b', .ok o) → Built kind b' cs
  | channel (b : Baseline) (cs : List (ContractTy × Idx)) (t : PropType) (i : Idx) (v : t.Chan) (b' : Baseline) (r : Outcome Unit) : Built kind b cs →
      b.channelWrite t i v = (b', r) → Built kind b' cs
  | warp (b : Baseline) (cs : List (ContractTy × Idx)) (o : Idx) (w : TimeWarp) (b' : Baseline) (r : Outcome Unit) : Built kind b cs →
      b.setWarp o w = (b', r) → Built kind b' cs
  | removeOther (b : Baseline) (cs : List (ContractTy × Idx)) (C : ContractTy) (o : Idx) (b' : Baseline) (r : Outcome Unit) : Built kind b cs →
      (∀ e ∈ cs, o ∉ objectsOf b e.2) → b.objectRemove C o = (b', r) → Built kind b' cs
  | unregisterOther (b : Baseline) (cs : List (ContractTy × Idx)) (C : ContractTy) (h : Idx) (ord : HashOrder) (b' : Baseline) (r : Outcome Unit) :
      Built kind b cs → (∀ e ∈ cs, e.2 ≠ h) → b.unregisterContract C h ord = (b', r) → Built kind b' cs

end Verif.Spec
