import Verif.Spec.RoundTrip
/-!
# Specification: two baselines of which the same was saved
-/
namespace Verif.Spec
open Verif

/-- The contracts `cs2` of `b2` have what the contracts `cs1` of `b1` have (either baseline may have more besides): `φ` matches their objects and `ψ` the contracts,
one to one and onto, and every state has the same value in both, up to the handles that it consists of and the sign of a zero. -/
structure SameSaved (b1 : Baseline) (cs1 : List (ContractTy × Idx)) (b2 : Baseline) (cs2 : List (ContractTy × Idx))
    (φ ψ : Idx → Idx) : Prop where
  instances : ∀ (C : ContractTy) (h2 : Idx), (C, h2) ∈ cs2 ↔ ∃ h1, (C, h1) ∈ cs1 ∧ ψ h1 = h2
  conInj : ∀ (C D : ContractTy) (h h' : Idx), (C, h) ∈ cs1 → (D, h') ∈ cs1 → ψ h = ψ h' → h = h'
  objects : ∀ (C : ContractTy) (h : Idx), (C, h) ∈ cs1 → ∀ o2 : Idx, o2 ∈ objectsOf b2 (ψ h) ↔ ∃ o1 ∈ objectsOf b1 h, φ o1 = o2
  objInj : ∀ (C D : ContractTy) (h h' o o' : Idx), (C, h) ∈ cs1 → (D, h') ∈ cs1 → o ∈ objectsOf b1 h → o' ∈ objectsOf b1 h' →
    φ o = φ o' → o = o'
  values : ∀ (C : ContractTy) (h o : Idx) (n : Nat) (f : Field), (C, h) ∈ cs1 → o ∈ objectsOf b1 h → C.states[n]? = some f →
    ∃ v1 v2, Holds b1 h o n f.ty v1 ∧ Holds b2 (ψ h) (φ o) n f.ty v2 ∧
      asRestored φ ψ (DynProp.ofTyped f.ty v1) = asRestored id id (DynProp.ofTyped f.ty v2)

end Verif.Spec
