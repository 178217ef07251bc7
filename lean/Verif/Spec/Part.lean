import Verif.Spec.Program
import Verif.Spec.RoundTrip
/-!
# Parts of a baseline

A part is some contracts with their objects, such that no state or channel of these objects mentions an object or a contract outside.
-/
namespace Verif.Spec
open Verif

/-- A handle, if it is one, of this part. -/
def PrimInside (b : Baseline) (cs : List (ContractTy × Idx)) : (p : PrimType) → p.Carrier → Prop
  | .objectHandle, o => ∃ C h, (C, h) ∈ cs ∧ o ∈ objectsOf b h
  | .contractDataHandle, h => ∃ C, (C, h) ∈ cs
  | _, _ => True

def ValueInside (b : Baseline) (cs : List (ContractTy × Idx)) : (t : PropType) → t.Carrier → Prop
  | .prim p, v => PrimInside b cs p v
  | .vec p, l => ∀ v ∈ l, PrimInside b cs p v

/-- The contracts `cs` of the baseline reached by `evs` are a part: registered, with objects created with these types only, which mention
nothing outside. -/
structure Part (evs : List Event) (b : Baseline) (cs : List (ContractTy × Idx)) : Prop where
  registered : ∀ (C : ContractTy) (h : Idx), (C, h) ∈ cs → ∃ cd, b.contractData h = .ok cd ∧ cd.id = C.id
  typed : ∀ (C C' : ContractTy) (h o : Idx), (C, h) ∈ cs → CreatedAs evs C' h o → C' = C
  different : (cs.map Prod.snd).Nodup
  states : ∀ (C : ContractTy) (h o : Idx) (n : Nat) (f : Field) (i : Idx) (v : f.ty.Carrier), (C, h) ∈ cs → o ∈ objectsOf b h →
    C.states[n]? = some f → b.bindState ⟨n, h⟩ o = .ok i → b.state f.ty i = .ok v → ValueInside b cs f.ty v
  channels : ∀ (C : ContractTy) (h o : Idx) (n : Nat) (f : Field) (i : Idx) (c : f.ty.Chan), (C, h) ∈ cs → o ∈ objectsOf b h →
    C.channels[n]? = some f → b.bindChannel ⟨n, h⟩ o = .ok i → b.channel f.ty i = .ok c → ∀ k ∈ c, ValueInside b cs f.ty k.value

/-- A variable of this part. -/
inductive Inside (b : Baseline) (cs : List (ContractTy × Idx)) : Held → Prop
  | inst (C : ContractTy) (h : Idx) : (C, h) ∈ cs → Inside b cs (.inst C h)
  | con (C : ContractTy) (h : Idx) : (C, h) ∈ cs → Inside b cs (.con h)
  | obj (C : ContractTy) (h o : Idx) : (C, h) ∈ cs → o ∈ objectsOf b h → Inside b cs (.obj o)
  | state (C : ContractTy) (h o : Idx) (n : Nat) (f : Field) (i : Idx) : (C, h) ∈ cs → o ∈ objectsOf b h → C.states[n]? = some f →
      b.bindState ⟨n, h⟩ o = .ok i → Inside b cs (.state f.ty i)
  | channel (C : ContractTy) (h o : Idx) (n : Nat) (f : Field) (i : Idx) : (C, h) ∈ cs → o ∈ objectsOf b h → C.channels[n]? = some f →
      b.bindChannel ⟨n, h⟩ o = .ok i → Inside b cs (.channel f.ty i)

end Verif.Spec
