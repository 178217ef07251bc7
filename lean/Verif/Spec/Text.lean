import Verif.Spec.Buffer
/-!
# How much text

The bytes of text in a buffer, and the bytes of text a restored baseline holds.
-/
namespace Verif.Spec
open Verif

/-- The bytes of text in one state table. -/
def valText : FbVal → Nat
  | .fbString (some s) => s.utf8ByteSize
  | _ => 0

/-- The bytes of text in state table number `i`. -/
def textAt (buf : FbBaseline) (i : Nat) : Nat :=
  match (buf.states.getD [])[i]? with
  | some v => valText v
  | none => 0

/-- The bytes of text in all state tables of the buffer. -/
def bufText (buf : FbBaseline) : Nat := ((buf.states.getD []).map valText).sum

/-- The bytes of text the object table number `p` refers to, each reference counted. -/
def objText (buf : FbBaseline) (p : Nat) : Nat :=
  match (buf.objects.getD [])[p]? with
  | some obj => ((stateIdxs obj).map (textAt buf)).sum
  | none => 0

open Classical in
/-- The object tables of the contract types `Cs`, by number. -/
noncomputable def askedFor (buf : FbBaseline) (Cs : List ContractTy) : List Nat :=
  (List.range (buf.objects.getD []).length).filter fun p => decide (ObjectOf buf Cs p)

/-- The bytes of text the objects of the contract types `Cs` refer to, each reference counted. -/
noncomputable def askedText (buf : FbBaseline) (Cs : List ContractTy) : Nat := ((askedFor buf Cs).map (objText buf)).sum

/-- The bytes of text in field number `n` of object `o` of the contract with handle `h` and type `C`. -/
def fieldText (b : Baseline) (C : ContractTy) (h o : Idx) (n : Nat) : Nat :=
  match C.states[n]? with
  | none => 0
  | some f =>
    if f.ty = .prim .string then
      match b.bindState ⟨n, h⟩ o with
      | .ok j =>
        match b.state (.prim .string) j with
        | .ok s => String.utf8ByteSize s
        | _ => 0
      | _ => 0
    else 0

/-- The bytes of text in the objects of the contracts `cs`. -/
def heldText (b : Baseline) (cs : List (ContractTy × Idx)) : Nat :=
  (cs.map fun e => ((objectsOf b e.2).map fun o => ((List.range e.1.states.length).map (fieldText b e.1 e.2 o)).sum).sum).sum

end Verif.Spec
