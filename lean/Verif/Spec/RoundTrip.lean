import Verif.Spec.Buffer
/-!
# Specification of serialization as a whole

When a set of contracts of a baseline can be carried by the format, and what it means that another baseline has the
same contents.  Only the public readers of a baseline are used.
-/
namespace Verif.Spec
open Verif

/-- `o` was created as an object of contract type `C` through the contract handle `h`. -/
def CreatedAs (evs : List Event) (C : ContractTy) (h o : Idx) : Prop :=
  ∃ ss cs, (BOp.create C h ss cs, Outcome.ok (some o)) ∈ evs

/-- Field number `n` of object `o` (of a contract with handle `h`) has type `t` and holds `v`. -/
def Holds (b : Baseline) (h o : Idx) (n : Nat) (t : PropType) (v : t.Carrier) : Prop :=
  ∃ j, b.bindState ⟨n, h⟩ o = .ok j ∧ b.state t j = .ok v

/-- The contracts `cs` of the baseline reached by `evs` can be serialized: they are registered, their objects were
created with the contract type they are serialized with, no object was removed from under them, and the format can
carry their states. -/
structure Serializable (evs : List Event) (b : Baseline) (cs : List (ContractTy × Idx)) : Prop where
  registered : ∀ (C : ContractTy) (h : Idx), (C, h) ∈ cs → ∃ cd, b.contractData h = .ok cd ∧ cd.id = C.id
  typed : ∀ (C C' : ContractTy) (h o : Idx), (C, h) ∈ cs → CreatedAs evs C' h o → C' = C
  present : ∀ (C : ContractTy) (h o : Idx), (C, h) ∈ cs → o ∈ objectsOf b h → ∃ ob, b.object o = .ok ob
  primitive : ∀ (C : ContractTy) (h : Idx) (f : Field), (C, h) ∈ cs → f ∈ C.states → ∃ p, f.ty = .prim p
  few : cs.length ≤ 65535

/-- As `Serializable`, but only the contracts that have states need all their listed objects alive. -/
structure Storable (evs : List Event) (b : Baseline) (cs : List (ContractTy × Idx)) : Prop where
  registered : ∀ (C : ContractTy) (h : Idx), (C, h) ∈ cs → ∃ cd, b.contractData h = .ok cd ∧ cd.id = C.id
  typed : ∀ (C C' : ContractTy) (h o : Idx), (C, h) ∈ cs → CreatedAs evs C' h o → C' = C
  present : ∀ (C : ContractTy) (h o : Idx), (C, h) ∈ cs → C.states ≠ [] → o ∈ objectsOf b h →
    ∃ ob, b.object o = .ok ob
  primitive : ∀ (C : ContractTy) (h : Idx) (f : Field), (C, h) ∈ cs → f ∈ C.states → ∃ p, f.ty = .prim p
  few : cs.length ≤ 65535

theorem Serializable.storable {evs : List Event} {b : Baseline} {cs : List (ContractTy × Idx)}
    (h : Serializable evs b cs) : Storable evs b cs :=
  ⟨h.registered, h.typed, fun C k o m _ => h.present C k o m, h.primitive, h.few⟩

/-- Only contracts without channels have objects. -/
def NoChannelObjects (b : Baseline) (cs : List (ContractTy × Idx)) : Prop :=
  ∀ (C : ContractTy) (h : Idx), (C, h) ∈ cs → C.channels ≠ [] → objectsOf b h = []

theorem NoChannelObjects.of_none {b : Baseline} {cs : List (ContractTy × Idx)} (h : ∀ e ∈ cs, e.1.channels = []) :
    NoChannelObjects b cs := fun C k hC hne => absurd (h (C, k) hC) hne

/-- Nothing in the objects of `cs` refers outside of `cs`. -/
structure Closed (b : Baseline) (cs : List (ContractTy × Idx)) : Prop where
  objects : ∀ (C : ContractTy) (h o : Idx) (n : Nat) (f : Field) (v : Idx), (C, h) ∈ cs → o ∈ objectsOf b h →
    C.states[n]? = some f → f.ty = .prim .objectHandle → Holds b h o n (.prim .objectHandle) v →
    ∃ C' h', (C', h') ∈ cs ∧ v ∈ objectsOf b h'
  contracts : ∀ (C : ContractTy) (h o : Idx) (n : Nat) (f : Field) (v : Idx), (C, h) ∈ cs → o ∈ objectsOf b h →
    C.states[n]? = some f → f.ty = .prim .contractDataHandle → Holds b h o n (.prim .contractDataHandle) v →
    ∃ C', (C', v) ∈ cs

/-- The contract with handle `h` occurs more than once in `cs`. -/
def Twice (cs : List (ContractTy × Idx)) (h : Idx) : Prop :=
  ∃ (i j : Nat) (C C' : ContractTy), i ≠ j ∧ cs[i]? = some (C, h) ∧ cs[j]? = some (C', h)

/-- No contract that occurs more than once in `cs` and has objects has a state that is a handle. -/
def PlainRepeats (b : Baseline) (cs : List (ContractTy × Idx)) : Prop :=
  ∀ (C : ContractTy) (h o : Idx) (f : Field), Twice cs h → (C, h) ∈ cs → o ∈ objectsOf b h → f ∈ C.states →
    f.ty ≠ .prim .objectHandle ∧ f.ty ≠ .prim .contractDataHandle

/-- No state of an object of `cs` refers to a contract that occurs more than once in `cs`, or to an object of one. -/
structure NoRefToRepeats (b : Baseline) (cs : List (ContractTy × Idx)) : Prop where
  objects : ∀ (C : ContractTy) (h o : Idx) (n : Nat) (f : Field) (v h' : Idx), (C, h) ∈ cs → o ∈ objectsOf b h →
    C.states[n]? = some f → f.ty = .prim .objectHandle → Holds b h o n (.prim .objectHandle) v →
    v ∈ objectsOf b h' → ¬ Twice cs h'
  contracts : ∀ (C : ContractTy) (h o : Idx) (n : Nat) (f : Field) (v : Idx), (C, h) ∈ cs → o ∈ objectsOf b h →
    C.states[n]? = some f → f.ty = .prim .contractDataHandle → Holds b h o n (.prim .contractDataHandle) v →
    ¬ Twice cs v

/-- Replace the handles in a property. -/
def mapHandles (φ ψ : Idx → Idx) : DynProp → DynProp
  | .primitive (.objectHandle o) => .primitive (.objectHandle (φ o))
  | .primitive (.contractDataHandle h) => .primitive (.contractDataHandle (ψ h))
  | p => p

/-- What a property becomes when it is saved and restored: the handles are replaced, and a zero loses its sign. -/
def asRestored (φ ψ : Idx → Idx) : DynProp → DynProp
  | .primitive (.objectHandle o) => .primitive (.objectHandle (φ o))
  | .primitive (.contractDataHandle h) => .primitive (.contractDataHandle (ψ h))
  | .primitive (.f32 v) => .primitive (.f32 (unsigned32 v))
  | .primitive (.f64 v) => .primitive (.f64 (unsigned64 v))
  | p => p

/-- The baseline `b'` with contract instances `cs'` has the same contents as the contracts `cs` of `b`: `φ` maps the
objects and `ψ` the contracts, one to one and onto, and every state has the value that `val` makes of the original one. -/
structure SameBy (val : DynProp → DynProp) (b : Baseline) (cs : List (ContractTy × Idx)) (b' : Baseline)
    (cs' : List (ContractTy × Idx))
    (φ ψ : Idx → Idx) : Prop where
  /-- the contract instances correspond -/
  instances : ∀ (C : ContractTy) (h' : Idx), (C, h') ∈ cs' ↔ ∃ h, (C, h) ∈ cs ∧ ψ h = h'
  conInj : ∀ (C1 C2 : ContractTy) (h1 h2 : Idx), (C1, h1) ∈ cs → (C2, h2) ∈ cs → ψ h1 = ψ h2 → h1 = h2
  /-- `b'` has no other contracts -/
  conOnto : ∀ (h' : Idx) (cd' : ContractData), b'.contractData h' = .ok cd' → ∃ C h, (C, h) ∈ cs ∧ ψ h = h'
  /-- same ids, corresponding object sets -/
  contract : ∀ (C : ContractTy) (h : Idx), (C, h) ∈ cs → ∃ cd cd', b.contractData h = .ok cd ∧
    b'.contractData (ψ h) = .ok cd' ∧ cd'.id = cd.id ∧ ∀ o' : Idx, o' ∈ cd'.objects ↔ ∃ o ∈ cd.objects, φ o = o'
  objInj : ∀ (C1 C2 : ContractTy) (h1 h2 o1 o2 : Idx), (C1, h1) ∈ cs → (C2, h2) ∈ cs → o1 ∈ objectsOf b h1 →
    o2 ∈ objectsOf b h2 → φ o1 = φ o2 → o1 = o2
  /-- `b'` has no other objects -/
  objOnto : ∀ (o' : Idx) (ob' : ObjectD), b'.object o' = .ok ob' → ∃ C h o, (C, h) ∈ cs ∧ o ∈ objectsOf b h ∧ φ o = o'
  /-- objects belong to corresponding contracts -/
  object : ∀ (C : ContractTy) (h o : Idx), (C, h) ∈ cs → o ∈ objectsOf b h → ∃ ob', b'.object (φ o) = .ok ob' ∧
    ob'.contract = ψ h
  /-- every state has the value it is to have -/
  values : ∀ (C : ContractTy) (h o : Idx) (n : Nat) (f : Field), (C, h) ∈ cs → o ∈ objectsOf b h →
    C.states[n]? = some f → ∃ v v', Holds b h o n f.ty v ∧ Holds b' (ψ h) (φ o) n f.ty v' ∧
      DynProp.ofTyped f.ty v' = val (DynProp.ofTyped f.ty v)

/-- The same contents, bit for bit: only the handles are others. -/
abbrev SameExactly (b : Baseline) (cs : List (ContractTy × Idx)) (b' : Baseline) (cs' : List (ContractTy × Idx))
    (φ ψ : Idx → Idx) : Prop := SameBy (mapHandles φ ψ) b cs b' cs' φ ψ

/-- The same contents up to the sign of zeros: what was saved in `b` and restored in `b'`. -/
abbrev SameContents (b : Baseline) (cs : List (ContractTy × Idx)) (b' : Baseline) (cs' : List (ContractTy × Idx))
    (φ ψ : Idx → Idx) : Prop := SameBy (asRestored φ ψ) b cs b' cs' φ ψ

/-- The property is minus zero. -/
def MinusZero (p : DynProp) : Prop :=
  p = .primitive (.f32 0x80000000#32) ∨ p = .primitive (.f64 0x8000000000000000#64)

/-- No state of an object of the contracts `cs` is minus zero, whose sign the format does not carry. -/
def NoMinusZero (b : Baseline) (cs : List (ContractTy × Idx)) : Prop :=
  ∀ (C : ContractTy) (h o : Idx) (n : Nat) (f : Field) (v : f.ty.Carrier), (C, h) ∈ cs → o ∈ objectsOf b h →
    C.states[n]? = some f → Holds b h o n f.ty v → ¬ MinusZero (DynProp.ofTyped f.ty v)

end Verif.Spec
