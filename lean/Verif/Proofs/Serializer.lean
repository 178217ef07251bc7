import Verif.Model.Serializer
import Verif.Proofs.BiMap
import Verif.Proofs.BaselineApi
import Verif.Proofs.Contract
import Verif.Proofs.Types
import Verif.Spec.Buffer
/-! # The serializer: what has been written so far -/
namespace Verif
open Arena Baseline Store Spec

/-- A written state: the object, the field id, the state handle and its value. -/
structure WSlot where
  o : Idx
  d : DynId
  hnd : Idx
  v : d.ty.Carrier

/-- The property a slot holds. -/
def WSlot.prop (x : WSlot) : DynProp := DynProp.ofTyped x.d.ty x.v

/-- The slots of type `t` noted in `m`, by state handle. -/
structure Noted (t : PropType) (m : BiMap Idx Nat) (S : List WSlot) : Prop where
  inv : m.Inv
  pair : ∀ (hnd : Idx) (i : Nat), (hnd, i) ∈ m.pairs → ∃ x, S[i]? = some x ∧ x.d.ty = t ∧ x.hnd = hnd
  all : ∀ (i : Nat) (x : WSlot), S[i]? = some x → x.d.ty = t → ∃ i', (x.hnd, i') ∈ m.pairs

/-- The states written so far. -/
structure SlotsInv (s : Ser) (S : List WSlot) : Prop where
  len : s.states.length = S.length
  slots : ∀ (i : Nat) (x : WSlot), S[i]? = some x → s.base.bindState x.d.id x.o = .ok x.hnd ∧
    s.base.state x.d.ty x.hnd = .ok x.v ∧ ∃ sl, encodeState x.prop = some sl ∧ s.states[i]? = some sl
  obj : Noted (.prim .objectHandle) s.hObjectStates S
  con : Noted (.prim .contractDataHandle) s.hContractStates S

theorem Noted.skip {t : PropType} {m : BiMap Idx Nat} {S : List WSlot} (h : Noted t m S) {x : WSlot}
    (hx : x.d.ty ≠ t) : Noted t m (S ++ [x]) := by
  refine ⟨h.inv, ?_, ?_⟩
  · intro hnd i hm
    obtain ⟨y, h1, h2⟩ := h.pair hnd i hm
    exact ⟨y, by rw [List.getElem?_append_left (List.getElem?_eq_some_iff.1 h1).1, h1], h2⟩
  · intro i y hy ht
    rcases Nat.lt_trichotomy i S.length with hl | hl | hl
    · rw [List.getElem?_append_left hl] at hy; exact h.all i y hy ht
    · subst hl; simp at hy; subst hy; exact absurd ht hx
    · rw [List.getElem?_eq_none (by simp; omega)] at hy; cases hy

theorem Noted.add {t : PropType} {m : BiMap Idx Nat} {S : List WSlot} (h : Noted t m S) {x : WSlot}
    (hx : x.d.ty = t) : Noted t (m.insert x.hnd S.length) (S ++ [x]) := by
  refine ⟨BiMap.insert_inv h.inv _ _, ?_, ?_⟩
  · intro hnd i hm
    rcases BiMap.mem_insert.1 hm with ⟨rfl, rfl⟩ | ⟨hm, _⟩
    · exact ⟨x, by simp, hx, rfl⟩
    · obtain ⟨y, h1, h2⟩ := h.pair hnd i hm
      exact ⟨y, by rw [List.getElem?_append_left (List.getElem?_eq_some_iff.1 h1).1, h1], h2⟩
  · intro i y hy ht
    rcases Nat.lt_trichotomy i S.length with hl | hl | hl
    · rw [List.getElem?_append_left hl] at hy
      obtain ⟨i', hi'⟩ := h.all i y hy ht
      by_cases e : y.hnd = x.hnd
      · exact ⟨S.length, by rw [e]; exact BiMap.mem_insert.2 (.inl ⟨rfl, rfl⟩)⟩
      · refine ⟨i', BiMap.mem_insert.2 (.inr ⟨hi', e, ?_⟩)⟩
        obtain ⟨z, hz, _⟩ := h.pair _ _ hi'
        have := (List.getElem?_eq_some_iff.1 hz).1
        omega
    · subst hl; simp at hy; subst hy; exact ⟨S.length, BiMap.mem_insert.2 (.inl ⟨rfl, rfl⟩)⟩
    · rw [List.getElem?_eq_none (by simp; omega)] at hy; cases hy

/-- The parts of the serializer the state loop does not touch. -/
structure SameSer (s s' : Ser) : Prop where
  base : s'.base = s.base
  contracts : s'.contracts = s.contracts
  objects : s'.objects = s.objects
  hObjects : s'.hObjects = s.hObjects
  hContracts : s'.hContracts = s.hContracts

theorem SameSer.refl (s : Ser) : SameSer s s := ⟨rfl, rfl, rfl, rfl, rfl⟩
theorem SameSer.trans {s1 s2 s3 : Ser} (h1 : SameSer s1 s2) (h2 : SameSer s2 s3) : SameSer s1 s3 :=
  ⟨h2.base.trans h1.base, h2.contracts.trans h1.contracts, h2.objects.trans h1.objects,
    h2.hObjects.trans h1.hObjects, h2.hContracts.trans h1.hContracts⟩

theorem noteHandle_same (s : Ser) (t : PropType) (h : Idx) (i : Nat) :
    SameSer s (s.noteHandle t h i) ∧ (s.noteHandle t h i).states = s.states := by
  unfold Ser.noteHandle
  split <;> exact ⟨⟨rfl, rfl, rfl, rfl, rfl⟩, rfl⟩

theorem noteHandle_noted {s : Ser} {S : List WSlot} {x : WSlot} {sts : List (Option FbVal)}
    (ho : Noted (.prim .objectHandle) s.hObjectStates S) (hc : Noted (.prim .contractDataHandle) s.hContractStates S) :
    Noted (.prim .objectHandle) (Ser.noteHandle { s with states := sts } x.d.ty x.hnd S.length).hObjectStates (S ++ [x]) ∧
    Noted (.prim .contractDataHandle) (Ser.noteHandle { s with states := sts } x.d.ty x.hnd S.length).hContractStates (S ++ [x]) := by
  unfold Ser.noteHandle
  split
  · rename_i e; exact ⟨ho.add e, hc.skip (by rw [e]; decide)⟩
  · rename_i e; exact ⟨ho.skip (by rw [e]; decide), hc.add e⟩
  · rename_i e1 e2; exact ⟨ho.skip e1, hc.skip e2⟩

theorem pushState_ok {s s' : Ser} {S : List WSlot} (hI : SlotsInv s S) {o : Idx} {d : DynId} {i : BitVec 32}
    (h : s.pushState o d = (s', .ok i)) :
    ∃ x : WSlot, x.o = o ∧ x.d = d ∧ SlotsInv s' (S ++ [x]) ∧ SameSer s s' ∧ i = BitVec.ofNat 32 S.length := by
  unfold Ser.pushState at h
  cases hb : s.base.bindState d.id o with
  | err m => simp [hb] at h
  | panic m => simp [hb] at h
  | ok hnd =>
    simp only [hb] at h
    cases hv : s.base.state d.ty hnd with
    | err m => simp [hv] at h
    | panic m => simp [hv] at h
    | ok v =>
      simp only [hv] at h
      cases hsl : encodeState (DynProp.ofTyped d.ty v) with
      | none => simp [hsl] at h
      | some sl =>
        simp only [hsl] at h
        simp only [Prod.mk.injEq, Outcome.ok.injEq] at h
        obtain ⟨h1, h2⟩ := h
        obtain ⟨q1, q2⟩ := noteHandle_same { s with states := s.states ++ [sl] } d.ty hnd s.states.length
        rw [h1] at q1 q2
        refine ⟨⟨o, d, hnd, v⟩, rfl, rfl, ⟨?_, ?_, ?_, ?_⟩, ⟨q1.base, q1.contracts, q1.objects, q1.hObjects, q1.hContracts⟩, by rw [← h2, hI.len]⟩
        · rw [q2]; simp [hI.len]
        · intro j x hx
          rw [q1.base, q2]
          show s.base.bindState x.d.id x.o = .ok x.hnd ∧ s.base.state x.d.ty x.hnd = .ok x.v ∧
            ∃ sl', encodeState x.prop = some sl' ∧ (s.states ++ [sl])[j]? = some sl'
          rcases Nat.lt_trichotomy j S.length with hl | hl | hl
          · rw [List.getElem?_append_left hl] at hx
            obtain ⟨a1, a2, sl', a3, a4⟩ := hI.slots j x hx
            exact ⟨a1, a2, sl', a3, by rw [List.getElem?_append_left (by rw [hI.len]; exact hl), a4]⟩
          · subst hl; simp at hx; subst hx
            exact ⟨hb, hv, sl, hsl, by rw [← hI.len]; simp⟩
          · rw [List.getElem?_eq_none (by simp; omega)] at hx; cases hx
        · have := (noteHandle_noted (x := ⟨o, d, hnd, v⟩) (sts := s.states ++ [sl]) hI.obj hI.con).1
          rw [← hI.len] at this; rw [← h1]; exact this
        · have := (noteHandle_noted (x := ⟨o, d, hnd, v⟩) (sts := s.states ++ [sl]) hI.obj hI.con).2
          rw [← hI.len] at this; rw [← h1]; exact this

theorem pushStates_ok {s s' : Ser} {S : List WSlot} (hI : SlotsInv s S) {o : Idx} {ds : List DynId}
    {is : List (BitVec 32)} (h : s.pushStates o ds = (s', .ok is)) :
    ∃ new : List WSlot, new.map WSlot.d = ds ∧ (∀ x ∈ new, x.o = o) ∧ SlotsInv s' (S ++ new) ∧ SameSer s s' ∧
      is = (List.range ds.length).map fun n => BitVec.ofNat 32 (S.length + n) := by
  induction ds generalizing s S is with
  | nil =>
    simp only [Ser.pushStates, Prod.mk.injEq, Outcome.ok.injEq] at h
    obtain ⟨rfl, rfl⟩ := h
    exact ⟨[], rfl, by simp, by simpa using hI, SameSer.refl s, rfl⟩
  | cons d ds ih =>
    unfold Ser.pushStates at h
    split at h
    · cases h
    · cases h
    · rename_i s1 i hs1
      obtain ⟨x, rfl, rfl, a1, a2, rfl⟩ := pushState_ok hI hs1
      split at h
      · cases h
      · cases h
      · rename_i s2 is' hs2
        simp only [Prod.mk.injEq, Outcome.ok.injEq] at h
        obtain ⟨rfl, rfl⟩ := h
        obtain ⟨new, b1, b2, b3, b4, b5⟩ := ih a1 hs2
        refine ⟨x :: new, by simp [b1], ?_, by simpa using b3, a2.trans b4, ?_⟩
        · intro y hy
          rcases List.mem_cons.1 hy with rfl | hy
          · rfl
          · exact b2 y hy
        · rw [b5]
          simp only [List.length_append, List.length_cons, List.length_nil, List.range_succ_eq_map, List.map_cons,
            List.map_map, Nat.add_zero, List.cons.injEq, true_and]
          apply List.map_congr_left
          intro n _
          simp only [Function.comp]
          congr 1; omega

/-- A written object: its handle, its contract (type, handle, number) and the number of its first state. -/
structure WObj where
  o : Idx
  C : ContractTy
  h : Idx
  k : Nat
  start : Nat

/-- The object table written for `w`. -/
def WObj.table (w : WObj) : FbObject :=
  ⟨some (BitVec.ofNat 16 w.k), some ((List.range w.C.states.length).map fun n => BitVec.ofNat 32 (w.start + n))⟩

/-- The objects written so far. -/
structure ObjsInv (s : Ser) (W : List WObj) (S : List WSlot) : Prop where
  slots : SlotsInv s S
  objs : s.objects = W.map WObj.table
  fields : ∀ (p : Nat) (w : WObj), W[p]? = some w → ∀ (n : Nat) (f : Field), w.C.states[n]? = some f →
    ∃ x, S[w.start + n]? = some x ∧ x.o = w.o ∧ x.d = ⟨f.ty, ⟨n, w.h⟩⟩
  cover : ∀ (i : Nat) (x : WSlot), S[i]? = some x → ∃ (p : Nat) (w : WObj) (n : Nat) (f : Field),
    W[p]? = some w ∧ i = w.start + n ∧ w.C.states[n]? = some f
  oInv : s.hObjects.Inv
  oPair : ∀ (o : Idx) (p : Nat), (o, p) ∈ s.hObjects.pairs → ∃ w, W[p]? = some w ∧ w.o = o
  oAll : ∀ w ∈ W, ∃ p, (w.o, p) ∈ s.hObjects.pairs
  total : S.length = (W.map fun w => w.C.states.length).sum
  disjoint : ∀ (p p' n n' : Nat) (w w' : WObj), W[p]? = some w → W[p']? = some w' → n < w.C.states.length →
    n' < w'.C.states.length → w.start + n = w'.start + n' → p = p'
  oLast : ∀ (o : Idx) (p p' : Nat) (w : WObj), (o, p) ∈ s.hObjects.pairs → W[p']? = some w → w.o = o → p' ≤ p

theorem stateIds_get {C : ContractTy} {h : Idx} {n : Nat} {f : Field} (hf : C.states[n]? = some f) :
    (C.stateIds h)[n]? = some ⟨f.ty, ⟨n, h⟩⟩ := by
  rw [ContractTy.stateIds_eq]
  have : n < C.stateTypes.length := by
    have := (List.getElem?_eq_some_iff.1 hf).1; simpa [ContractTy.stateTypes] using this
  simp [ContractTy.stateTypes, hf, DynId.new]

theorem stateIds_length (C : ContractTy) (h : Idx) : (C.stateIds h).length = C.states.length := by
  rw [ContractTy.stateIds_eq]; simp [ContractTy.stateTypes]

theorem getElem?_append_some {α : Type} {l : List α} {i : Nat} {x : α} (h : l[i]? = some x) (r : List α) :
    (l ++ r)[i]? = some x := by
  rw [List.getElem?_append_left (List.getElem?_eq_some_iff.1 h).1, h]

theorem ObjsInv.push {s s1 : Ser} {W : List WObj} {S : List WSlot} (hI : ObjsInv s W S) {C : ContractTy} {h o : Idx}
    {k : Nat} {is : List (BitVec 32)} (hp : s.pushStates o (C.stateIds h) = (s1, .ok is)) :
    ∃ S', ObjsInv { s1 with objects := s1.objects ++ [⟨some (BitVec.ofNat 16 k), some is⟩],
                            hObjects := s1.hObjects.insert o s1.objects.length }
      (W ++ [⟨o, C, h, k, S.length⟩]) S' ∧ SameSer s s1 := by
  obtain ⟨new, a1, a2, a3, a4, a5⟩ := pushStates_ok hI.slots hp
  have hlen : s1.objects.length = W.length := by rw [a4.objects, hI.objs]; simp
  have hnl : new.length = C.states.length := by
    have := congrArg List.length a1; simpa [stateIds_length] using this
  refine ⟨S ++ new, ⟨⟨a3.len, a3.slots, a3.obj, a3.con⟩, ?_, ?_, ?_, ?_, ?_, ?_, by simp [hI.total, hnl], ?_, ?_⟩, a4⟩
  · show s1.objects ++ _ = _
    rw [a4.objects, hI.objs, a5, stateIds_length]; simp [WObj.table]
  · intro p w hw n f hf
    rcases Nat.lt_trichotomy p W.length with hl | hl | hl
    · rw [List.getElem?_append_left hl] at hw
      obtain ⟨x, e1, e2⟩ := hI.fields p w hw n f hf
      exact ⟨x, getElem?_append_some e1 _, e2⟩
    · subst hl; simp at hw; subst hw
      simp only at hf ⊢
      have hn := (List.getElem?_eq_some_iff.1 hf).1
      have hx : new[n]? = some new[n] := List.getElem?_eq_getElem (by omega)
      refine ⟨new[n], ?_, a2 _ (List.getElem_mem _), ?_⟩
      · rw [List.getElem?_append_right (by omega)]; simp
      · have : (new.map WSlot.d)[n]? = some (new[n].d) := by rw [List.getElem?_map, hx]; rfl
        rw [a1, stateIds_get hf] at this
        exact (Option.some.inj this).symm
    · rw [List.getElem?_eq_none (by simp; omega)] at hw; cases hw
  · intro i x hx
    by_cases hl : i < S.length
    · rw [List.getElem?_append_left hl] at hx
      obtain ⟨p, w, n, f, e1, e2, e3⟩ := hI.cover i x hx
      exact ⟨p, w, n, f, getElem?_append_some e1 _, e2, e3⟩
    · have hi := (List.getElem?_eq_some_iff.1 hx).1
      simp at hi
      refine ⟨W.length, ⟨o, C, h, k, S.length⟩, i - S.length, C.states[i - S.length]'(by omega), by simp, ?_, ?_⟩
      · show i = S.length + (i - S.length); omega
      · show C.states[_]? = _
        exact List.getElem?_eq_getElem (by omega)
  · show (s1.hObjects.insert _ _).Inv
    rw [a4.hObjects]; exact BiMap.insert_inv hI.oInv _ _
  · intro o' p hm
    replace hm : (o', p) ∈ (s1.hObjects.insert o s1.objects.length).pairs := hm
    rw [a4.hObjects, hlen] at hm
    rcases BiMap.mem_insert.1 hm with ⟨rfl, rfl⟩ | ⟨hm, _⟩
    · exact ⟨⟨o', C, h, k, S.length⟩, by simp, rfl⟩
    · obtain ⟨w, e1, e2⟩ := hI.oPair o' p hm
      exact ⟨w, getElem?_append_some e1 _, e2⟩
  · intro w hw
    show ∃ p, (w.o, p) ∈ (s1.hObjects.insert o s1.objects.length).pairs
    rw [a4.hObjects, hlen]
    by_cases e : w.o = o
    · exact ⟨W.length, BiMap.mem_insert.2 (.inl ⟨e, rfl⟩)⟩
    · rcases List.mem_append.1 hw with hw | hw
      · obtain ⟨p, hp⟩ := hI.oAll w hw
        refine ⟨p, BiMap.mem_insert.2 (.inr ⟨hp, e, ?_⟩)⟩
        obtain ⟨z, hz, _⟩ := hI.oPair _ _ hp
        have := (List.getElem?_eq_some_iff.1 hz).1
        omega
      · simp at hw; subst hw; exact absurd rfl e
  · have hlt : ∀ (p : Nat) (w : WObj), W[p]? = some w → ∀ n < w.C.states.length, w.start + n < S.length := by
      intro p w hw n hn
      obtain ⟨x, hx, _⟩ := hI.fields p w hw n _ (List.getElem?_eq_getElem hn)
      exact (List.getElem?_eq_some_iff.1 hx).1
    have hcase : ∀ (p : Nat) (w : WObj), (W ++ [⟨o, C, h, k, S.length⟩])[p]? = some w →
        W[p]? = some w ∨ (p = W.length ∧ w.start = S.length) := by
      intro p w hw
      rcases Nat.lt_trichotomy p W.length with hl | hl | hl
      · rw [List.getElem?_append_left hl] at hw; exact .inl hw
      · subst hl; simp at hw; subst hw; exact .inr ⟨rfl, rfl⟩
      · rw [List.getElem?_eq_none (by simp; omega)] at hw; cases hw
    intro p p' n n' w w' hw hw' hn hn' e
    rcases hcase p w hw with h1 | ⟨h1, h2⟩ <;> rcases hcase p' w' hw' with h3 | ⟨h3, h4⟩
    · exact hI.disjoint p p' n n' w w' h1 h3 hn hn' e
    · have := hlt p w h1 n hn; omega
    · have := hlt p' w' h3 n' hn'; omega
    · omega
  · intro o' p p' w hm hw ho
    replace hm : (o', p) ∈ (s1.hObjects.insert o s1.objects.length).pairs := hm
    rw [a4.hObjects, hlen] at hm
    have hp' := (List.getElem?_eq_some_iff.1 hw).1
    simp only [List.length_append, List.length_cons, List.length_nil] at hp'
    rcases BiMap.mem_insert.1 hm with ⟨_, rfl⟩ | ⟨hm, hne, _⟩
    · omega
    · rcases Nat.lt_or_eq_of_le (Nat.le_of_lt_succ hp') with hl | hl
      · rw [List.getElem?_append_left hl] at hw
        exact hI.oLast o' p p' w hm hw ho
      · subst hl; simp at hw; subst hw; exact absurd ho.symm hne

/-- What the serializer keeps between the contracts. -/
structure SameCons (s s' : Ser) : Prop where
  base : s'.base = s.base
  contracts : s'.contracts = s.contracts
  hContracts : s'.hContracts = s.hContracts

theorem pushObjects_ok {s s' : Ser} {W : List WObj} {S : List WSlot} (hI : ObjsInv s W S) {C : ContractTy} {h : Idx}
    {k : Nat} {os : List Idx} (hp : s.pushObjects C h (BitVec.ofNat 16 k) os = (s', .ok ())) :
    ∃ W' S', ObjsInv s' (W ++ W') S' ∧ SameCons s s' ∧ W'.map WObj.o = os ∧
      ∀ w ∈ W', w.C = C ∧ w.h = h ∧ w.k = k := by
  induction os generalizing s W S with
  | nil =>
    simp only [Ser.pushObjects, Prod.mk.injEq, and_true] at hp
    subst hp
    exact ⟨[], S, by simpa using hI, ⟨rfl, rfl, rfl⟩, rfl, by simp⟩
  | cons o os ih =>
    unfold Ser.pushObjects at hp
    split at hp
    · cases hp
    · cases hp
    · rename_i s1 is hs1
      obtain ⟨S1, a1, a2⟩ := hI.push (k := k) hs1
      obtain ⟨W', S', b1, b2, b3, b4⟩ := ih a1 hp
      refine ⟨⟨o, C, h, k, S.length⟩ :: W', S', by simpa using b1,
        ⟨b2.base.trans a2.base, b2.contracts.trans a2.contracts, b2.hContracts.trans a2.hContracts⟩, by simp [b3], ?_⟩
      intro w hw
      rcases List.mem_cons.1 hw with rfl | hw
      · exact ⟨rfl, rfl, rfl⟩
      · exact b4 w hw

/-- The whole serializer after the contracts `L` were serialized. -/
structure SerInv (b : Baseline) (s : Ser) (L : List (ContractTy × Idx)) (W : List WObj) (S : List WSlot) : Prop where
  base : s.base = b
  objs : ObjsInv s W S
  tables : L.map (fun e => Ser.contractTable e.1) = s.contracts.map Outcome.ok
  cInv : s.hContracts.Inv
  cPair : ∀ (h : Idx) (k : Nat), (h, k) ∈ s.hContracts.pairs → ∃ C, L[k]? = some (C, h)
  cAll : ∀ (C : ContractTy) (h : Idx), (C, h) ∈ L → ∃ k, (h, k) ∈ s.hContracts.pairs
  num : ∀ w ∈ W, L[w.k]? = some (w.C, w.h)
  members : ∀ (k : Nat) (C : ContractTy) (h : Idx), L[k]? = some (C, h) → ∃ cd, b.contracts.get h = some cd ∧
    ((W.filter fun w => w.k = k).map WObj.o).Perm cd.objects
  wTotal : W.length = objectCount b L
  sTotal : S.length = stateCount b L
  cLast : ∀ (h : Idx) (k k' : Nat) (C : ContractTy), (h, k) ∈ s.hContracts.pairs → L[k']? = some (C, h) → k' ≤ k
  kMono : ∀ (p p' : Nat) (w w' : WObj), W[p]? = some w → W[p']? = some w' → p ≤ p' → w.k ≤ w'.k

theorem serInv_new (b : Baseline) : SerInv b (Ser.new b) [] [] [] := by
  have hn : ∀ t, Noted t (BiMap.empty : BiMap Idx Nat) [] := fun t =>
    ⟨BiMap.empty_inv, fun _ _ h => absurd h (BiMap.mem_empty _), by simp⟩
  exact ⟨rfl, ⟨⟨rfl, by simp, hn _, hn _⟩, rfl, by simp, by simp, BiMap.empty_inv,
    fun _ _ h => absurd h (BiMap.mem_empty _), by simp, rfl, by simp, by simp⟩, rfl, BiMap.empty_inv,
    fun _ _ h => absurd h (BiMap.mem_empty _), by simp, by simp, by simp, rfl, rfl, by simp, by simp⟩

theorem serialize_ok {b : Baseline} {s s' : Ser} {L : List (ContractTy × Idx)} {W : List WObj} {S : List WSlot}
    (hI : SerInv b s L W S) {C : ContractTy} {h : Idx} {ord : HashOrder} (hs : s.serialize C h ord = (s', .ok ())) :
    ∃ W' S', SerInv b s' (L ++ [(C, h)]) (W ++ W') S' := by
  have hlen : s.contracts.length = L.length := by
    have := congrArg List.length hI.tables; simpa using this.symm
  unfold Ser.serialize at hs
  split at hs
  · cases hs
  · cases hs
  · rename_i cd hcd
    rw [hI.base] at hcd
    split at hs
    · cases hs
    · cases hs
    · rename_i tbl htbl
      simp only [] at hs
      split at hs
      · cases hs
      · rename_i hne
        have hne' : (L.length + 1) % 65536 ≠ 0 := by simpa [hlen] using hne
        have hk : BitVec.ofNat 16 ((s.contracts ++ [tbl]).length % 65536 - 1) = BitVec.ofNat 16 L.length := by
          apply BitVec.eq_of_toNat_eq
          simp only [BitVec.toNat_ofNat, List.length_append, List.length_cons, List.length_nil, hlen]
          omega
        rw [hk] at hs
        have hO : ObjsInv { s with contracts := s.contracts ++ [tbl], hContracts := s.hContracts.insert h s.contracts.length } W S :=
          ⟨⟨hI.objs.slots.len, hI.objs.slots.slots, hI.objs.slots.obj, hI.objs.slots.con⟩, hI.objs.objs,
            hI.objs.fields, hI.objs.cover, hI.objs.oInv, hI.objs.oPair, hI.objs.oAll, hI.objs.total, hI.objs.disjoint, hI.objs.oLast⟩
        obtain ⟨W', S', b1, b2, b3, b4⟩ := pushObjects_ok hO hs
        have hW : ∀ w ∈ W, w.k < L.length := fun w hw => (List.getElem?_eq_some_iff.1 (hI.num w hw)).1
        have hob : objectsOf b h = cd.objects := by unfold objectsOf; rw [hcd]
        have hWl : W'.length = cd.objects.length := by
          have := congrArg List.length b3; simpa [(ord.perm cd.objects).length_eq] using this
        have hsum : ∀ W' : List WObj, (∀ w ∈ W', w.C = C ∧ w.h = h ∧ w.k = L.length) →
            (W'.map fun w => w.C.states.length).sum = W'.length * C.states.length := by
          intro W' hW'
          induction W' with
          | nil => simp
          | cons w W' ih =>
            simp only [List.map_cons, List.sum_cons, List.length_cons, ih (fun w hw => hW' w (by simp [hw])),
              (hW' w (by simp)).1, Nat.add_mul]; omega
        refine ⟨W', S', by rw [b2.base]; exact hI.base, b1, ?_, ?_, ?_, ?_, ?_, ?_, ?_, ?_, ?_, ?_⟩
        · rw [b2.contracts]
          simp [hI.tables, htbl]
        · rw [b2.hContracts]; exact BiMap.insert_inv hI.cInv _ _
        · intro h' k hm
          rw [b2.hContracts] at hm
          replace hm : (h', k) ∈ (s.hContracts.insert h s.contracts.length).pairs := hm
          rcases BiMap.mem_insert.1 hm with ⟨rfl, rfl⟩ | ⟨hm, _⟩
          · exact ⟨C, by rw [hlen]; simp⟩
          · obtain ⟨C', e⟩ := hI.cPair h' k hm
            exact ⟨C', getElem?_append_some e _⟩
        · intro C' h' hm
          rw [b2.hContracts]
          show ∃ k, (h', k) ∈ (s.hContracts.insert h s.contracts.length).pairs
          by_cases e : h' = h
          · exact ⟨s.contracts.length, BiMap.mem_insert.2 (.inl ⟨e, rfl⟩)⟩
          · rcases List.mem_append.1 hm with hm | hm
            · obtain ⟨k, hk⟩ := hI.cAll C' h' hm
              refine ⟨k, BiMap.mem_insert.2 (.inr ⟨hk, e, ?_⟩)⟩
              obtain ⟨_, hz⟩ := hI.cPair _ _ hk
              have := (List.getElem?_eq_some_iff.1 hz).1
              omega
            · simp at hm; exact absurd hm.2 e
        · intro w hw
          rcases List.mem_append.1 hw with hw | hw
          · exact getElem?_append_some (hI.num w hw) _
          · obtain ⟨e1, e2, e3⟩ := b4 w hw
            rw [e1, e2, e3]; simp
        · intro k C' h' hL
          rcases Nat.lt_trichotomy k L.length with hl | hl | hl
          · rw [List.getElem?_append_left hl] at hL
            obtain ⟨cd', e1, e2⟩ := hI.members k C' h' hL
            refine ⟨cd', e1, ?_⟩
            have : W'.filter (fun w => w.k = k) = [] := by
              rw [List.filter_eq_nil_iff]
              intro w hw
              rw [(b4 w hw).2.2]; simp; omega
            rw [List.filter_append, this]; simpa using e2
          · subst hl; simp at hL; obtain ⟨rfl, rfl⟩ := hL
            refine ⟨cd, contractData_ok.1 hcd, ?_⟩
            have h1 : W.filter (fun w => w.k = L.length) = [] := by
              rw [List.filter_eq_nil_iff]
              intro w hw; have := hW w hw; simp; omega
            have h2 : W'.filter (fun w => w.k = L.length) = W' := by
              rw [List.filter_eq_self]
              intro w hw; simp [(b4 w hw).2.2]
            rw [List.filter_append, h1, h2, List.nil_append, b3]
            exact ord.perm _
          · rw [List.getElem?_eq_none (by simp; omega)] at hL; cases hL
        · simp [hI.wTotal, objectCount, hob, hWl]
        · rw [b1.total]
          have h0 := hI.sTotal
          rw [hI.objs.total] at h0
          simp [stateCount, hob, hsum W' b4, hWl] at h0 ⊢; omega
        · intro h' k k' C' hm hL
          rw [b2.hContracts] at hm
          replace hm : (h', k) ∈ (s.hContracts.insert h s.contracts.length).pairs := hm
          have hk' := (List.getElem?_eq_some_iff.1 hL).1
          simp only [List.length_append, List.length_cons, List.length_nil] at hk'
          rcases BiMap.mem_insert.1 hm with ⟨_, rfl⟩ | ⟨hm, hne, _⟩
          · omega
          · rcases Nat.lt_or_eq_of_le (Nat.le_of_lt_succ hk') with hl | hl
            · rw [List.getElem?_append_left hl] at hL
              exact hI.cLast h' k k' C' hm hL
            · subst hl; simp at hL; exact absurd hL.2.symm hne
        · intro p p' w w' hw hw' hpp
          by_cases h1 : p' < W.length
          · rw [List.getElem?_append_left (by omega)] at hw
            rw [List.getElem?_append_left h1] at hw'
            exact hI.kMono p p' w w' hw hw' hpp
          · rw [List.getElem?_append_right (by omega)] at hw'
            rw [(b4 w' (List.mem_of_getElem? hw')).2.2]
            by_cases h2 : p < W.length
            · rw [List.getElem?_append_left h2] at hw
              exact Nat.le_of_lt (hW w (List.mem_of_getElem? hw))
            · rw [List.getElem?_append_right (by omega)] at hw
              rw [(b4 w (List.mem_of_getElem? hw)).2.2]; exact Nat.le_refl _

theorem serializeAll_ok {b : Baseline} {s s' : Ser} {L : List (ContractTy × Idx)} {W : List WObj} {S : List WSlot}
    (hI : SerInv b s L W S) {calls : List (ContractTy × Idx × HashOrder)} (hs : s.serializeAll calls = (s', .ok ())) :
    ∃ W' S', SerInv b s' (L ++ calls.map fun c => (c.1, c.2.1)) W' S' := by
  induction calls generalizing s L W S with
  | nil =>
    simp only [Ser.serializeAll, Prod.mk.injEq, and_true] at hs
    subst hs
    exact ⟨W, S, by simpa using hI⟩
  | cons c calls ih =>
    obtain ⟨C, h, ord⟩ := c
    unfold Ser.serializeAll at hs
    split at hs
    · rename_i s1 hs1
      obtain ⟨W1, S1, h1⟩ := serialize_ok hI hs1
      obtain ⟨W2, S2, h2⟩ := ih h1 hs
      exact ⟨W2, S2, by simpa using h2⟩
    · cases hs
    · cases hs

end Verif
