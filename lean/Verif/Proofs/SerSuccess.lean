import Verif.Proofs.SerFinish
import Verif.Proofs.DesSuccess
import Verif.Spec.RoundTrip
import Verif.Proofs.Listed
/-! # The serializer: when it succeeds, and what the buffer holds -/
namespace Verif
open Arena Baseline Store Spec

/-! ## Calls that succeed -/

theorem pushState_base (s : Ser) (o : Idx) (d : DynId) : (s.pushState o d).1.base = s.base := by
  unfold Ser.pushState
  split
  · rfl
  · rfl
  · split
    · rfl
    · rfl
    · split
      · rfl
      · simp only [Ser.noteHandle]; split <;> rfl

/-- The field can be written. -/
def Writable (b : Baseline) (o : Idx) (d : DynId) : Prop :=
  ∃ hnd v sl, b.bindState d.id o = .ok hnd ∧ b.state d.ty hnd = .ok v ∧ encodeState (DynProp.ofTyped d.ty v) = some sl

theorem pushStates_succeeds (s : Ser) (o : Idx) (ds : List DynId) (h : ∀ d ∈ ds, Writable s.base o d) :
    ∃ s' is, s.pushStates o ds = (s', .ok is) ∧ s'.base = s.base := by
  induction ds generalizing s with
  | nil => exact ⟨s, [], rfl, rfl⟩
  | cons d ds ih =>
    obtain ⟨hnd, v, sl, h1, h2, h3⟩ := h d (by simp)
    have hb := pushState_base s o d
    have hs : ∃ s1 i, s.pushState o d = (s1, .ok i) := by
      unfold Ser.pushState; simp only [h1, h2, h3]; exact ⟨_, _, rfl⟩
    obtain ⟨s1, i, hs⟩ := hs
    rw [hs] at hb
    simp only at hb
    obtain ⟨s', is, e1, e2⟩ := ih s1 (fun d hd => by rw [hb]; exact h d (by simp [hd]))
    unfold Ser.pushStates
    simp only [hs, e1]
    exact ⟨s', i :: is, rfl, e2.trans hb⟩

theorem pushObjects_succeeds (s : Ser) (C : ContractTy) (h : Idx) (k : BitVec 16) (os : List Idx)
    (hw : ∀ o ∈ os, ∀ d ∈ C.stateIds h, Writable s.base o d) : ∃ s', s.pushObjects C h k os = (s', .ok ()) := by
  induction os generalizing s with
  | nil => exact ⟨s, rfl⟩
  | cons o os ih =>
    obtain ⟨s1, is, e1, e2⟩ := pushStates_succeeds s o (C.stateIds h) (hw o (by simp))
    unfold Ser.pushObjects
    simp only [e1]
    exact ih _ (fun o' ho' => by simp only [e2]; exact hw o' (by simp [ho']))

theorem kindsOf_prim (ts : List PropType) (h : ∀ t ∈ ts, ∃ p, t = .prim p) : ∃ ks, Ser.kindsOf ts = some ks := by
  induction ts with
  | nil => exact ⟨[], rfl⟩
  | cons t ts ih =>
    obtain ⟨p, rfl⟩ := h t (by simp)
    obtain ⟨ks, e⟩ := ih (fun t ht => h t (by simp [ht]))
    exact ⟨_, by simp only [Ser.kindsOf, e]; rfl⟩

theorem kindsOf_spec {ts : List PropType} {ks : List (Option FbKind)} (h : Ser.kindsOf ts = some ks) :
    ∃ kinds : List FbKind, ks = kinds.map some ∧ ts = kinds.map fun k => .prim (kindPrim k) := by
  induction ts generalizing ks with
  | nil => simp [Ser.kindsOf] at h; subst h; exact ⟨[], rfl, rfl⟩
  | cons t ts ih =>
    cases t with
    | vec p => cases h
    | prim p =>
      simp only [Ser.kindsOf, Option.map_eq_some_iff] at h
      obtain ⟨ks', h1, rfl⟩ := h
      obtain ⟨kinds, rfl, rfl⟩ := ih h1
      exact ⟨FbKind.ofPrim p :: kinds, rfl, by simp only [List.map_cons]; cases p <;> rfl⟩

theorem contractTable_describes {C : ContractTy} {t : FbContract} (h : Ser.contractTable C = .ok t) :
    Describes t C := by
  unfold Ser.contractTable at h
  split at h
  · cases h
  · rename_i ks hk
    injection h with h; subst h
    obtain ⟨kinds, rfl, e⟩ := kindsOf_spec hk
    exact ⟨rfl, kinds, rfl, e⟩

theorem encode_prim {t : PropType} (v : t.Carrier) (h : ∃ p, t = .prim p) :
    ∃ sl, encodeState (DynProp.ofTyped t v) = some sl := by
  obtain ⟨p, rfl⟩ := h
  cases p <;> exact ⟨_, rfl⟩

theorem mem_stateIds {C : ContractTy} {h : Idx} {d : DynId} (hd : d ∈ C.stateIds h) :
    ∃ (n : Nat) (f : Field), C.states[n]? = some f ∧ d = ⟨f.ty, ⟨n, h⟩⟩ := by
  obtain ⟨n, hn⟩ := List.getElem?_of_mem hd
  have hl : n < C.states.length := by
    have := (List.getElem?_eq_some_iff.1 hn).1; rwa [stateIds_length] at this
  refine ⟨n, C.states[n], List.getElem?_eq_getElem hl, ?_⟩
  rw [stateIds_get (List.getElem?_eq_getElem hl)] at hn
  exact (Option.some.inj hn).symm

/-- What is known of an object listed by one of the contracts that have states. -/
theorem Spec.Storable.obj {kind : Kind} {evs : List Event} {b : Baseline} {cs : List (ContractTy × Idx)}
    (hP : Storable evs b cs) (hH : History kind evs b) {C : ContractTy} {h o : Idx} (hC : (C, h) ∈ cs)
    (hne : C.states ≠ []) (ho : o ∈ objectsOf b h) :
    ∃ ob, b.objects.get o = some ob ∧ ob.contract = h ∧ FieldsOk b.states C.stateTypes ob.states ∧
      DidCreate evs C h o := by
  have hB := history_binv hH
  obtain ⟨cd, h1, _⟩ := hP.registered C h hC
  obtain ⟨ob, h2⟩ := hP.present C h o hC hne ho
  have h2 := object_ok.1 h2
  have ho' : o ∈ cd.objects := by unfold objectsOf at ho; rw [h1] at ho; exact ho
  rcases hB.c.listed h o cd (contractData_ok.1 h1) ho' with ⟨ob', e1, e2⟩ | hd
  · rw [h2] at e1; injection e1 with e1; subst e1
    obtain ⟨C', hc⟩ := hB.o.origin o ob h2
    rw [e2] at hc
    have : C' = C := hP.typed C C' h o hC hc
    subst this
    rcases hB.o.created C' h o hc with ⟨ob', g1, g2, g3, _⟩ | hd
    · rw [h2] at g1; injection g1 with g1; subst g1
      exact ⟨ob, h2, e2, g3, hc⟩
    · rw [hd.1] at h2; cases h2
  · rw [hd.1] at h2; cases h2

/-- No handle is listed by two contracts, whether its object is alive or not. -/
theorem listed_once {kind : Kind} {evs : List Event} {b : Baseline} (hH : History kind evs b) {h h' o : Idx}
    (h1 : o ∈ objectsOf b h) (h2 : o ∈ objectsOf b h') : h = h' := by
  have hL := history_linv hH
  have made : ∀ k : Idx, o ∈ objectsOf b k → ∃ C, DidCreate evs C k o := by
    intro k hk
    unfold objectsOf at hk
    cases hc : b.contractData k with
    | ok cd => rw [hc] at hk; exact hL.made k o cd (contractData_ok.1 hc) hk
    | err m => rw [hc] at hk; cases hk
    | panic m => rw [hc] at hk; cases hk
  obtain ⟨C, d1⟩ := made _ h1
  obtain ⟨C', d2⟩ := made _ h2
  exact (hL.once _ _ _ _ _ d1 d2).2

theorem Spec.Storable.writable {kind : Kind} {evs : List Event} {b : Baseline} {cs : List (ContractTy × Idx)}
    (hP : Storable evs b cs) (hH : History kind evs b) {C : ContractTy} {h o : Idx} (hC : (C, h) ∈ cs)
    (ho : o ∈ objectsOf b h) {d : DynId} (hd : d ∈ C.stateIds h) : Writable b o d := by
  obtain ⟨n, f, hf, rfl⟩ := mem_stateIds hd
  obtain ⟨ob, h1, h2, h3, _⟩ := hP.obj hH hC (fun e => by rw [e] at hf; cases hf) ho
  have hty : C.stateTypes[n]? = some f.ty := by simp [ContractTy.stateTypes, hf]
  have hl : n < ob.states.length := by
    rw [h3.1]; exact (List.getElem?_eq_some_iff.1 hty).1
  obtain ⟨v, hv⟩ := h3.2 n f.ty _ hty (List.getElem?_eq_getElem hl)
  obtain ⟨sl, hsl⟩ := encode_prim v (hP.primitive C h f hC (List.mem_of_getElem? hf))
  refine ⟨ob.states[n], v, sl, ?_, state_ok.2 hv, hsl⟩
  rw [bindState_of_get h1]
  exact bindIdx_ok.2 ⟨h2.symm, List.getElem?_eq_getElem hl⟩

theorem serialize_succeeds {kind : Kind} {evs : List Event} {b : Baseline} {cs : List (ContractTy × Idx)}
    (hP : Storable evs b cs) (hH : History kind evs b) {s : Ser} {L : List (ContractTy × Idx)} {W : List WObj}
    {S : List WSlot} (hI : SerInv b s L W S) {C : ContractTy} {h : Idx} (hC : (C, h) ∈ cs) (hL : L.length < 65535)
    (ord : HashOrder) : ∃ s', s.serialize C h ord = (s', .ok ()) := by
  obtain ⟨cd, h1, _⟩ := hP.registered C h hC
  obtain ⟨ks, hk⟩ := kindsOf_prim C.stateTypes (by
    intro t ht
    simp only [ContractTy.stateTypes, List.mem_map] at ht
    obtain ⟨f, hf, rfl⟩ := ht
    exact hP.primitive C h f hC hf)
  have hlen : s.contracts.length = L.length := by
    have := congrArg List.length hI.tables; simpa using this.symm
  unfold Ser.serialize
  rw [hI.base, h1]
  simp only [Ser.contractTable, hk]
  rw [if_neg (by simp [hlen]; omega)]
  refine pushObjects_succeeds _ _ _ _ _ ?_
  intro o ho d hd
  have ho : o ∈ cd.objects := (ord.perm _).mem_iff.1 ho
  simp only [hI.base]
  exact hP.writable hH hC (by unfold objectsOf; rw [h1]; exact ho) hd

theorem serializeAll_succeeds {kind : Kind} {evs : List Event} {b : Baseline} {cs : List (ContractTy × Idx)}
    (hP : Storable evs b cs) (hH : History kind evs b) (calls : List (ContractTy × Idx × HashOrder))
    (hcalls : ∀ c ∈ calls, (c.1, c.2.1) ∈ cs) {s : Ser} {L : List (ContractTy × Idx)} {W : List WObj}
    {S : List WSlot} (hI : SerInv b s L W S) (hL : L.length + calls.length ≤ 65535) :
    ∃ s', s.serializeAll calls = (s', .ok ()) := by
  induction calls generalizing s L W S with
  | nil => exact ⟨s, rfl⟩
  | cons c calls ih =>
    obtain ⟨C, h, ord⟩ := c
    simp only [List.length_cons] at hL
    obtain ⟨s1, hs1⟩ := serialize_succeeds hP hH hI (hcalls (C, h, ord) (by simp)) (by omega) ord
    obtain ⟨W', S', h1⟩ := serialize_ok hI hs1
    obtain ⟨s', hs'⟩ := ih (fun c hc => hcalls c (by simp [hc])) h1 (by simp; omega)
    unfold Ser.serializeAll
    simp only [hs1]
    exact ⟨s', hs'⟩

end Verif
