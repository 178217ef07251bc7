import Verif.Proofs.DesFinish
/-! # Restoring does not depend on hash iteration orders -/
namespace Verif
open Arena Baseline Store

theorem Arena.modify_comm {α : Type} {a a1 a2 : Arena α} {i j : Idx} {f g : α → α} (hij : i ≠ j)
    (h1 : a.modify i f = some a1) (h2 : a1.modify j g = some a2) :
    ∃ a1', a.modify j g = some a1' ∧ a1'.modify i f = some a2 := by
  unfold modify at h1
  split at h1
  case h_2 => cases h1
  rename_i gi v hi
  split at h1
  case isFalse => cases h1
  rename_i hg
  cases h1
  have hne : i.slot ≠ j.slot → ∃ a1', a.modify j g = some a1' ∧ a1'.modify i f = some a2 := by
    intro hs
    unfold modify at h2
    simp only [List.getElem?_set_ne hs] at h2
    split at h2
    case h_2 => cases h2
    rename_i gj w hj
    split at h2
    case isFalse => cases h2
    rename_i hg2
    cases h2
    refine ⟨{ a with slots := a.slots.set j.slot (.occ gj (g w)) }, ?_, ?_⟩
    · unfold modify; simp only [hj, hg2, if_true]
    · unfold modify
      simp only [List.getElem?_set_ne (Ne.symm hs), hi, hg, if_true]
      rw [List.set_comm _ _ (Ne.symm hs)]
  by_cases hs : i.slot = j.slot
  · exfalso
    unfold modify at h2
    have hlt := (List.getElem?_eq_some_iff.1 hi).1
    simp only [← hs, List.getElem?_set_self hlt] at h2
    split at h2
    · rename_i hg2
      apply hij
      cases i; cases j
      simp only at hs hg hg2 ⊢
      rw [hs, ← hg, hg2]
    · cases h2
  · exact hne hs

theorem Store.write_comm {F : PropType → Type} {s s1 s2 : Store F} {t : PropType} {i j : Idx} {v w : F t} (hij : i ≠ j)
    (h1 : s.write t i v = some s1) (h2 : s1.write t j w = some s2) :
    ∃ s1', s.write t j w = some s1' ∧ s1'.write t i v = some s2 := by
  unfold Store.write at h1
  split at h1
  case h_1 => cases h1
  rename_i a ha
  split at h1
  case h_1 => cases h1
  rename_i a1 hm1
  cases h1
  unfold Store.write at h2
  simp only [Function.update_self] at h2
  split at h2
  case h_1 => cases h2
  rename_i a2 hm2
  cases h2
  obtain ⟨a1', m1, m2⟩ := Arena.modify_comm hij hm1 hm2
  refine ⟨Function.update s t (some a1'), ?_, ?_⟩
  · unfold Store.write; simp only [ha, m1]
  · unfold Store.write; simp only [Function.update_self, m2, Function.update_idem]

/-- The second pass of `finish` gives the same result in whatever order the noted states are visited. -/
theorem patchRefs_perm (d : Des) {L L' : List (Nat × Idx)} (hp : L.Perm L') (b : Baseline)
    (href : ∀ (i : Nat) (j : Idx), (i, j) ∈ L → ∃ p, d.objRef i = some p)
    (hlive : ∀ (i : Nat) (j : Idx), (i, j) ∈ L → ∃ v, b.states.get objT j = some v)
    (hnd : (L.map Prod.snd).Nodup) : d.patchRefs L b = d.patchRefs L' b := by
  induction hp generalizing b with
  | nil => rfl
  | cons e _ ih =>
    obtain ⟨i, j⟩ := e
    obtain ⟨p, hp⟩ := href i j (by simp)
    obtain ⟨v, hv⟩ := hlive i j (by simp)
    simp only [List.map_cons, List.nodup_cons] at hnd
    simp only [Des.patchRefs, hp]
    cases ho : d.objects.getR p with
    | none => rfl
    | some o =>
      simp only [stateWrite]
      cases hs : b.states.write objT j o with
      | none => rfl
      | some s1 =>
        exact ih { b with states := s1 } (fun i j hm => href i j (by simp [hm]))
          (fun i j hm => get_write_live hs (hlive i j (by simp [hm]))) hnd.2
  | swap x y l =>
    obtain ⟨i, j⟩ := x
    obtain ⟨i', j'⟩ := y
    obtain ⟨p, hp⟩ := href i j (by simp)
    obtain ⟨p', hp'⟩ := href i' j' (by simp)
    obtain ⟨v, hv⟩ := hlive i j (by simp)
    obtain ⟨v', hv'⟩ := hlive i' j' (by simp)
    simp only [List.map_cons, List.nodup_cons, List.mem_cons, not_or] at hnd
    have hne : j' ≠ j := hnd.1.1
    have key : ∀ (s : Store PropType.Carrier) (j o : Idx), (∃ v, s.get objT j = some v) → ∃ s1, s.write objT j o = some s1 := by
      intro s j o ⟨v, hv⟩
      cases hs : s.write objT j o with
      | none => rw [write_eq_none.1 hs] at hv; cases hv
      | some s1 => exact ⟨s1, rfl⟩
    simp only [Des.patchRefs, hp, hp']
    cases ho : d.objects.getR p with
    | none =>
      cases ho' : d.objects.getR p' with
      | none => rfl
      | some o' =>
        obtain ⟨s1, h1⟩ := key b.states j' o' ⟨_, hv'⟩
        simp only [stateWrite, h1]
    | some o =>
      obtain ⟨s1, h1⟩ := key b.states j o ⟨_, hv⟩
      cases ho' : d.objects.getR p' with
      | none => simp only [stateWrite, h1]
      | some o' =>
        obtain ⟨s1', h1'⟩ := key b.states j' o' ⟨_, hv'⟩
        obtain ⟨s2, h2⟩ := key s1 j' o' (get_write_live h1 ⟨_, hv'⟩)
        obtain ⟨q, q1, q2⟩ := Store.write_comm (Ne.symm hne) h1 h2
        rw [h1'] at q1; injection q1 with q1; subst q1
        simp only [stateWrite, h1, h1', h2, q2]
  | trans h1 h2 i1 i2 =>
    rw [i1 b href hlive hnd]
    exact i2 b (fun i j hm => href i j (h1.mem_iff.2 hm)) (fun i j hm => hlive i j (h1.mem_iff.2 hm))
      ((h1.map _).nodup_iff.1 hnd)

theorem patchRefs_contracts (d : Des) (L : List (Nat × Idx)) (b b' : Baseline) (h : d.patchRefs L b = .ok b') :
    b'.contracts = b.contracts := by
  induction L generalizing b with
  | nil => simp only [Des.patchRefs, Outcome.ok.injEq] at h; rw [h]
  | cons e L ih =>
    obtain ⟨i, j⟩ := e
    simp only [Des.patchRefs] at h
    cases hp : d.objRef i with
    | none => simp [hp] at h
    | some p =>
      simp only [hp] at h
      cases ho : d.objects.getR p with
      | none => simp [ho] at h
      | some o =>
        simp only [ho, stateWrite] at h
        cases hs : b.states.write (.prim .objectHandle) j o with
        | none => simp [hs] at h
        | some s1 => simp only [hs] at h; exact ih { b with states := s1 } h

theorem unregister_single (b : Baseline) (C : ContractTy) (h : Idx) (cd : ContractData) (x : Idx) (hcd : b.contracts.get h = some cd)
    (ho : cd.objects = [x]) (hord hord' : HashOrder) : b.unregisterContract C h hord = b.unregisterContract C h hord' := by
  have e : ∀ k : HashOrder, k.order cd.objects = [x] := fun k => by
    rw [ho]; exact List.perm_singleton.1 (k.perm _)
  unfold unregisterContract
  simp only [hcd, e]

theorem finish_seed {buf : FbBaseline} {kind : Kind} {regs : List (ContractTy × Outcome Idx)}
    {calls : List ((ContractTy × Idx) × Outcome Unit)} {d : Des} (hd : DesRun buf kind regs calls d)
    (ord ord' : IterOrder (Nat × Idx)) (hord hord' : HashOrder) : d.finish ord hord = d.finish ord' hord' := by
  obtain ⟨done, hR⟩ := desRun_ok hd
  have hI := hR.inv
  have hmem : ∀ e : Nat × Idx, e ∈ ord.order d.states.pairs ↔ e ∈ d.states.pairs := fun e => (ord.perm _).mem_iff
  have hperm : d.patchRefs (ord.order d.states.pairs) d.b.base = d.patchRefs (ord'.order d.states.pairs) d.b.base :=
    patchRefs_perm d ((ord.perm _).trans (ord'.perm _).symm) d.b.base
      (fun i j hm => by
        obtain ⟨⟨_, r, _, _, e⟩, _⟩ := hI.states i j ((hmem _).1 hm); exact ⟨_, e⟩)
      (fun i j hm => ⟨_, (hI.states i j ((hmem _).1 hm)).2⟩)
      (((ord.perm _).map _).nodup_iff.2 hI.smap.2)
  unfold Des.finish
  rw [← hperm]
  cases hp : d.patchRefs (ord.order d.states.pairs) d.b.base with
  | err m => rfl
  | panic m => rfl
  | ok b1 =>
    simp only
    rw [unregister_single b1 nullContractTy d.b.nullContract _ d.b.nullObj
      (by rw [patchRefs_contracts d _ _ _ hp]; exact hI.nullCon) rfl hord hord']

end Verif
