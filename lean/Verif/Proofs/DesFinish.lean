import Verif.Proofs.DesRun
/-! # The deserializer: `finish` -/
namespace Verif
open Arena Baseline Store

theorem patchRefs_spec {kind : Kind} {P : ContractTy → Idx → Prop} (d : Des) (L : List (Nat × Idx)) (b : Baseline)
    (href : ∀ (i : Nat) (j : Idx), (i, j) ∈ L → ∃ p, d.objRef i = some p)
    (hlive : ∀ (i : Nat) (j : Idx), (i, j) ∈ L → ∃ v, b.states.get objT j = some v)
    (hnd : (L.map Prod.snd).Nodup) (hr : Reach kind P b) :
    ((∃ (i p : Nat) (j : Idx), (i, j) ∈ L ∧ d.objRef i = some p ∧ d.objects.getR p = none) ∧
      (d.patchRefs L b).isErr = true) ∨
    ((∀ (i : Nat) (j : Idx), (i, j) ∈ L → ∃ p o, d.objRef i = some p ∧ d.objects.getR p = some o ) ∧
      ∃ s', d.patchRefs L b = .ok { b with states := s' } ∧ Reach kind P { b with states := s' } ∧
      (∀ (i : Nat) (j : Idx) (p : Nat) (o : Idx), (i, j) ∈ L → d.objRef i = some p → d.objects.getR p = some o →
        s'.get objT j = some o) ∧
      (∀ (t : PropType) (j : Idx), (t = objT → ∀ i : Nat, (i, j) ∉ L) → s'.get t j = b.states.get t j)) := by
  induction L generalizing b with
  | nil => right; exact ⟨by simp, b.states, rfl, hr, by simp, by simp⟩
  | cons e L ih =>
    obtain ⟨i, j⟩ := e
    obtain ⟨p, hp⟩ := href i j (by simp)
    obtain ⟨v, hv⟩ := hlive i j (by simp)
    simp only [List.map_cons, List.nodup_cons] at hnd
    simp only [Des.patchRefs, hp]
    cases ho : d.objects.getR p with
    | none => left; exact ⟨⟨i, p, j, by simp, hp, ho⟩, rfl⟩
    | some o =>
      simp only
      have hw := hr.write objT j o
      unfold stateWrite at hw ⊢
      cases hs : b.states.write objT j o with
      | none => rw [write_eq_none.1 hs] at hv; cases hv
      | some s1 =>
        rw [hs] at hw
        simp only at hw ⊢
        rcases ih { b with states := s1 } (fun i j hm => href i j (by simp [hm]))
          (fun i j hm => get_write_live hs (hlive i j (by simp [hm]))) hnd.2 hw with
          ⟨⟨i', p', j', a1, a2, a3⟩, a4⟩ | ⟨a1, s', a2, a3, a4, a5⟩
        · left; exact ⟨⟨i', p', j', by simp [a1], a2, a3⟩, a4⟩
        · right
          have hjn : ∀ i' : Nat, (i', j) ∉ L := fun i' hm => hnd.1 (List.mem_map.2 ⟨_, hm, rfl⟩)
          refine ⟨?_, s', a2, a3, ?_, ?_⟩
          · intro i' j' hm
            rcases List.mem_cons.1 hm with hm | hm
            · injection hm with e1 e2; subst e1 e2; exact ⟨p, o, hp, ho⟩
            · exact a1 i' j' hm
          · intro i' j' p' o' hm h1 h2
            rcases List.mem_cons.1 hm with hm | hm
            · injection hm with e1 e2; subst e1 e2
              rw [hp] at h1; injection h1 with h1; subst h1
              rw [ho] at h2; injection h2 with h2; subst h2
              rw [a5 objT j' (fun _ => hjn)]
              exact get_write_self hs
            · exact a4 i' j' p' o' hm h1 h2
          · intro t j' hn
            rw [a5 t j' (fun e i' hm => hn e i' (by simp [hm]))]
            refine get_write_ne hs ?_
            rintro ⟨rfl, rfl⟩
            exact hn rfl i (by simp)

/-- What the baseline returned by `finish` is: the one of the deserializer, without the null contract and
the null object, every noted reference replaced by the object restored for its target. -/
structure Finished (d : Des) (done : List DoneObj) (b' : Baseline) : Prop where
  kindEq : b'.kind = d.b.base.kind
  objects : ∀ o : Idx, b'.objects.get o = if o = d.b.nullObj then none else d.b.base.objects.get o
  contracts : ∀ k : Idx, b'.contracts.get k = if k = d.b.nullContract then none else d.b.base.contracts.get k
  refs : ∀ (i : Nat) (j : Idx), (i, j) ∈ d.states.pairs → ∃ x ∈ done, d.objRef i = some x.p ∧
    b'.states.get objT j = some x.o
  other : ∀ (t : PropType) (j : Idx), (t = objT → ∀ i : Nat, (i, j) ∉ d.states.pairs) →
    b'.states.get t j = d.b.base.states.get t j
  channels : b'.channels = d.b.base.channels

theorem finish_spec {buf : FbBaseline} {kind : Kind} {regs : List (ContractTy × Outcome Idx)}
    {calls : List ((ContractTy × Idx) × Outcome Unit)} {d : Des} {done : List DoneObj}
    (hR : RunOk buf kind regs calls d done) (ord : IterOrder (Nat × Idx)) (hord : HashOrder) :
    ((∃ (i p : Nat) (j : Idx), (i, j) ∈ d.states.pairs ∧ d.objRef i = some p ∧ p ∉ done.map DoneObj.p) ∧
      (d.finish ord hord).isErr = true) ∨
    ((∀ (i p : Nat) (j : Idx), (i, j) ∈ d.states.pairs → d.objRef i = some p → p ∈ done.map DoneObj.p) ∧
      ∃ b', d.finish ord hord = .ok b' ∧
        Reach kind (fun C k => k = d.b.nullContract ∨ ∃ r, ((C, k), r) ∈ calls) b' ∧ Finished d done b') := by
  have hI := hR.inv
  have hmem : ∀ e : Nat × Idx, e ∈ ord.order d.states.pairs ↔ e ∈ d.states.pairs := fun e => (ord.perm _).mem_iff
  have hget : ∀ p : Nat, d.objects.getR p = none ↔ p ∉ done.map DoneObj.p := by
    intro p
    rw [BiMap.getR_none]
    constructor
    · intro h hm
      obtain ⟨x, hx, e⟩ := List.mem_map.1 hm
      exact h x.o ((hI.objs _ _).2 ⟨x, hx, rfl, e⟩)
    · intro h o ho
      obtain ⟨x, hx, _, e⟩ := (hI.objs _ _).1 ho
      exact h (List.mem_map.2 ⟨x, hx, e⟩)
  have hps := patchRefs_spec (kind := kind) d (ord.order d.states.pairs) d.b.base
    (fun i j hm => by
      obtain ⟨⟨_, r, _, _, e⟩, _⟩ := hI.states i j ((hmem _).1 hm); exact ⟨_, e⟩)
    (fun i j hm => ⟨_, (hI.states i j ((hmem _).1 hm)).2⟩)
    (((ord.perm _).map _).nodup_iff.2 hI.smap.2) hR.reach
  unfold Des.finish
  rcases hps with ⟨⟨i, p, j, a1, a2, a3⟩, a4⟩ | ⟨a1, s', a2, a3, a4, a5⟩
  · left
    refine ⟨⟨i, p, j, (hmem _).1 a1, a2, (hget p).1 a3⟩, ?_⟩
    revert a4
    cases d.patchRefs (ord.order d.states.pairs) d.b.base <;> simp [Outcome.isErr]
  · right
    rw [a2]
    simp only
    obtain ⟨evs, hH, hNP, hCr⟩ := a3
    have hB := history_binv hH
    have hok := (unregister_ok_iff hB (C := nullContractTy) (h := d.b.nullContract) hI.nullCon rfl hord).2
      (.inr ⟨⟨rfl, rfl⟩, by
        intro o ho
        simp at ho; subst ho
        exact ⟨_, hI.nullObj⟩⟩)
    have hre := Reach.unregister (kind := kind) ⟨evs, hH, hNP, hCr⟩ nullContractTy d.b.nullContract hord (by rw [hok]; rfl)
    rcases unregister_cases { d.b.base with states := s' } nullContractTy d.b.nullContract hord with
      ⟨_, e, _⟩ | ⟨cd, cons, dn, c1, c2, c3, c4, (⟨c5, c6⟩ | ⟨_, e⟩)⟩
    · rw [hok] at e; cases e
    · rw [c6] at hre ⊢
      simp only at hre ⊢
      replace c1 : d.b.base.contracts.get d.b.nullContract = some cd := c1
      have hcd := c1
      rw [hI.nullCon] at hcd; injection hcd with hcd; subst hcd
      have hdn : dn = [d.b.nullObj] := by
        rw [c5]; exact List.perm_singleton.1 (hord.perm _)
      subst hdn
      have hres : ∀ (i : Nat) (j : Idx), (i, j) ∈ d.states.pairs → ∃ x ∈ done, d.objRef i = some x.p ∧
          d.objects.getR x.p = some x.o := by
        intro i j hm
        obtain ⟨p, o, e1, e2⟩ := a1 i j ((hmem _).2 hm)
        obtain ⟨x, hx, h1, h2⟩ := (hI.objs _ _).1 (BiMap.getR_some_mem e2)
        subst h1 h2
        exact ⟨x, hx, e1, e2⟩
      refine ⟨?_, _, rfl, hre, ?_, ?_, ?_, ?_, ?_, ?_⟩
      · intro i p j hm hp
        obtain ⟨x, hx, e1, _⟩ := hres i j hm
        rw [hp] at e1; injection e1 with e1; subst e1
        exact List.mem_map.2 ⟨x, hx, rfl⟩
      · rfl
      · intro o
        show (removeList d.b.base.objects [d.b.nullObj]).get o = _
        rw [get_removeList]; simp
      · intro k
        show (cons.remove d.b.nullContract).1.get k = _
        rw [get_remove]
        split
        · rfl
        · rename_i hne
          have c3' : d.b.base.contracts.modify d.b.nullContract clearObjs = some cons := c3
          rw [get_modify c3', if_neg hne]
      · intro i j hm
        obtain ⟨x, hx, e1, e2⟩ := hres i j hm
        exact ⟨x, hx, e1, a4 i j x.p x.o ((hmem _).2 hm) e1 e2⟩
      · intro t j hn
        exact a5 t j (fun e i hm => hn e i ((hmem _).1 hm))
      · rfl
    · rw [hok] at e; cases e

end Verif
