import Verif.Proofs.SerBuffer
/-!
# Serializing contracts more than once: what is written
-/
namespace Verif
open Spec Arena Baseline Store

theorem rep_listed {b : Baseline} {s : Ser} {cs : List (ContractTy × Idx)} {W : List WObj} {S : List WSlot}
    (hI : SerInv b s cs W S) : ∀ w ∈ W, (w.C, w.h) ∈ cs ∧ w.o ∈ objectsOf b w.h := by
  intro w hw
  have hk := hI.num w hw
  refine ⟨List.mem_of_getElem? hk, ?_⟩
  obtain ⟨cd, e1, e2⟩ := hI.members w.k w.C w.h hk
  unfold objectsOf
  rw [contractData_ok.2 e1]
  exact e2.mem_iff.1 (List.mem_map.2 ⟨w, List.mem_filter.2 ⟨hw, by simp⟩, rfl⟩)

theorem rep_cover {b : Baseline} {s : Ser} {cs : List (ContractTy × Idx)} {W : List WObj} {S : List WSlot}
    (hI : SerInv b s cs W S) {k : Nat} {C : ContractTy} {h o : Idx} (hk : cs[k]? = some (C, h)) (ho : o ∈ objectsOf b h) :
    ∃ (p : Nat) (w : WObj), W[p]? = some w ∧ w.k = k ∧ w.o = o ∧ w.C = C ∧ w.h = h := by
  obtain ⟨cd, e1, e2⟩ := hI.members k C h hk
  have ho : o ∈ cd.objects := by unfold objectsOf at ho; rw [contractData_ok.2 e1] at ho; exact ho
  obtain ⟨w, hw, rfl⟩ := List.mem_map.1 (e2.mem_iff.2 ho)
  obtain ⟨hw, hwk⟩ := List.mem_filter.1 hw
  simp only [decide_eq_true_eq] at hwk
  have := hI.num w hw
  rw [hwk, hk] at this
  injection this with this; injection this with t1 t2
  obtain ⟨p, hp⟩ := List.getElem?_of_mem hw
  exact ⟨p, w, hp, hwk, rfl, t1.symm, t2.symm⟩

/-- Every slot is a field of something written, and holds that field's value. -/
theorem rep_slot {b : Baseline} {s : Ser} {cs : List (ContractTy × Idx)} {W : List WObj} {S : List WSlot}
    (hI : SerInv b s cs W S) {i : Nat} {x : WSlot} (hx : S[i]? = some x) :
    ∃ (p : Nat) (w : WObj) (n : Nat) (f : Field), W[p]? = some w ∧ i = w.start + n ∧ w.C.states[n]? = some f ∧ x.d.ty = f.ty ∧
      (∀ v : Idx, x.prop = .primitive (.objectHandle v) → f.ty = .prim .objectHandle ∧ Holds b w.h w.o n (.prim .objectHandle) v) ∧
      (∀ v : Idx, x.prop = .primitive (.contractDataHandle v) → f.ty = .prim .contractDataHandle ∧ Holds b w.h w.o n (.prim .contractDataHandle) v) := by
  obtain ⟨p, w, n, f, a1, rfl, a3⟩ := hI.objs.cover i x hx
  obtain ⟨y, c1, c2, c3⟩ := hI.objs.fields p w a1 n f a3
  rw [hx] at c1; injection c1 with c1; subst c1
  obtain ⟨r1, r2, _⟩ := hI.objs.slots.slots _ x hx
  rw [hI.base] at r1 r2
  refine ⟨p, w, n, f, a1, rfl, a3, by rw [c3], ?_, ?_⟩
  · intro v' e1
    rcases x with ⟨o, d, hnd', v⟩
    simp only at c2 c3 r1 r2
    subst c2 c3
    simp only at r1 r2
    simp only [WSlot.prop] at e1
    have ht := congrArg DynProp.propType e1
    rw [DynProp.propType_ofTyped] at ht
    obtain ⟨nm, ty⟩ := f
    have ht : ty = .prim .objectHandle := ht
    subst ht
    have hv : v = v' := by simpa [DynProp.ofTyped] using e1
    subst hv
    exact ⟨rfl, hnd', r1, r2⟩
  · intro v' e1
    rcases x with ⟨o, d, hnd', v⟩
    simp only at c2 c3 r1 r2
    subst c2 c3
    simp only at r1 r2
    simp only [WSlot.prop] at e1
    have ht := congrArg DynProp.propType e1
    rw [DynProp.propType_ofTyped] at ht
    obtain ⟨nm, ty⟩ := f
    have ht : ty = .prim .contractDataHandle := ht
    subst ht
    have hv : v = v' := by simpa [DynProp.ofTyped] using e1
    subst hv
    exact ⟨rfl, hnd', r1, r2⟩

/-- The slot of a field of something written. -/
theorem rep_field {b : Baseline} {s : Ser} {cs : List (ContractTy × Idx)} {W : List WObj} {S : List WSlot}
    (hI : SerInv b s cs W S) {p : Nat} {w : WObj} (hw : W[p]? = some w) {n : Nat} {f : Field} (hf : w.C.states[n]? = some f) :
    ∃ x, S[w.start + n]? = some x ∧ x.d.ty = f.ty ∧
      (∀ v : Idx, f.ty = .prim .objectHandle → Holds b w.h w.o n (.prim .objectHandle) v → x.prop = .primitive (.objectHandle v)) ∧
      (∀ v : Idx, f.ty = .prim .contractDataHandle → Holds b w.h w.o n (.prim .contractDataHandle) v →
        x.prop = .primitive (.contractDataHandle v)) := by
  obtain ⟨x, c1, c2, c3⟩ := hI.objs.fields p w hw n f hf
  obtain ⟨r1, r2, _⟩ := hI.objs.slots.slots _ x c1
  rw [hI.base] at r1 r2
  refine ⟨x, c1, by rw [c3], ?_, ?_⟩
  · rintro v' ht ⟨j, g1, g2⟩
    rcases x with ⟨o, d, hnd', v⟩
    simp only at c2 c3 r1 r2
    subst c2 c3
    simp only at r1 r2
    obtain ⟨nm, ty⟩ := f
    have ht : ty = .prim .objectHandle := ht
    subst ht
    rw [r1] at g1; injection g1 with g1; subst g1
    rw [r2] at g2; injection g2 with g2; subst g2
    rfl
  · rintro v' ht ⟨j, g1, g2⟩
    rcases x with ⟨o, d, hnd', v⟩
    simp only at c2 c3 r1 r2
    subst c2 c3
    simp only at r1 r2
    obtain ⟨nm, ty⟩ := f
    have ht : ty = .prim .contractDataHandle := ht
    subst ht
    rw [r1] at g1; injection g1 with g1; subst g1
    rw [r2] at g2; injection g2 with g2; subst g2
    rfl

theorem rep_resolved {b : Baseline} {cs : List (ContractTy × Idx)} (hcl : Closed b cs)
    {s : Ser} {W : List WObj} {S : List WSlot} (hI : SerInv b s cs W S) : ∀ x ∈ S, ¬ Unresolved cs W x := by
  intro x hx hu
  obtain ⟨i, hi⟩ := List.getElem?_of_mem hx
  obtain ⟨p, w, n, f, a1, _, a3, _, a4, a5⟩ := rep_slot hI hi
  obtain ⟨l1, l2⟩ := rep_listed hI w (List.mem_of_getElem? a1)
  rcases hu with ⟨o', e1, e2⟩ | ⟨h', e1, e2⟩
  · obtain ⟨t, hv⟩ := a4 o' e1
    obtain ⟨C', h', g1, g2⟩ := hcl.objects w.C w.h w.o n f o' l1 l2 a3 t hv
    obtain ⟨k, hk⟩ := List.getElem?_of_mem g1
    obtain ⟨q, w', q1, _, q2, _⟩ := rep_cover hI hk g2
    exact e2 w' (List.mem_of_getElem? q1) q2
  · obtain ⟨t, hv⟩ := a5 h' e1
    obtain ⟨C', g1⟩ := hcl.contracts w.C w.h w.o n f h' l1 l2 a3 t hv
    exact e2 C' g1

/-- If repeated contracts have no handle states, each handle state has one slot only. -/
theorem rep_slot_once {kind : Kind} {evs : List Event} {b : Baseline} {cs : List (ContractTy × Idx)}
    (hP : Storable evs b cs) (hH : History kind evs b) (hpl : PlainRepeats b cs)
    {s : Ser} {W : List WObj} {S : List WSlot} (hI : SerInv b s cs W S) (i i' : Nat) (x x' : WSlot)
    (h1 : S[i]? = some x) (h2 : S[i']? = some x')
    (hh : x.d.ty = .prim .objectHandle ∨ x.d.ty = .prim .contractDataHandle) (hty : x.d.ty = x'.d.ty)
    (hhnd : x.hnd = x'.hnd) : i = i' := by
  have hB := history_binv hH
  obtain ⟨p, w, n, f, a1, rfl, a3⟩ := hI.objs.cover i x h1
  obtain ⟨p', w', n', f', b1, rfl, b3⟩ := hI.objs.cover i' x' h2
  obtain ⟨y, c1, c2, c3⟩ := hI.objs.fields p w a1 n f a3
  rw [h1] at c1; injection c1 with c1; subst c1
  obtain ⟨y', d1, d2, d3⟩ := hI.objs.fields p' w' b1 n' f' b3
  rw [h2] at d1; injection d1 with d1; subst d1
  have own : ∀ (x : WSlot) (w : WObj) (n : Nat) (f : Field) (i : Nat), w ∈ W → S[i]? = some x → x.o = w.o →
      x.d = ⟨f.ty, ⟨n, w.h⟩⟩ → w.C.states[n]? = some f →
      Owns evs b.objects ContractTy.stateTypes ObjectD.states w.o n x.d.ty x.hnd := by
    intro x w n f i hw hx e1 e2 hf
    obtain ⟨g1, g2⟩ := rep_listed hI w hw
    obtain ⟨ob, q1, q2, q3, q4⟩ := hP.obj hH g1 (fun e => by rw [e] at hf; cases hf) g2
    obtain ⟨r1, _⟩ := hI.objs.slots.slots i x hx
    rw [hI.base, e1, e2, bindState_of_get q1] at r1
    have r1 := (bindIdx_ok.1 r1).2
    refine ⟨w.C, w.h, ob, q4, q1, ?_, r1⟩
    rw [e2]; simp [ContractTy.stateTypes, hf]
  have o1 := own x w n f _ (List.mem_of_getElem? a1) h1 c2 c3 a3
  have o2 := own x' w' n' f' _ (List.mem_of_getElem? b1) h2 d2 d3 b3
  rw [← hty, ← hhnd] at o2
  obtain ⟨e1, rfl⟩ := hB.o.aliasS _ _ _ _ _ _ o1 o2
  obtain ⟨l1, l2⟩ := rep_listed hI w (List.mem_of_getElem? a1)
  obtain ⟨m1, m2⟩ := rep_listed hI w' (List.mem_of_getElem? b1)
  rw [← e1] at m2
  have hhh : w.h = w'.h := listed_once hH l2 m2
  have n1 := hI.num w (List.mem_of_getElem? a1)
  have n2 := hI.num w' (List.mem_of_getElem? b1)
  rw [← hhh] at n2
  by_cases hk : w.k = w'.k
  · obtain ⟨cd, q1, q2⟩ := hI.members w.k w.C w.h n1
    have hnd : ((W.filter fun v => v.k = w.k).map WObj.o).Nodup := q2.nodup_iff.2 (hB.c.nodup w.h cd q1)
    have hww : w = w' := by
      have g1 : w ∈ W.filter fun v => v.k = w.k := List.mem_filter.2 ⟨List.mem_of_getElem? a1, by simp⟩
      have g2 : w' ∈ W.filter fun v => v.k = w.k := List.mem_filter.2 ⟨List.mem_of_getElem? b1, by simp [hk]⟩
      obtain ⟨i1, z1⟩ := List.getElem?_of_mem g1
      obtain ⟨i2, z2⟩ := List.getElem?_of_mem g2
      have := (List.getElem?_inj (i := i1) (j := i2) (l := (W.filter fun v => v.k = w.k).map WObj.o)
        (by simpa using (List.getElem?_eq_some_iff.1 z1).1) hnd).1 (by rw [List.getElem?_map, List.getElem?_map, z1, z2]; simp [e1])
      subst this
      rw [z1] at z2; exact Option.some.inj z2
    rw [hww]
  · have ht : x.d.ty = f.ty := by rw [c3]
    have := hpl w.C w.h w.o f ⟨_, _, _, _, hk, n1, n2⟩ l1 l2 (List.mem_of_getElem? a3)
    rcases hh with hh | hh
    · exact absurd (ht.symm.trans hh) this.1
    · exact absurd (ht.symm.trans hh) this.2

/-- The output, if repeated contracts have no handle states: handles are written as the number of the last copy. -/
theorem finish_output_rep {kind : Kind} {evs : List Event} {b : Baseline} {cs : List (ContractTy × Idx)}
    (hP : Storable evs b cs) (hH : History kind evs b) (hpl : PlainRepeats b cs)
    (hobj : objectCount b cs ≤ 2 ^ 32)
    {s : Ser} {W : List WObj} {S : List WSlot} (hI : SerInv b s cs W S) (hres : ∀ x ∈ S, ¬ Unresolved cs W x)
    (ordC ordO : IterOrder (Idx × Nat)) :
    ∃ out buf, s.finish ordC ordO = .ok out ∧ out.decode = some buf ∧ Output cs W S buf ∧
      ∀ (i : Nat) (x : WSlot), S[i]? = some x → ∃ v, StateAt buf i v ∧
        Denotes (fun c h => (∃ C, cs[c]? = some (C, h)) ∧ ∀ (k : Nat) (C : ContractTy), cs[k]? = some (C, h) → k ≤ c)
          (fun r o => (∃ w, W[r]? = some w ∧ w.o = o) ∧ ∀ (p : Nat) (w : WObj), W[p]? = some w → w.o = o → p ≤ r) v (noSign x.prop) := by
  rcases ser_finish_spec hI ordC ordO with ⟨⟨x, hx, hu⟩, _⟩ | ⟨_, out, a1, a2, a3, a4, a5⟩
  · exact absurd hu (hres x hx)
  · have hnoted : ∀ (t : PropType) (m : BiMap Idx Nat), Noted t m S → ∀ (i : Nat) (x : WSlot), S[i]? = some x →
        x.d.ty = t → (t = .prim .objectHandle ∨ t = .prim .contractDataHandle) → (x.hnd, i) ∈ m.pairs := by
      intro t m hN i x hx ht hh
      obtain ⟨i', hi'⟩ := hN.all i x hx ht
      obtain ⟨x', e1, e2, e3⟩ := hN.pair _ _ hi'
      have := rep_slot_once hP hH hpl hI i i' x x' hx e1 (by rw [ht]; exact hh) (ht.trans e2.symm) e3.symm
      rw [this]; exact hi'
    have hslot : ∀ (i : Nat) (x : WSlot), S[i]? = some x → ∃ v, out.states[i]? = some (some v) ∧
        Denotes (fun c h => (∃ C, cs[c]? = some (C, h)) ∧ ∀ (k : Nat) (C : ContractTy), cs[k]? = some (C, h) → k ≤ c)
          (fun r o => (∃ w, W[r]? = some w ∧ w.o = o) ∧ ∀ (p : Nat) (w : WObj), W[p]? = some w → w.o = o → p ≤ r) v (noSign x.prop) := by
      intro i x hx
      rcases a5 i x hx with ⟨v, b1, _, _, b4⟩ | ⟨_, ⟨c1, c2⟩ | ⟨c1, c2⟩⟩
      · refine ⟨v, b1, b4.imp ?_ ?_⟩
        · rintro c h ⟨k, e1, e2⟩
          obtain ⟨C, e3⟩ := hI.cPair h k e2
          have hk := (List.getElem?_eq_some_iff.1 e3).1
          have := ofNat_inj (w := 16) (by have := hP.few; omega) c.isLt e1
          exact ⟨⟨C, by rw [← this]; exact e3⟩, fun k' C' e => by rw [← this]; exact hI.cLast h k k' C' e2 e⟩
        · rintro c o ⟨k, e1, e2⟩
          obtain ⟨w, e3, e4⟩ := hI.objs.oPair o k e2
          have hk := (List.getElem?_eq_some_iff.1 e3).1
          have hw := hI.wTotal
          have := ofNat_inj (w := 32) (by omega) c.isLt e1
          exact ⟨⟨w, by rw [← this]; exact e3, e4⟩, fun p w e e' => by rw [← this]; exact hI.objs.oLast o k p w e2 e e'⟩
      · exact absurd (hnoted _ _ hI.objs.slots.obj i x hx c1 (.inl rfl)) c2
      · exact absurd (hnoted _ _ hI.objs.slots.con i x hx c1 (.inr rfl)) c2
    obtain ⟨sts, f1, f2⟩ := filled_some (sts := out.states) (by
      intro sl hsl
      obtain ⟨i, hi⟩ := List.getElem?_of_mem hsl
      have hl := (List.getElem?_eq_some_iff.1 hi).1
      rw [a4] at hl
      obtain ⟨v, hv, _⟩ := hslot i _ (List.getElem?_eq_getElem hl)
      rw [hi] at hv; injection hv with hv; exact ⟨v, hv⟩)
    have hfull : ∀ (i : Nat) (x : WSlot), S[i]? = some x → ∃ v, StateAt ⟨some out.contracts, some sts, some out.objects⟩ i v ∧
        Denotes (fun c h => (∃ C, cs[c]? = some (C, h)) ∧ ∀ (k : Nat) (C : ContractTy), cs[k]? = some (C, h) → k ≤ c)
          (fun r o => (∃ w, W[r]? = some w ∧ w.o = o) ∧ ∀ (p : Nat) (w : WObj), W[p]? = some w → w.o = o → p ≤ r) v (noSign x.prop) := by
      intro i x hx
      obtain ⟨v, hv, hd⟩ := hslot i x hx
      refine ⟨v, ⟨sts, rfl, ?_⟩, hd⟩
      rw [← f2, List.getElem?_map, Option.map_eq_some_iff] at hv
      obtain ⟨v', e1, e2⟩ := hv
      injection e2 with e2; subst e2; exact e1
    refine ⟨out, _, a1, by unfold FbOut.decode; rw [f1]; rfl, ⟨⟨_, rfl, by rw [a2]; exact hI.tables⟩, ?_, ⟨sts, rfl, ?_⟩, ?_⟩, hfull⟩
    · simp only [a3, hI.objs.objs]
    · rw [← a4, ← f2]; simp
    · intro i x hx
      obtain ⟨v, hv, hd⟩ := hfull i x hx
      exact ⟨v, hv, hd.imp (fun _ _ h => h.1) (fun _ _ h => h.1)⟩

/-- What was written has none of the defects the reader does not check. -/
theorem output_noHidden {b : Baseline} {s : Ser} {cs : List (ContractTy × Idx)} {W : List WObj} {S : List WSlot}
    {buf : FbBaseline} (hI : SerInv b s cs W S) (hO : Output cs W S buf) (hst : stateCount b cs ≤ 2 ^ 32) : NoHidden buf := by
  have hval : ∀ (i : Nat) (v : FbVal), StateAt buf i v → ∃ p, Denotes (fun c h => ∃ C, cs[c]? = some (C, h)) (fun r o => ∃ w, W[r]? = some w ∧ w.o = o) v p := by
    rintro i v ⟨sts, e1, e2⟩
    obtain ⟨sts', g1, g2⟩ := hO.states
    rw [e1] at g1; injection g1 with g1; subst g1
    have hl := (List.getElem?_eq_some_iff.1 e2).1
    rw [g2] at hl
    obtain ⟨v', ⟨sts', h1, h2⟩, hd⟩ := hO.slots i _ (List.getElem?_eq_getElem hl)
    rw [e1] at h1; injection h1 with h1; subst h1
    rw [e2] at h2; injection h2 with h2; subst h2
    exact ⟨_, hd⟩
  refine ⟨?_, ?_, ?_⟩
  · intro p i obj sts ho hs hi
    obtain ⟨w, hw, rfl⟩ := hO.obj.1 ho
    obtain ⟨n, hn⟩ := List.getElem?_of_mem hi
    obtain ⟨h1, rfl⟩ := ((written_idx hI hst hw).2 n i).1 hn
    obtain ⟨x, hx, _⟩ := hI.objs.fields p w hw n _ (List.getElem?_eq_getElem h1)
    obtain ⟨sts', g1, g2⟩ := hO.states
    rw [hs] at g1; injection g1 with g1; subst g1
    rw [g2]; exact (List.getElem?_eq_some_iff.1 hx).1
  · intro i g h
    obtain ⟨p, hd⟩ := hval _ _ h
    cases hd
  · intro i h
    obtain ⟨p, hd⟩ := hval _ _ h
    cases hd

end Verif
