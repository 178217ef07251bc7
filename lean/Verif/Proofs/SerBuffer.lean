import Verif.Proofs.SerSuccess
/-! # The buffer a serializer produces -/
namespace Verif
open Arena Baseline Store Spec

theorem filled_some {sts : List (Option FbVal)} (h : ∀ sl ∈ sts, ∃ v, sl = some v) :
    ∃ out, filled sts = some out ∧ out.map some = sts := by
  induction sts with
  | nil => exact ⟨[], rfl, rfl⟩
  | cons sl sts ih =>
    obtain ⟨v, rfl⟩ := h sl (by simp)
    obtain ⟨out, e1, e2⟩ := ih (fun sl hs => h sl (by simp [hs]))
    exact ⟨v :: out, by simp [filled, e1], by simp [e2]⟩

theorem filled_none {sts : List (Option FbVal)} (h : none ∈ sts) : filled sts = none := by
  induction sts with
  | nil => cases h
  | cons sl sts ih =>
    cases sl with
    | none => rfl
    | some v =>
      rcases List.mem_cons.1 h with h | h
      · cases h
      · simp [filled, ih h]

/-- Facts about the members of what was written, for distinct contracts. -/
structure Distinct (evs : List Event) (b : Baseline) (cs : List (ContractTy × Idx)) (W : List WObj) (S : List WSlot) : Prop where
  listed : ∀ w ∈ W, (w.C, w.h) ∈ cs ∧ w.o ∈ objectsOf b w.h
  objs : ∀ (p p' : Nat) (w w' : WObj), W[p]? = some w → W[p']? = some w' → w.o = w'.o → p = p'
  slot : ∀ (i i' : Nat) (x x' : WSlot), S[i]? = some x → S[i']? = some x' → x.d.ty = x'.d.ty → x.hnd = x'.hnd → i = i'
  cover : ∀ (C : ContractTy) (h o : Idx), (C, h) ∈ cs → o ∈ objectsOf b h → ∃ w ∈ W, w.o = o ∧ w.C = C ∧ w.h = h
  own : ∀ (p p' n n' : Nat) (w w' : WObj), W[p]? = some w → W[p']? = some w' → n < w.C.states.length →
    n' < w'.C.states.length → w.start + n = w'.start + n' → p = p' ∧ n = n'

theorem nodup_of_classes {α : Type} [DecidableEq α] (W : List WObj) (g : WObj → α)
    (h1 : ∀ k : Nat, ((W.filter fun w => w.k = k).map g).Nodup)
    (h2 : ∀ w ∈ W, ∀ w' ∈ W, g w = g w' → w.k = w'.k) : (W.map g).Nodup := by
  induction W with
  | nil => simp
  | cons w W ih =>
    simp only [List.map_cons, List.nodup_cons]
    refine ⟨?_, ih ?_ fun w hw w' hw' => h2 w (by simp [hw]) w' (by simp [hw'])⟩
    · intro hm
      obtain ⟨w', hw', e⟩ := List.mem_map.1 hm
      have hk := h2 w' (by simp [hw']) w (by simp) e
      have := h1 w.k
      rw [List.filter_cons_of_pos (by simp), List.map_cons, List.nodup_cons] at this
      exact this.1 (List.mem_map.2 ⟨w', List.mem_filter.2 ⟨hw', by simp [hk]⟩, e⟩)
    · intro k
      have := h1 k
      by_cases hk : w.k = k
      · rw [List.filter_cons_of_pos (by simp [hk]), List.map_cons, List.nodup_cons] at this; exact this.2
      · rw [List.filter_cons_of_neg (by simp [hk])] at this; exact this

theorem snd_inj {cs : List (ContractTy × Idx)} (hnd : (cs.map Prod.snd).Nodup) {k k' : Nat} {C C' : ContractTy} {h : Idx}
    (h1 : cs[k]? = some (C, h)) (h2 : cs[k']? = some (C', h)) : k = k' :=
  (List.getElem?_inj (l := cs.map Prod.snd) (by simpa using (List.getElem?_eq_some_iff.1 h1).1) hnd).1 (by simp [h1, h2])

theorem serInv_distinct {kind : Kind} {evs : List Event} {b : Baseline} {cs : List (ContractTy × Idx)}
    (hP : Storable evs b cs) (hH : History kind evs b) (hnd : (cs.map Prod.snd).Nodup)
    {s : Ser} {W : List WObj} {S : List WSlot} (hI : SerInv b s cs W S) : Distinct evs b cs W S := by
  have hB := history_binv hH
  have hlist : ∀ w ∈ W, (w.C, w.h) ∈ cs ∧ w.o ∈ objectsOf b w.h := by
    intro w hw
    have hk := hI.num w hw
    refine ⟨List.mem_of_getElem? hk, ?_⟩
    obtain ⟨cd, e1, e2⟩ := hI.members w.k w.C w.h hk
    unfold objectsOf
    rw [contractData_ok.2 e1]
    exact e2.mem_iff.1 (List.mem_map.2 ⟨w, List.mem_filter.2 ⟨hw, by simp⟩, rfl⟩)
  have hnodup : (W.map WObj.o).Nodup := by
    refine nodup_of_classes W WObj.o ?_ ?_
    · intro k
      cases hk : cs[k]? with
      | none =>
        rw [List.filter_eq_nil_iff.2]
        · simp
        · intro w hw; simp only [decide_eq_true_eq]; rintro rfl
          rw [hI.num w hw] at hk; cases hk
      | some e =>
        obtain ⟨C, h⟩ := e
        obtain ⟨cd, e1, e2⟩ := hI.members k C h hk
        exact e2.nodup_iff.2 (hB.c.nodup h cd e1)
    · intro w hw w' hw' e
      obtain ⟨a1, a2⟩ := hlist w hw
      obtain ⟨b1, b2⟩ := hlist w' hw'
      rw [← e] at b2
      have : w.h = w'.h := listed_once hH a2 b2
      have n1 := hI.num w hw
      have n2 := hI.num w' hw'
      rw [← this] at n2
      exact snd_inj hnd n1 n2
  have hobjs : ∀ (p p' : Nat) (w w' : WObj), W[p]? = some w → W[p']? = some w' → w.o = w'.o → p = p' := by
    intro p p' w w' h1 h2 e
    exact (List.getElem?_inj (l := W.map WObj.o) (by simpa using (List.getElem?_eq_some_iff.1 h1).1) hnodup).1
      (by simp [h1, h2, e])
  refine ⟨hlist, hobjs, ?_, ?_, ?_⟩
  · intro i i' x x' h1 h2 hty hhnd
    obtain ⟨p, w, n, f, a1, rfl, a3⟩ := hI.objs.cover i x h1
    obtain ⟨p', w', n', f', b1, rfl, b3⟩ := hI.objs.cover i' x' h2
    obtain ⟨y, c1, c2, c3⟩ := hI.objs.fields p w a1 n f a3
    rw [h1] at c1; injection c1 with c1; subst c1
    obtain ⟨y', d1, d2, d3⟩ := hI.objs.fields p' w' b1 n' f' b3
    rw [h2] at d1; injection d1 with d1; subst d1
    have own : ∀ (x : WSlot) (w : WObj) (n : Nat) (f : Field) (i : Nat), w ∈ W → S[i]? = some x → x.o = w.o →
        x.d = ⟨f.ty, ⟨n, w.h⟩⟩ → w.C.states[n]? = some f →
        Owns evs b.objects ContractTy.stateTypes ObjectD.states w.o n x.d.ty x.hnd := by
      intro x w n f i hw hx e1 e2 hf
      obtain ⟨g1, g2⟩ := hlist w hw
      obtain ⟨ob, q1, q2, q3, q4⟩ := hP.obj hH g1 (fun e => by rw [e] at hf; cases hf) g2
      obtain ⟨r1, _⟩ := hI.objs.slots.slots i x hx
      rw [hI.base, e1, e2, bindState_of_get q1] at r1
      have r1 := (bindIdx_ok.1 r1).2
      refine ⟨w.C, w.h, ob, q4, q1, ?_, r1⟩
      rw [e2]; simp [ContractTy.stateTypes, hf]
    have o1 := own x w n f _ (List.mem_of_getElem? a1) h1 c2 c3 a3
    have o2 := own x' w' n' f' _ (List.mem_of_getElem? b1) h2 d2 d3 b3
    rw [← hty, ← hhnd] at o2
    obtain ⟨e1, rfl⟩ := hB.o.aliasS _ _ _ _ _ _ o1 o2
    have := hobjs p p' w w' a1 b1 e1
    subst this
    rw [a1] at b1; injection b1 with b1; subst b1
    rfl
  · intro C h o hC ho
    obtain ⟨k, hk⟩ := List.getElem?_of_mem hC
    obtain ⟨cd, e1, e2⟩ := hI.members k C h hk
    have ho : o ∈ cd.objects := by unfold objectsOf at ho; rw [contractData_ok.2 e1] at ho; exact ho
    obtain ⟨w, hw, rfl⟩ := List.mem_map.1 (e2.mem_iff.2 ho)
    obtain ⟨hw, hwk⟩ := List.mem_filter.1 hw
    simp only [decide_eq_true_eq] at hwk
    have := hI.num w hw
    rw [hwk, hk] at this
    injection this with this; injection this with t1 t2
    exact ⟨w, hw, rfl, t1.symm, t2.symm⟩
  · intro p p' n n' w w' h1 h2 hn hn' e
    obtain ⟨x, a1, a2, a3⟩ := hI.objs.fields p w h1 n _ (List.getElem?_eq_getElem hn)
    obtain ⟨x', b1, b2, b3⟩ := hI.objs.fields p' w' h2 n' _ (List.getElem?_eq_getElem hn')
    rw [e, b1] at a1; injection a1 with a1; subst a1
    have := hobjs p p' w w' h1 h2 (a2.symm.trans b2)
    subst this
    rw [h1] at h2; injection h2 with h2; subst h2
    exact ⟨rfl, by omega⟩

/-- The finished buffer, in terms of what was written. -/
structure Output (cs : List (ContractTy × Idx)) (W : List WObj) (S : List WSlot) (buf : FbBaseline) : Prop where
  contracts : ∃ tbls, buf.contracts = some tbls ∧ cs.map (fun e => Ser.contractTable e.1) = tbls.map Outcome.ok
  objects : buf.objects = some (W.map WObj.table)
  states : ∃ sts, buf.states = some sts ∧ sts.length = S.length
  slots : ∀ (i : Nat) (x : WSlot), S[i]? = some x → ∃ v, StateAt buf i v ∧
    Denotes (fun c h => ∃ C, cs[c]? = some (C, h)) (fun r o => ∃ w, W[r]? = some w ∧ w.o = o) v (noSign x.prop)

theorem resolved_of_closed {kind : Kind} {evs : List Event} {b : Baseline} {cs : List (ContractTy × Idx)}
    (hP : Storable evs b cs) (hH : History kind evs b) (hnd : (cs.map Prod.snd).Nodup) (hcl : Closed b cs)
    {s : Ser} {W : List WObj} {S : List WSlot} (hI : SerInv b s cs W S) : ∀ x ∈ S, ¬ Unresolved cs W x := by
  have hD := serInv_distinct hP hH hnd hI
  intro x hx hu
  obtain ⟨i, hi⟩ := List.getElem?_of_mem hx
  obtain ⟨p, w, n, f, a1, rfl, a3⟩ := hI.objs.cover i x hi
  obtain ⟨y, c1, c2, c3⟩ := hI.objs.fields p w a1 n f a3
  rw [hi] at c1; injection c1 with c1; subst c1
  obtain ⟨r1, r2, _⟩ := hI.objs.slots.slots _ x hi
  rw [hI.base] at r1 r2
  obtain ⟨l1, l2⟩ := hD.listed w (List.mem_of_getElem? a1)
  rcases x with ⟨o, d, hnd', v⟩
  simp only at c2 c3 r1 r2
  subst c2 c3
  simp only at r1 r2
  rcases hu with ⟨o', e1, e2⟩ | ⟨h', e1, e2⟩
  · simp only [WSlot.prop] at e1
    have ht := congrArg DynProp.propType e1
    rw [DynProp.propType_ofTyped] at ht
    obtain ⟨nm, ty⟩ := f
    have ht : ty = .prim .objectHandle := ht
    subst ht
    have hv : v = o' := by simpa [DynProp.ofTyped] using e1
    subst hv
    obtain ⟨C', h', g1, g2⟩ := hcl.objects w.C w.h w.o n _ v l1 l2 a3 rfl ⟨hnd', r1, r2⟩
    obtain ⟨w', q1, q2, _⟩ := hD.cover C' h' v g1 g2
    exact e2 w' q1 q2
  · simp only [WSlot.prop] at e1
    have ht := congrArg DynProp.propType e1
    rw [DynProp.propType_ofTyped] at ht
    obtain ⟨nm, ty⟩ := f
    have ht : ty = .prim .contractDataHandle := ht
    subst ht
    have hv : v = h' := by simpa [DynProp.ofTyped] using e1
    subst hv
    obtain ⟨C', g1⟩ := hcl.contracts w.C w.h w.o n _ v l1 l2 a3 rfl ⟨hnd', r1, r2⟩
    exact e2 C' g1

theorem ofNat_inj {w a b : Nat} (ha : a < 2 ^ w) (hb : b < 2 ^ w) (h : BitVec.ofNat w a = BitVec.ofNat w b) : a = b := by
  have := congrArg BitVec.toNat h
  simpa [BitVec.toNat_ofNat, Nat.mod_eq_of_lt ha, Nat.mod_eq_of_lt hb] using this

theorem Spec.Denotes.imp {c1 o1 c2 o2 : Nat → Idx → Prop} {v : FbVal} {p : DynProp} (h : Denotes c1 o1 v p)
    (hc : ∀ (c : BitVec 16) (h : Idx), c1 c.toNat h → c2 c.toNat h)
    (ho : ∀ (c : BitVec 32) (h : Idx), o1 c.toNat h → o2 c.toNat h) :
    Denotes c2 o2 v p := by
  cases h with
  | object r o h => exact .object r o (ho _ _ h)
  | contract c h h' => exact .contract c h (hc _ _ h')
  | _ => constructor

theorem finish_output {kind : Kind} {evs : List Event} {b : Baseline} {cs : List (ContractTy × Idx)}
    (hP : Storable evs b cs) (hH : History kind evs b) (hnd : (cs.map Prod.snd).Nodup)
    (hobj : objectCount b cs ≤ 2 ^ 32)
    {s : Ser} {W : List WObj} {S : List WSlot} (hI : SerInv b s cs W S) (hres : ∀ x ∈ S, ¬ Unresolved cs W x)
    (ordC ordO : IterOrder (Idx × Nat)) :
    ∃ out buf, s.finish ordC ordO = .ok out ∧ out.decode = some buf ∧ Output cs W S buf := by
  have hD := serInv_distinct hP hH hnd hI
  rcases ser_finish_spec hI ordC ordO with ⟨⟨x, hx, hu⟩, _⟩ | ⟨_, out, a1, a2, a3, a4, a5⟩
  · exact absurd hu (hres x hx)
  · have hnoted : ∀ (t : PropType) (m : BiMap Idx Nat), Noted t m S → ∀ (i : Nat) (x : WSlot), S[i]? = some x →
        x.d.ty = t → (x.hnd, i) ∈ m.pairs := by
      intro t m hN i x hx ht
      obtain ⟨i', hi'⟩ := hN.all i x hx ht
      obtain ⟨x', e1, e2, e3⟩ := hN.pair _ _ hi'
      have := hD.slot i i' x x' hx e1 (ht.trans e2.symm) e3.symm
      rw [this]; exact hi'
    have hslot : ∀ (i : Nat) (x : WSlot), S[i]? = some x → ∃ v, out.states[i]? = some (some v) ∧
        Denotes (fun c h => ∃ C, cs[c]? = some (C, h)) (fun r o => ∃ w, W[r]? = some w ∧ w.o = o) v (noSign x.prop) := by
      intro i x hx
      rcases a5 i x hx with ⟨v, b1, _, _, b4⟩ | ⟨_, ⟨c1, c2⟩ | ⟨c1, c2⟩⟩
      · refine ⟨v, b1, b4.imp ?_ ?_⟩
        · rintro c h ⟨k, e1, e2⟩
          obtain ⟨C, e3⟩ := hI.cPair h k e2
          have hk := (List.getElem?_eq_some_iff.1 e3).1
          have := ofNat_inj (w := 16) (by have := hP.few; omega) c.isLt e1
          exact ⟨C, by rw [← this]; exact e3⟩
        · rintro c o ⟨k, e1, e2⟩
          obtain ⟨w, e3, e4⟩ := hI.objs.oPair o k e2
          have hk := (List.getElem?_eq_some_iff.1 e3).1
          have hw := hI.wTotal
          have := ofNat_inj (w := 32) (by omega) c.isLt e1
          exact ⟨w, by rw [← this]; exact e3, e4⟩
      · exact absurd (hnoted _ _ hI.objs.slots.obj i x hx c1) c2
      · exact absurd (hnoted _ _ hI.objs.slots.con i x hx c1) c2
    obtain ⟨sts, f1, f2⟩ := filled_some (sts := out.states) (by
      intro sl hsl
      obtain ⟨i, hi⟩ := List.getElem?_of_mem hsl
      have hl := (List.getElem?_eq_some_iff.1 hi).1
      rw [a4] at hl
      obtain ⟨v, hv, _⟩ := hslot i _ (List.getElem?_eq_getElem hl)
      rw [hi] at hv; injection hv with hv; exact ⟨v, hv⟩)
    refine ⟨out, _, a1, by unfold FbOut.decode; rw [f1]; rfl, ⟨⟨_, rfl, by rw [a2]; exact hI.tables⟩, ?_, ⟨sts, rfl, ?_⟩, ?_⟩⟩
    · simp only [a3, hI.objs.objs]
    · rw [← a4, ← f2]; simp
    · intro i x hx
      obtain ⟨v, hv, hd⟩ := hslot i x hx
      refine ⟨v, ⟨sts, rfl, ?_⟩, hd⟩
      rw [← f2, List.getElem?_map, Option.map_eq_some_iff] at hv
      obtain ⟨v', e1, e2⟩ := hv
      injection e2 with e2; subst e2; exact e1

/-! ## The size of the output -/

theorem sum_const {α : Type} {l : List α} {f : α → Nat} {c : Nat} (h : ∀ x ∈ l, f x = c) :
    (l.map f).sum = c * l.length := by
  induction l with
  | nil => rfl
  | cons x l ih =>
    simp only [List.map_cons, List.sum_cons, List.length_cons, h x (by simp), ih (fun y hy => h y (by simp [hy])),
      Nat.mul_add]
    omega

theorem denotes_tables {c o : Nat → Idx → Prop} {v : FbVal} {p : DynProp} (h : Denotes c o v p) : v.tables = 2 := by
  cases h <;> rfl

theorem Output.tables {b : Baseline} {s : Ser} {cs : List (ContractTy × Idx)} {W : List WObj} {S : List WSlot}
    {buf : FbBaseline} (hI : SerInv b s cs W S) (hO : Output cs W S buf) : buf.tables = savedTables b cs := by
  obtain ⟨tbls, h1, h2⟩ := hO.contracts
  obtain ⟨sts, h3, h4⟩ := hO.states
  have hl : tbls.length = cs.length := by have := congrArg List.length h2; simpa using this.symm
  have a1 : (tbls.map FbContract.tables).sum = 3 * tbls.length := sum_const (by
    intro t ht
    have : Outcome.ok t ∈ cs.map fun e => Ser.contractTable e.1 := by rw [h2]; exact List.mem_map.2 ⟨t, ht, rfl⟩
    obtain ⟨e, _, he⟩ := List.mem_map.1 this
    obtain ⟨d1, k, d2, _⟩ := contractTable_describes he
    unfold FbContract.tables
    rw [d1, d2]; rfl)
  have a2 : (sts.map FbVal.tables).sum = 2 * sts.length := sum_const (by
    intro v hv
    obtain ⟨i, hi⟩ := List.getElem?_of_mem hv
    have hl := (List.getElem?_eq_some_iff.1 hi).1
    obtain ⟨v', ⟨sts', e1, e2⟩, e3⟩ := hO.slots i _ (List.getElem?_eq_getElem (show i < S.length by omega))
    rw [h3] at e1; injection e1 with e1; subst e1
    rw [hi] at e2; injection e2 with e2; subst e2
    exact denotes_tables e3)
  have a3 : ∀ W : List WObj, ((W.map WObj.table).map FbObject.tables).sum =
      2 * W.length + (W.map fun w => w.C.states.length).sum := by
    intro W
    induction W with
    | nil => rfl
    | cons w W ih =>
      simp only [List.map_cons, List.sum_cons, List.length_cons, ih]
      simp only [FbObject.tables, WObj.table, Option.getD_some, List.length_map, List.length_range]
      simp; omega
  unfold FbBaseline.tables savedTables
  rw [h1, h3, hO.objects]
  simp only [Option.getD_some]
  rw [a1, a2, a3, ← hI.objs.total, hI.wTotal, hl, h4, hI.sTotal]
  omega

/-! ## The output is restorable -/

theorem Output.con {cs : List (ContractTy × Idx)} {W : List WObj} {S : List WSlot} {buf : FbBaseline}
    (hO : Output cs W S buf) (hids : (cs.map fun e => e.1.id).Nodup) {k : Nat} {C : ContractTy} {h : Idx}
    (hk : cs[k]? = some (C, h)) : ContractNo buf C k := by
  obtain ⟨tbls, h1, h2⟩ := hO.contracts
  have htbl : ∀ (j : Nat) (C' : ContractTy) (h' : Idx), cs[j]? = some (C', h') → ∃ t, tbls[j]? = some t ∧ Describes t C' := by
    intro j C' h' hj
    have : (cs.map fun e => Ser.contractTable e.1)[j]? = some (Ser.contractTable C') := by simp [hj]
    rw [h2, List.getElem?_map, Option.map_eq_some_iff] at this
    obtain ⟨t, e1, e2⟩ := this
    exact ⟨t, e1, contractTable_describes e2.symm⟩
  obtain ⟨t, e1, e2⟩ := htbl k C h hk
  refine ⟨tbls, t, h1, e1, e2, ?_⟩
  intro j c' hj hc' hd
  have hlt : j < cs.length := by have := (List.getElem?_eq_some_iff.1 hk).1; omega
  rcases hcs : cs[j] with ⟨C', h'⟩
  have hj' : cs[j]? = some (C', h') := by rw [List.getElem?_eq_getElem hlt, hcs]
  obtain ⟨t', g1, g2⟩ := htbl j C' h' hj'
  rw [hc'] at g1; injection g1 with g1; subst g1
  have e := hd.1.symm.trans g2.1
  have hid : C.id = C'.id := by
    simp only [Option.some.injEq, FbContractId.mk.injEq] at e
    obtain ⟨a, b⟩ := e
    cases hC : C.id; cases hC' : C'.id
    rw [hC, hC'] at a b
    simp only at a b
    rw [a, b]
  have := (List.getElem?_inj (i := j) (j := k) (l := cs.map fun e => e.1.id) (by simpa using hlt) hids).1
    (by simp [hj', hk, hid])
  omega

theorem contractNo_unique {buf : FbBaseline} {C : ContractTy} {k k' : Nat} (h : ContractNo buf C k)
    (h' : ContractNo buf C k') : k = k' := by
  have a := findSerialized_iff.2 h
  rw [findSerialized_iff.2 h'] at a; injection a with a; exact a.symm

theorem Output.con_inv {cs : List (ContractTy × Idx)} {W : List WObj} {S : List WSlot} {buf : FbBaseline}
    (hO : Output cs W S buf) (hids : (cs.map fun e => e.1.id).Nodup) {k : Nat} {C : ContractTy}
    (hC : C ∈ cs.map Prod.fst) (hk : ContractNo buf C k) : ∃ h, cs[k]? = some (C, h) := by
  obtain ⟨⟨C', h⟩, he, rfl⟩ := List.mem_map.1 hC
  obtain ⟨j, hj⟩ := List.getElem?_of_mem he
  have := contractNo_unique (hO.con hids hj) hk
  subst this
  exact ⟨h, hj⟩

theorem Output.obj {cs : List (ContractTy × Idx)} {W : List WObj} {S : List WSlot} {buf : FbBaseline}
    (hO : Output cs W S buf) {p : Nat} {obj : FbObject} : ObjectAt buf p obj ↔ ∃ w, W[p]? = some w ∧ obj = w.table := by
  unfold ObjectAt
  rw [hO.objects]
  constructor
  · rintro ⟨objs, h1, h2⟩
    injection h1 with h1; subst h1
    rw [List.getElem?_map, Option.map_eq_some_iff] at h2
    obtain ⟨w, e1, e2⟩ := h2
    exact ⟨w, e1, e2.symm⟩
  · rintro ⟨w, h1, rfl⟩
    exact ⟨_, rfl, by simp [h1]⟩

theorem stateIdxs_table {w : WObj} {N : Nat} (hN : N ≤ 2 ^ 32) (h : ∀ n < w.C.states.length, w.start + n < N) :
    stateIdxs w.table = (List.range w.C.states.length).map fun n => w.start + n := by
  unfold stateIdxs WObj.table
  simp only [Option.getD_some, List.map_map]
  apply List.map_congr_left
  intro n hn
  have := h n (List.mem_range.1 hn)
  simp only [Function.comp, BitVec.toNat_ofNat]
  omega

/-- The states of a written object. -/
theorem written_idx {b : Baseline} {s : Ser} {cs : List (ContractTy × Idx)} {W : List WObj} {S : List WSlot}
    (hI : SerInv b s cs W S) (hst : stateCount b cs ≤ 2 ^ 32) {p : Nat} {w : WObj} (hw : W[p]? = some w) :
    (stateIdxs w.table).length = w.C.states.length ∧
    ∀ n i : Nat, (stateIdxs w.table)[n]? = some i ↔ n < w.C.states.length ∧ i = w.start + n := by
  have hN := hI.sTotal
  have e := stateIdxs_table (w := w) (N := S.length) (by omega) (by
    intro n hn
    obtain ⟨x, hx, _⟩ := hI.objs.fields p w hw n _ (List.getElem?_eq_getElem hn)
    exact (List.getElem?_eq_some_iff.1 hx).1)
  rw [e]
  refine ⟨by simp, ?_⟩
  intro n i
  simp only [List.getElem?_map, Option.map_eq_some_iff]
  constructor
  · rintro ⟨m, h1, h2⟩
    obtain ⟨h3, h4⟩ := List.getElem?_eq_some_iff.1 h1
    simp at h3 h4
    exact ⟨h3, by omega⟩
  · rintro ⟨h1, h2⟩
    exact ⟨n, by rw [List.getElem?_eq_getElem (by simpa using h1)]; simp, h2.symm⟩

theorem output_restorable {kind : Kind} {evs : List Event} {b : Baseline} {cs : List (ContractTy × Idx)}
    (hP : Storable evs b cs) (hH : History kind evs b) (hnd : (cs.map Prod.snd).Nodup)
    (hids : (cs.map fun e => e.1.id).Nodup) (hst : stateCount b cs ≤ 2 ^ 32)
    {s : Ser} {W : List WObj} {S : List WSlot} (hI : SerInv b s cs W S) {buf : FbBaseline} (hO : Output cs W S buf)
    {Cs : List ContractTy} (hCs : ∀ C : ContractTy, C ∈ Cs ↔ C ∈ cs.map Prod.fst) : Restorable buf Cs := by
  have hD := serInv_distinct hP hH hnd hI
  -- every state of every object was written
  have hslot : ∀ (p i : Nat) (obj : FbObject), ObjectAt buf p obj → i ∈ stateIdxs obj → ∃ x v, S[i]? = some x ∧
      StateAt buf i v ∧ Denotes (fun c h => ∃ C, cs[c]? = some (C, h)) (fun r o => ∃ w, W[r]? = some w ∧ w.o = o) v (noSign x.prop) := by
    intro p i obj ho hi
    obtain ⟨w, hw, rfl⟩ := hO.obj.1 ho
    obtain ⟨n, hn⟩ := List.getElem?_of_mem hi
    obtain ⟨h1, rfl⟩ := ((written_idx hI hst hw).2 n i).1 hn
    obtain ⟨x, hx, _⟩ := hI.objs.fields p w hw n _ (List.getElem?_eq_getElem h1)
    obtain ⟨v, hv, hd⟩ := hO.slots _ x hx
    exact ⟨x, v, hx, hv, hd⟩
  have same : ∀ (i : Nat) (v v' : FbVal), StateAt buf i v → StateAt buf i v' → v = v' := by
    rintro i v v' ⟨s1, a1, a2⟩ ⟨s2, b1, b2⟩
    rw [a1] at b1; injection b1 with b1; subst b1
    rw [a2] at b2; injection b2
  refine ⟨?_, ?_, ?_, ?_, ?_, ?_, ?_⟩
  · intro C hC
    obtain ⟨⟨C', h⟩, he, rfl⟩ := List.mem_map.1 ((hCs C).1 hC)
    obtain ⟨k, hk⟩ := List.getElem?_of_mem he
    exact ⟨k, hO.con hids hk⟩
  · intro _ _ _ _ _; obtain ⟨sts, h, _⟩ := hO.states; exact ⟨sts, h⟩
  · intro C k p obj c hC hk ho hc hck
    refine ⟨⟨c, hc, hck⟩, ?_⟩
    obtain ⟨w, hw, rfl⟩ := hO.obj.1 ho
    have hkl := (List.getElem?_eq_some_iff.1 (hI.num w (List.mem_of_getElem? hw))).1
    have hwk : w.k = k := by
      simp only [WObj.table, Option.some.injEq] at hc
      subst hc
      have := hP.few
      simp at hck; omega
    obtain ⟨h, hk'⟩ := hO.con_inv hids ((hCs C).1 hC) hk
    have hn := hI.num w (List.mem_of_getElem? hw)
    rw [hwk, hk'] at hn
    injection hn with hn; injection hn with n1 n2
    subst n1
    obtain ⟨l1, l2⟩ := written_idx hI hst hw
    refine ⟨l1, ?_⟩
    intro n i f h1 h2
    obtain ⟨_, rfl⟩ := (l2 n i).1 h1
    obtain ⟨x, hx, _, hxd⟩ := hI.objs.fields p w hw n f h2
    obtain ⟨v, hv, hd⟩ := hO.slots _ x hx
    have := denotes_prop hd
    rw [noSign_propType, WSlot.prop, DynProp.propType_ofTyped, hxd, Option.map_eq_some_iff] at this
    obtain ⟨q, e1, e2⟩ := this
    exact ⟨v, q, hv, e1, e2.symm⟩
  · intro p p' n n' i obj obj' _ _ _ h1 h2 h3 h4 _
    obtain ⟨w, hw, rfl⟩ := hO.obj.1 h1
    obtain ⟨w', hw', rfl⟩ := hO.obj.1 h2
    obtain ⟨a1, rfl⟩ := ((written_idx hI hst hw).2 n i).1 h3
    obtain ⟨b1, b2⟩ := ((written_idx hI hst hw').2 n' _).1 h4
    exact hD.own p p' n n' w w' hw hw' a1 b1 b2
  · intro p i obj _ ho hi hs
    obtain ⟨x, v, _, h1, h2⟩ := hslot p i obj ho hi
    have := same i _ _ hs h1
    subst this
    cases h2
  · intro p i obj c _ ho hi hs
    obtain ⟨x, v, _, h1, h2⟩ := hslot p i obj ho hi
    have := same i _ _ hs h1
    subst this
    generalize noSign x.prop = q at h2
    cases h2 with
    | contract _ h hc =>
      obtain ⟨C, hC⟩ := hc
      exact ⟨C, (hCs C).2 (List.mem_map.2 ⟨(C, h), List.mem_of_getElem? hC, rfl⟩), hO.con hids hC⟩
  · intro p i obj r _ ho hi hs
    obtain ⟨x, v, _, h1, h2⟩ := hslot p i obj ho hi
    have := same i _ _ hs h1
    subst this
    generalize noSign x.prop = q at h2
    cases h2 with
    | object _ o hc =>
      obtain ⟨w, hw, _⟩ := hc
      have hn := hI.num w (List.mem_of_getElem? hw)
      have hkl := (List.getElem?_eq_some_iff.1 hn).1
      refine ⟨w.C, (hCs _).2 (List.mem_map.2 ⟨_, List.mem_of_getElem? hn, rfl⟩), w.k, w.table, BitVec.ofNat 16 w.k,
        hO.con hids hn, hO.obj.2 ⟨w, hw, rfl⟩, rfl, ?_⟩
      have := hP.few
      simp; omega

end Verif
