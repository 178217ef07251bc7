import Verif.Spec.Text
import Verif.Props.RestoreIff
import Verif.Props.RoundTripTest
/-!
# C121: restoring does not multiply the data
-/
namespace Verif.Props
open Verif Spec Arena Baseline Store

theorem sum_flatMap {α : Type} (l : List α) (f : α → List Nat) : (l.flatMap f).sum = (l.map fun a => (f a).sum).sum := by
  induction l with
  | nil => rfl
  | cons a l ih => simp [List.sum_append, ih]

theorem fieldText_of {b : Baseline} {C : ContractTy} {h o j : Idx} {n i : Nat} {f : Field} {buf : FbBaseline} {v : FbVal}
    {val : f.ty.Carrier} {con obj : Nat → Idx → Prop} {p : PrimType} (hf : C.states[n]? = some f) (hb : b.bindState ⟨n, h⟩ o = .ok j)
    (hv : StateAt buf i v) (hs : b.state f.ty j = .ok val) (hd : Denotes con obj v (DynProp.ofTyped f.ty val))
    (hp : valPrim v = some p) (hfp : f.ty = .prim p) : fieldText b C h o n = textAt buf i := by
  obtain ⟨sts, e1, e2⟩ := hv
  have ht : textAt buf i = valText v := by unfold textAt; rw [e1]; simp [e2]
  rw [ht]
  obtain ⟨name, ty⟩ := f
  simp only at hfp; subst hfp
  unfold fieldText
  rw [hf]; simp only
  by_cases hstr : p = .string
  · subst hstr
    rw [if_pos rfl, hb]; simp only
    simp only at hs
    rw [hs]; simp only
    have hd : Denotes con obj v (.primitive (.string val)) := hd
    cases hd
    rfl
  · rw [if_neg (by intro e; injection e with e; exact hstr e)]
    cases v <;> simp_all [valPrim, valText]

theorem objectOf_lt {buf : FbBaseline} {Cs : List ContractTy} {p : Nat} (h : ObjectOf buf Cs p) :
    p < (buf.objects.getD []).length := by
  obtain ⟨_, _, _, _, _, _, ⟨objs, e1, e2⟩, _⟩ := h
  rw [e1]
  exact (List.getElem?_eq_some_iff.1 e2).1

theorem mem_askedFor {buf : FbBaseline} {Cs : List ContractTy} {p : Nat} : p ∈ askedFor buf Cs ↔ ObjectOf buf Cs p := by
  unfold askedFor
  simp only [List.mem_filter, List.mem_range, decide_eq_true_eq]
  exact ⟨fun h => h.2, fun h => ⟨objectOf_lt h, h⟩⟩

theorem askedFor_nodup (buf : FbBaseline) (Cs : List ContractTy) : (askedFor buf Cs).Nodup :=
  List.Nodup.sublist List.filter_sublist List.nodup_range

/-- **C121, partial: exactly how much.** A restored baseline holds exactly the text that the object tables of the requested
contract types refer to, each reference counted. -/
theorem C121_exact_partial {buf : FbBaseline} {kind : Kind} {Cs : List ContractTy} {sched : IterOrder (ContractTy × Idx)}
    {ord : IterOrder (Nat × Idx)} {hord : HashOrder} {cs : List (ContractTy × Idx)} {b : Baseline}
    (h : restore buf kind Cs sched ord hord = .ok (cs, b)) : heldText b cs = askedText buf Cs := by
  obtain ⟨a1, a2, a3, a4, a5⟩ := (C62_restore_iff buf kind Cs sched ord hord).1 ⟨cs, b, h⟩
  obtain ⟨cs', b', number, r1, r2, r3, r4, r5, r6, r7, r8⟩ := C62_complete_buffers_restore a2 a3 a4 a5 a1 kind sched ord hord
  rw [h] at r1; injection r1 with r1; injection r1 with e e'; subst e e'
  obtain ⟨_, evs, hH, _⟩ := restore_typed h a3
  have hB := history_binv hH
  -- the objects
  have hmem : ∀ (C : ContractTy) (k o : Idx), (C, k) ∈ cs → (o ∈ objectsOf b k ↔ ∃ ob, b.object o = .ok ob ∧ ob.contract = k) := by
    intro C k o hm
    obtain ⟨cd, e1, _, e2⟩ := r4 C k hm
    rw [objectsOf_eq e1]; exact e2 o
  have hobj : ∀ e ∈ cs, ∀ o ∈ objectsOf b e.2,
      ((List.range e.1.states.length).map (fieldText b e.1 e.2 o)).sum = objText buf (number o) := by
    rintro ⟨C, k⟩ hm o ho
    obtain ⟨ob, e1, e2⟩ := (hmem C k o hm).1 ho
    obtain ⟨C', k', obj, m1, m2, m3, m4, m5, _, _, m8⟩ := r8 o ob e1
    rw [e2] at m1
    have hC : C' = C := congrArg Prod.fst (List.inj_on_of_nodup_map r3 m1 hm rfl)
    subst hC
    obtain ⟨objs, o1, o2⟩ := m3
    have hO : objText buf (number o) = ((stateIdxs obj).map (textAt buf)).sum := by
      unfold objText; rw [o1]; simp [o2]
    rw [hO]
    congr 1
    obtain ⟨_, w1, w2⟩ := m4
    apply List.ext_getElem
    · simp [w1]
    · intro n n1 n2
      simp only [List.length_map, List.length_range] at n1
      simp only [List.getElem_map, List.getElem_range]
      have n3 : n < (stateIdxs obj).length := by omega
      have n4 : n < ob.states.length := by omega
      obtain ⟨v, val, q1, q2, q3⟩ := m8 n (stateIdxs obj)[n] C'.states[n] ob.states[n] (List.getElem?_eq_getElem n1)
        (List.getElem?_eq_getElem n3) (List.getElem?_eq_getElem n4)
      obtain ⟨v', p, q4, q5, q6⟩ := w2 n (stateIdxs obj)[n] C'.states[n] (List.getElem?_eq_getElem n3) (List.getElem?_eq_getElem n1)
      have hvv : v' = v := by
        obtain ⟨s1, t1, t2⟩ := q1
        obtain ⟨s2, t3, t4⟩ := q4
        rw [t1] at t3; cases t3; rw [t2] at t4; cases t4; rfl
      subst hvv
      have hb : b.bindState ⟨n, k⟩ o = .ok ob.states[n] := by
        unfold Baseline.bindState; rw [object_ok.1 e1]; simp only
        exact bindIdx_ok.2 ⟨e2.symm, List.getElem?_eq_getElem n4⟩
      exact fieldText_of (List.getElem?_eq_getElem n1) hb q1 q2 q3 q5 q6
  have hsum : heldText b cs = ((cs.flatMap fun e => objectsOf b e.2).map fun o => objText buf (number o)).sum := by
    unfold heldText
    rw [List.map_flatMap, sum_flatMap]
    congr 1
    exact List.map_congr_left fun e he => by
      congr 1
      exact List.map_congr_left fun o ho => hobj e he o ho
  have hnd : (cs.flatMap fun e => objectsOf b e.2).Nodup := by
    rw [List.nodup_flatMap]
    refine ⟨fun e he => ?_, ?_⟩
    · obtain ⟨cd, e1, _, _⟩ := r4 e.1 e.2 he
      rw [objectsOf_eq e1]
      exact hB.c.nodup _ _ (contractData_ok.1 e1)
    · have : cs.Pairwise fun e e' => e.2 ≠ e'.2 := List.pairwise_map.1 r3
      refine this.imp_of_mem ?_
      intro e e' he he' hne o ho ho'
      obtain ⟨ob, g1, g2⟩ := (hmem e.1 e.2 o he).1 ho
      obtain ⟨ob', g3, g4⟩ := (hmem e'.1 e'.2 o he').1 ho'
      rw [g1] at g3; cases g3
      exact hne (g2.symm.trans g4)
  have hlive : ∀ o : Idx, o ∈ (cs.flatMap fun e => objectsOf b e.2) ↔ ∃ ob, b.object o = .ok ob := by
    intro o
    rw [List.mem_flatMap]
    constructor
    · rintro ⟨e, he, ho⟩
      obtain ⟨ob, g1, _⟩ := (hmem e.1 e.2 o he).1 ho
      exact ⟨ob, g1⟩
    · rintro ⟨ob, e1⟩
      obtain ⟨C', k', obj, m1, _⟩ := r8 o ob e1
      exact ⟨_, m1, (hmem _ _ o m1).2 ⟨ob, e1, rfl⟩⟩
  have hperm : ((cs.flatMap fun e => objectsOf b e.2).map number).Perm (askedFor buf Cs) := by
    refine (List.perm_ext_iff_of_nodup ?_ (askedFor_nodup buf Cs)).2 fun p => ?_
    · refine List.Nodup.map_on (fun x hx y hy e => ?_) hnd
      obtain ⟨ob, e1⟩ := (hlive x).1 hx
      obtain ⟨ob', e2⟩ := (hlive y).1 hy
      exact r6 x y ob ob' e1 e2 e
    · rw [mem_askedFor, List.mem_map]
      constructor
      · rintro ⟨o, ho, rfl⟩
        obtain ⟨ob, e1⟩ := (hlive o).1 ho
        obtain ⟨C', k', obj, m1, m2, m3, m4, _⟩ := r8 o ob e1
        obtain ⟨⟨c, c1, c2⟩, _⟩ := m4
        exact ⟨C', by rw [← r2]; exact List.mem_map.2 ⟨_, m1, rfl⟩, k', obj, c, m2, m3, c1, c2⟩
      · intro hp
        obtain ⟨o, ob, e1, e2⟩ := r7 p hp
        exact ⟨o, (hlive o).2 ⟨ob, e1⟩, e2⟩
  rw [hsum]
  unfold askedText
  rw [← perm_sum (hperm.map (objText buf)), List.map_map]
  rfl

/-! ## Bounds -/

theorem sum_le_of_nodup {l : List Nat} (hl : l.Nodup) {f : Nat → Nat} {N : Nat} (hz : ∀ i : Nat, N ≤ i → f i = 0) :
    (l.map f).sum ≤ ((List.range N).map f).sum := by
  have h1 : (l.map f).sum = ((l.filter fun i => decide (i < N)).map f).sum := by
    clear hl
    induction l with
    | nil => rfl
    | cons a l ih =>
      by_cases ha : a < N
      · rw [List.filter_cons_of_pos (by simpa using ha)]; simp [ih]
      · rw [List.filter_cons_of_neg (by simpa using ha), List.map_cons, List.sum_cons, hz a (by omega), ih]; omega
  rw [h1]
  have hn : (l.filter fun i => decide (i < N)).Nodup := hl.sublist List.filter_sublist
  obtain ⟨l', hp, hs⟩ := List.subperm_of_subset hn (l₂ := List.range N) (by
    intro a ha; simpa using (List.mem_filter.1 ha).2)
  rw [← perm_sum (hp.map f)]
  exact (hs.map f).sum_le_sum fun _ _ => Nat.zero_le _

theorem range_textAt (buf : FbBaseline) :
    ((List.range (buf.states.getD []).length).map (textAt buf)).sum = bufText buf := by
  unfold bufText
  congr 1
  apply List.ext_getElem
  · simp
  · intro n h1 h2
    simp only [List.length_map, List.length_range] at h1
    simp [textAt, List.getElem?_eq_getElem h1]

theorem askedFor_obj {buf : FbBaseline} {Cs : List ContractTy} {p : Nat} (h : p ∈ askedFor buf Cs) :
    ∃ obj, ObjectAt buf p obj ∧ obj.contract.isSome = true ∧ objText buf p = ((stateIdxs obj).map (textAt buf)).sum := by
  obtain ⟨_, _, _, obj, c, _, ⟨objs, e1, e2⟩, e3, _⟩ := mem_askedFor.1 h
  refine ⟨obj, ⟨objs, e1, e2⟩, by rw [e3]; rfl, ?_⟩
  unfold objText; rw [e1]; simp [e2]

/-- **C121, partial: without sharing, no more.** If no two of the states asked for have the same number, the restored baseline
holds no more text than the buffer. -/
theorem C121_unshared_partial {buf : FbBaseline} {kind : Kind} {Cs : List ContractTy} {sched : IterOrder (ContractTy × Idx)}
    {ord : IterOrder (Nat × Idx)} {hord : HashOrder} {cs : List (ContractTy × Idx)} {b : Baseline}
    (h : restore buf kind Cs sched ord hord = .ok (cs, b))
    (hown : ∀ (p p' n n' i : Nat) (obj obj' : FbObject), ObjectOf buf Cs p → ObjectOf buf Cs p' → ObjectAt buf p obj →
      ObjectAt buf p' obj' → (stateIdxs obj)[n]? = some i → (stateIdxs obj')[n']? = some i → p = p' ∧ n = n') :
    heldText b cs ≤ bufText buf := by
  rw [C121_exact_partial h]
  let idxs : Nat → List Nat := fun p => match (buf.objects.getD [])[p]? with | some obj => stateIdxs obj | none => []
  have hidx : ∀ (p : Nat) (obj : FbObject), ObjectAt buf p obj → idxs p = stateIdxs obj := by
    rintro p obj ⟨objs, e1, e2⟩
    show (match (buf.objects.getD [])[p]? with | some obj => stateIdxs obj | none => []) = _
    rw [e1]; simp [e2]
  have hsum : askedText buf Cs = (((askedFor buf Cs).flatMap idxs).map (textAt buf)).sum := by
    unfold askedText
    rw [List.map_flatMap, sum_flatMap]
    congr 1
    refine List.map_congr_left fun p hp => ?_
    obtain ⟨obj, o1, _, o2⟩ := askedFor_obj hp
    rw [o2, hidx p obj o1]
  have hnd : ((askedFor buf Cs).flatMap idxs).Nodup := by
    rw [List.nodup_flatMap]
    refine ⟨fun p hp => ?_, ?_⟩
    · obtain ⟨obj, o1, _, _⟩ := askedFor_obj hp
      rw [hidx p obj o1]
      refine nodup_of_getElem? fun n n' i e1 e2 => ?_
      exact (hown p p n n' i obj obj (mem_askedFor.1 hp) (mem_askedFor.1 hp) o1 o1 e1 e2).2
    · refine (askedFor_nodup buf Cs).imp_of_mem ?_
      intro p p' hp hp' hne i hi hi'
      obtain ⟨obj, o1, _, _⟩ := askedFor_obj hp
      obtain ⟨obj', o1', _, _⟩ := askedFor_obj hp'
      rw [hidx p obj o1] at hi
      rw [hidx p' obj' o1'] at hi'
      obtain ⟨n, e1⟩ := List.getElem?_of_mem hi
      obtain ⟨n', e2⟩ := List.getElem?_of_mem hi'
      exact hne (hown p p' n n' i obj obj' (mem_askedFor.1 hp) (mem_askedFor.1 hp') o1 o1' e1 e2).1
  rw [hsum, ← range_textAt]
  refine sum_le_of_nodup hnd fun i hi => ?_
  unfold textAt
  rw [List.getElem?_eq_none hi]

/-- **C121, partial: at most a million times.** If no string in the buffer is longer than `M` bytes, the restored baseline holds
at most 999,992 times as much. -/
theorem C121_bound_partial {buf : FbBaseline} {kind : Kind} {Cs : List ContractTy} {sched : IterOrder (ContractTy × Idx)}
    {ord : IterOrder (Nat × Idx)} {hord : HashOrder} {cs : List (ContractTy × Idx)} {b : Baseline}
    (h : restore buf kind Cs sched ord hord = .ok (cs, b)) {M : Nat} (hM : ∀ i : Nat, textAt buf i ≤ M) :
    heldText b cs ≤ 999992 * M := by
  obtain ⟨a1, a2, _⟩ := (C62_restore_iff buf kind Cs sched ord hord).1 ⟨cs, b, h⟩
  rw [C121_exact_partial h]
  by_cases hpos : askedText buf Cs = 0
  · omega
  -- some asked object has a state with text
  obtain ⟨p, hp, hp0⟩ : ∃ p ∈ askedFor buf Cs, objText buf p ≠ 0 := by
    refine Classical.byContradiction fun hne => hpos ?_
    unfold askedText
    refine List.sum_eq_zero_iff.2 fun x hx => ?_
    obtain ⟨p, hp, rfl⟩ := List.mem_map.1 hx
    exact Classical.byContradiction fun h0 => hne ⟨p, hp, h0⟩
  have hstates : 2 ≤ ((buf.states.getD []).map FbVal.tables).sum := by
    obtain ⟨obj, _, _, o2⟩ := askedFor_obj hp
    rw [o2] at hp0
    obtain ⟨i, hi⟩ : ∃ i, textAt buf i ≠ 0 := by
      refine Classical.byContradiction fun hne => hp0 ?_
      refine List.sum_eq_zero_iff.2 fun x hx => ?_
      obtain ⟨i, _, rfl⟩ := List.mem_map.1 hx
      exact Classical.byContradiction fun h0 => hne ⟨i, h0⟩
    unfold textAt at hi
    cases hv : (buf.states.getD [])[i]? with
    | none => rw [hv] at hi; exact absurd rfl hi
    | some v =>
      rw [hv] at hi
      have h2 : FbVal.tables v = 2 := by cases v <;> first | rfl | exact absurd rfl hi
      have := List.single_le_sum (l := (buf.states.getD []).map FbVal.tables) (fun _ _ => Nat.zero_le _) _
        (List.mem_map.2 ⟨v, List.mem_of_getElem? hv, rfl⟩)
      omega
  have hcons : 3 ≤ ((buf.contracts.getD []).map FbContract.tables).sum := by
    obtain ⟨C, _, k, _, _, ⟨cs', c, e1, e2, ⟨e3, _, e4, _⟩, _⟩, _⟩ := mem_askedFor.1 hp
    have h3 : FbContract.tables c = 3 := by unfold FbContract.tables; rw [e3, e4]; rfl
    rw [e1]
    have := List.single_le_sum (l := cs'.map FbContract.tables) (fun _ _ => Nat.zero_le _) _
      (List.mem_map.2 ⟨c, List.mem_of_getElem? e2, rfl⟩)
    simp only [Option.getD_some]
    omega
  let w : Nat → Nat := fun p => match (buf.objects.getD [])[p]? with | some obj => obj.tables | none => 0
  have hw : ((List.range (buf.objects.getD []).length).map w).sum = ((buf.objects.getD []).map FbObject.tables).sum := by
    congr 1
    apply List.ext_getElem
    · simp
    · intro n h1 h2
      simp only [List.length_map, List.length_range] at h1
      simp [w, List.getElem?_eq_getElem h1]
  have hle : ((askedFor buf Cs).map w).sum ≤ ((buf.objects.getD []).map FbObject.tables).sum := by
    rw [← hw]
    refine sum_le_of_nodup (askedFor_nodup buf Cs) fun i hi => ?_
    show (match (buf.objects.getD [])[i]? with | some obj => obj.tables | none => 0) = 0
    rw [List.getElem?_eq_none hi]
  have hone : ∀ q ∈ askedFor buf Cs, objText buf q + 2 * M ≤ w q * M := by
    intro q hq
    obtain ⟨obj, ⟨objs, o0, o0'⟩, o1, o2⟩ := askedFor_obj hq
    have hwq : w q = 2 + (stateIdxs obj).length := by
      show (match (buf.objects.getD [])[q]? with | some obj => obj.tables | none => 0) = _
      rw [o0]; simp only [Option.getD_some, o0']
      unfold FbObject.tables stateIdxs; rw [if_pos o1, List.length_map]
    rw [hwq, o2, Nat.add_mul, Nat.add_comm]
    refine Nat.add_le_add_left ?_ _
    have := List.sum_le_card_nsmul ((stateIdxs obj).map (textAt buf)) M (by
      intro x hx; obtain ⟨i, _, rfl⟩ := List.mem_map.1 hx; exact hM i)
    simpa using this
  have htot : askedText buf Cs + 2 * M ≤ ((askedFor buf Cs).map w).sum * M := by
    unfold askedText
    have hne : askedFor buf Cs ≠ [] := List.ne_nil_of_mem hp
    clear hle hp hpos hp0
    generalize askedFor buf Cs = l at hone hne
    induction l with
    | nil => exact absurd rfl hne
    | cons q l ih =>
      have h1 := hone q (by simp)
      by_cases hl : l = []
      · subst hl; simpa using h1
      · have h2 := ih (fun q' hq' => hone q' (List.mem_cons_of_mem _ hq')) hl
        simp only [List.map_cons, List.sum_cons, Nat.add_mul]
        omega
  have hS : ((askedFor buf Cs).map w).sum ≤ 999994 := by
    unfold FbBaseline.tables at a1
    omega
  have := Nat.mul_le_mul_right M hS
  omega

/-! ## A buffer that multiplies -/

/-- A contract with `m` fields of text. -/
def textC (m : Nat) : ContractTy := ⟨⟨"text", (1, 0, 0)⟩, (List.range m).map fun i => ⟨"f" ++ toString i, .prim .string⟩, []⟩

/-- One string, `n` objects with `m` fields each that all refer to it. -/
def bombBuf (n m : Nat) (s : String) : FbBaseline :=
  ⟨some [⟨some ⟨some "text", (1, 0, 0)⟩, some ⟨some ((textC m).states.map Field.name), some (List.replicate m (some .string))⟩⟩],
   some [.fbString (some s)], some (List.replicate n ⟨some 0, some (List.replicate m 0)⟩)⟩

theorem bomb_states (m : Nat) : (textC m).states.map Field.ty = List.replicate m (.prim .string) := by
  simp [textC, List.map_map, Function.comp_def, List.map_const']

theorem bomb_number (n m : Nat) (s : String) (k : Nat) : ContractNo (bombBuf n m s) (textC m) k ↔ k = 0 := by
  have hd : Describes ⟨some ⟨some "text", (1, 0, 0)⟩, some ⟨some ((textC m).states.map Field.name),
      some (List.replicate m (some .string))⟩⟩ (textC m) := by
    refine ⟨rfl, List.replicate m .string, ?_, ?_⟩
    · simp
    · rw [bomb_states]; simp [kindPrim]
  constructor
  · rintro ⟨cs, c, e1, e2, _⟩
    injection e1 with e1; subst e1
    rcases k with _ | k
    · rfl
    · simp at e2
  · rintro rfl
    exact ⟨_, _, rfl, rfl, hd, fun j _ hj => absurd hj (by omega)⟩

theorem bomb_obj {n m : Nat} {s : String} {p : Nat} {obj : FbObject} (h : ObjectAt (bombBuf n m s) p obj) :
    p < n ∧ stateIdxs obj = List.replicate m 0 ∧ obj.contract = some 0 := by
  obtain ⟨objs, e1, e2⟩ := h
  injection e1 with e1; subst e1
  obtain ⟨h1, h2⟩ := List.getElem?_eq_some_iff.1 e2
  rw [List.length_replicate] at h1
  rw [List.getElem_replicate] at h2
  subst h2
  exact ⟨h1, by simp [stateIdxs], rfl⟩

theorem bomb_state {n m : Nat} {s : String} {i : Nat} {v : FbVal} (h : StateAt (bombBuf n m s) i v) :
    i = 0 ∧ v = .fbString (some s) := by
  obtain ⟨sts, e1, e2⟩ := h
  injection e1 with e1; subst e1
  rcases i with _ | i
  · exact ⟨rfl, by simpa using e2.symm⟩
  · simp at e2

theorem bomb_restorable (n m : Nat) (s : String) : Restorable (bombBuf n m s) [textC m] := by
  have h0 := (bomb_number n m s 0).2 rfl
  refine ⟨?_, fun _ _ _ _ _ => ⟨_, rfl⟩, ?_, ?_, ?_, ?_, ?_⟩
  · intro C hC; rw [List.mem_singleton.1 hC]; exact ⟨0, h0⟩
  · intro C k p obj c hC hk ho hc hck
    rw [List.mem_singleton.1 hC] at hk ⊢
    obtain ⟨_, o1, _⟩ := bomb_obj ho
    refine ⟨⟨c, hc, hck⟩, by rw [o1]; simp [textC], ?_⟩
    intro n' i f e1 e2
    rw [o1] at e1
    have : i = 0 := List.eq_of_mem_replicate (List.mem_of_getElem? e1)
    subst this
    refine ⟨.fbString (some s), .string, ⟨_, rfl, rfl⟩, rfl, ?_⟩
    have hm : f.ty ∈ (textC m).states.map Field.ty := List.mem_map.2 ⟨f, List.mem_of_getElem? e2, rfl⟩
    rw [bomb_states] at hm
    exact List.eq_of_mem_replicate hm
  · intro p p' n n' i obj obj' r _ _ _ _ _ _ hs; cases (bomb_state hs).2
  · intro p i obj _ _ _ hs; cases (bomb_state hs).2
  · intro p i obj c _ _ _ hs; cases (bomb_state hs).2
  · intro p i obj r _ _ _ hs; cases (bomb_state hs).2

theorem bomb_tables (n m : Nat) (s : String) : (bombBuf n m s).tables = 6 + n * (2 + m) := by
  simp [FbBaseline.tables, bombBuf, FbContract.tables, FbVal.tables, FbObject.tables, List.map_replicate, List.sum_replicate]

theorem bomb_asked (n m : Nat) (s : String) : askedFor (bombBuf n m s) [textC m] = List.range n := by
  unfold askedFor
  rw [show ((bombBuf n m s).objects.getD []).length = n by simp [bombBuf]]
  refine List.filter_eq_self.2 fun p hp => ?_
  rw [List.mem_range] at hp
  simp only [decide_eq_true_eq]
  exact ⟨_, by simp, 0, ⟨some 0, some (List.replicate m 0)⟩, 0, (bomb_number n m s 0).2 rfl,
    ⟨_, rfl, by rw [List.getElem?_replicate, if_pos hp]⟩, rfl, rfl⟩

theorem bomb_text (n m : Nat) (s : String) : bufText (bombBuf n m s) = s.utf8ByteSize ∧
    askedText (bombBuf n m s) [textC m] = n * (m * s.utf8ByteSize) := by
  refine ⟨by simp [bufText, bombBuf, valText], ?_⟩
  unfold askedText
  rw [bomb_asked]
  have : ∀ p ∈ List.range n, objText (bombBuf n m s) p = m * s.utf8ByteSize := by
    intro p hp
    rw [List.mem_range] at hp
    unfold objText
    have e : ((bombBuf n m s).objects.getD [])[p]? = some ⟨some 0, some (List.replicate m 0)⟩ := by
      show (List.replicate n _)[p]? = _
      rw [List.getElem?_replicate, if_pos hp]
    rw [e]
    simp [stateIdxs, List.map_replicate, List.sum_replicate, textAt, bombBuf, valText]
  rw [List.map_congr_left this]
  simp [List.map_const', List.sum_replicate]

/-- Every such buffer within the limit of the reader is restored, and the baseline holds the string `n * m` times. -/
theorem C121_multiplied_partial (n m : Nat) (s : String) (hsize : 6 + n * (2 + m) ≤ 1000000) (kind : Kind)
    (sched : IterOrder (ContractTy × Idx)) (ord : IterOrder (Nat × Idx)) (hord : HashOrder) :
    ∃ (cs : List (ContractTy × Idx)) (b : Baseline), restore (bombBuf n m s) kind [textC m] sched ord hord = .ok (cs, b) ∧
      heldText b cs = n * (m * s.utf8ByteSize) ∧ bufText (bombBuf n m s) = s.utf8ByteSize := by
  obtain ⟨cs, b, h⟩ := (C62_restore_iff (bombBuf n m s) kind [textC m] sched ord hord).2
    ⟨by rw [bomb_tables]; exact hsize, bomb_restorable n m s, by simp,
      fun C hC => by rw [List.mem_singleton.1 hC]; exact fun e => absurd (congrArg ContractId.name e) (show ¬ "text" = "teleportal.serialize.NullContract" by decide),
      fun C hC hne => by rw [List.mem_singleton.1 hC] at hne; exact absurd rfl hne⟩
  exact ⟨cs, b, h, by rw [C121_exact_partial h]; exact (bomb_text n m s).2, (bomb_text n m s).1⟩

/-- The factor 999,992 of `C121_bound_partial` is attained; with one field per object it is 333,331. -/
theorem C121_tight_partial (s : String) (kind : Kind) (sched : IterOrder (ContractTy × Idx)) (ord : IterOrder (Nat × Idx))
    (hord : HashOrder) :
    (∃ (buf : FbBaseline) (Cs : List ContractTy) (cs : List (ContractTy × Idx)) (b : Baseline),
      restore buf kind Cs sched ord hord = .ok (cs, b) ∧ bufText buf = s.utf8ByteSize ∧
      heldText b cs = 999992 * s.utf8ByteSize) ∧
    ∃ (buf : FbBaseline) (cs : List (ContractTy × Idx)) (b : Baseline), restore buf kind [textC 1] sched ord hord = .ok (cs, b) ∧
      bufText buf = s.utf8ByteSize ∧ heldText b cs = 333331 * s.utf8ByteSize := by
  obtain ⟨cs, b, h1, h2, h3⟩ := C121_multiplied_partial 1 999992 s (by omega) kind sched ord hord
  obtain ⟨cs', b', h1', h2', h3'⟩ := C121_multiplied_partial 333331 1 s (by omega) kind sched ord hord
  exact ⟨⟨_, _, cs, b, h1, h3, by rw [h2]; omega⟩, ⟨_, cs', b', h1', h3', by rw [h2']; omega⟩⟩

/-- **C121, refuted.** A restored baseline may hold more text than the buffer; no constant below 999,992 bounds the ratio. -/
theorem C121_negation (k : Nat) (hk : k < 999992) :
    ¬ ∀ (buf : FbBaseline) (kind : Kind) (Cs : List ContractTy) (sched : IterOrder (ContractTy × Idx))
      (ord : IterOrder (Nat × Idx)) (hord : HashOrder) (cs : List (ContractTy × Idx)) (b : Baseline),
      restore buf kind Cs sched ord hord = .ok (cs, b) → heldText b cs ≤ k * bufText buf := by
  intro h
  obtain ⟨⟨buf, Cs, cs, b, h1, h2, h3⟩, _⟩ := C121_tight_partial "a" .main .id .id HashOrder.id
  have := h _ _ _ _ _ _ _ _ h1
  rw [h2, h3] at this
  rw [show "a".utf8ByteSize = 1 by decide] at this
  omega

/-! ## What was saved -/

theorem fieldText_holds {b : Baseline} {C : ContractTy} {h o : Idx} {n : Nat} {f : Field} (hf : C.states[n]? = some f)
    (ht : f.ty = .prim .string) {s : String} (hs : Holds b h o n (.prim .string) s) : fieldText b C h o n = s.utf8ByteSize := by
  obtain ⟨j, h1, h2⟩ := hs
  unfold fieldText
  rw [hf]; simp only
  rw [if_pos ht, h1]; simp only
  rw [h2]

theorem held_same {b b' : Baseline} {cs cs' : List (ContractTy × Idx)} {φ ψ : Idx → Idx} (hS : SameContents b cs b' cs' φ ψ)
    {kind kind' : Kind} {evs evs' : List Event} (hH : History kind evs b) (hH' : History kind' evs' b')
    (hn : (cs.map Prod.snd).Nodup) (hn' : (cs'.map Prod.snd).Nodup) : heldText b' cs' = heldText b cs := by
  have hp : cs'.Perm (cs.map fun e => (e.1, ψ e.2)) := by
    refine (List.perm_ext_iff_of_nodup (List.Nodup.of_map _ hn') ?_).2 fun e => ?_
    · refine List.Nodup.map_on (fun x hx y hy e => ?_) (List.Nodup.of_map _ hn)
      have := hS.conInj x.1 y.1 x.2 y.2 hx hy (congrArg Prod.snd e)
      exact Prod.ext (Prod.mk.inj e).1 this
    · obtain ⟨C, h'⟩ := e
      rw [hS.instances C h', List.mem_map]
      constructor
      · rintro ⟨h, hm, rfl⟩; exact ⟨(C, h), hm, rfl⟩
      · rintro ⟨⟨C2, h⟩, hm, e⟩; injection e with e1 e2; subst e1; exact ⟨h, hm, e2⟩
  unfold heldText
  rw [perm_sum (hp.map _), List.map_map]
  congr 1
  refine List.map_congr_left fun e he => ?_
  obtain ⟨C, h⟩ := e
  obtain ⟨cd, _, hcd, _⟩ := hS.contract C h he
  obtain ⟨cd', c1, _, c3⟩ := RoundTripTest.objects_perm hS hH hH' he hcd
  show ((objectsOf b' (ψ h)).map fun o => ((List.range C.states.length).map (fieldText b' C (ψ h) o)).sum).sum =
    ((objectsOf b h).map fun o => ((List.range C.states.length).map (fieldText b C h o)).sum).sum
  rw [objectsOf_eq c1, objectsOf_eq hcd, perm_sum (c3.map _), List.map_map]
  congr 1
  refine List.map_congr_left fun o ho => ?_
  show ((List.range C.states.length).map (fieldText b' C (ψ h) (φ o))).sum = _
  congr 1
  refine List.map_congr_left fun n hn => ?_
  rw [List.mem_range] at hn
  obtain ⟨v, v', w1, w2, w3⟩ := hS.values C h o n C.states[n] he (by rw [objectsOf_eq hcd]; exact ho)
    (List.getElem?_eq_getElem hn)
  have hf := List.getElem?_eq_getElem hn
  generalize C.states[n] = f at *
  obtain ⟨name, ty⟩ := f
  by_cases hty : ty = .prim .string
  · subst hty
    have : v' = v := by
      have w3 : DynProp.primitive (.string v') = DynProp.primitive (.string v) := w3
      injection w3 with w3; injection w3
    subst this
    rw [fieldText_holds hf rfl w1, fieldText_holds hf rfl w2]
  · unfold fieldText
    rw [hf]; simp only
    rw [if_neg hty, if_neg hty]

/-- **C121, partial: saving and restoring.** Whatever a reachable baseline holds, saving and restoring it neither adds nor loses
a byte of text. -/
theorem C121_saved_partial {kind : Kind} {evs : List Event} {b : Baseline} (hH : History kind evs b)
    {cs : List (ContractTy × Idx)} (hu : UsedAs evs b cs) (c : Cycle) (hc : c.Fits cs) {cs' : List (ContractTy × Idx)}
    {b' : Baseline} (h : c.run b = .ok (cs', b')) : heldText b' cs' = heldText b cs := by
  obtain ⟨h1, h2⟩ := C116_exactly hH hu c hc
  obtain ⟨φ, ψ, hS⟩ := h2 cs' b' h
  have hsv := h1.1 (by rw [h]; rfl)
  have hr : ∃ buf, restore buf c.kind c.types c.sched c.ord c.hord = .ok (cs', b') := by
    unfold Cycle.run at h
    split at h
    · cases h
    · cases h
    · split at h
      · cases h
      · cases h
      · split at h
        · cases h
        · exact ⟨_, h⟩
  obtain ⟨buf, hr⟩ := hr
  obtain ⟨n1, evs', hH', _⟩ := restore_typed hr (restore_needs hr).2.2
  exact held_same hS hH hH' hsv.different n1

/-! Cases: a buffer without shared states, and a saved baseline with text. -/

/-- Two nodes and a tag with the label "a", no state shared. -/
example (kind : Kind) (sched : IterOrder (ContractTy × Idx)) (ord : IterOrder (Nat × Idx)) (hord : HashOrder) :
    ∃ cs b, restore demoBuf kind [nodeC, tagC] sched ord hord = .ok (cs, b) ∧ heldText b cs ≤ bufText demoBuf := by
  obtain ⟨cs, b, _, h, _⟩ := C62_complete_buffers_restore demo_restorable (by decide) (by decide)
    (.of_none (by decide)) (by decide +kernel) kind sched ord hord
  refine ⟨cs, b, h, C121_unshared_partial h ?_⟩
  intro p p' n n' i obj obj' _ _ h1 h2 h3 h4
  rcases demo_obj h1 with ⟨rfl, rfl⟩ | ⟨rfl, rfl⟩ | ⟨rfl, rfl⟩ <;>
    rcases demo_obj h2 with ⟨rfl, rfl⟩ | ⟨rfl, rfl⟩ | ⟨rfl, rfl⟩ <;>
    rcases n with _ | _ | n <;> rcases n' with _ | _ | n' <;> simp [stateIdxs] at h3 h4 <;> omega

def poemOps : List BOp := [.register (textC 2), .create (textC 2) h0 [.primitive (.string "ab"), .primitive (.string "c")] [],
  .create (textC 2) h0 [.primitive (.string "ab"), .primitive (.string "")] []]
def poemB : Baseline := ((Baseline.new .main).runOps poemOps).2
def poemEvs : List Event := ((Baseline.new .main).runOps poemOps).1

example : ∃ cs b, (demoCycle [(textC 2, h0)]).run poemB = .ok (cs, b) ∧ heldText b cs = 5 := by
  have hu : UsedAs poemEvs poemB [(textC 2, h0)] := by
    refine ⟨?_, ?_⟩
    · intro C h cd m e
      obtain ⟨rfl, rfl⟩ : C = textC 2 ∧ h = h0 := by simpa using m
      rw [show poemB.contractData h0 = .ok ⟨(textC 2).id, [h1, h0]⟩ from by decide +kernel] at e
      injection e with e; rw [← e]
    · rintro C C' h o m ⟨ss, cs, hc⟩
      obtain ⟨rfl, rfl⟩ : C = textC 2 ∧ h = h0 := by simpa using m
      rw [show poemEvs = [(.register (textC 2), .ok (some h0)),
        (.create (textC 2) h0 [.primitive (.string "ab"), .primitive (.string "c")] [], .ok (some h0)),
        (.create (textC 2) h0 [.primitive (.string "ab"), .primitive (.string "")] [], .ok (some h1))] by rfl] at hc
      simp only [List.mem_cons, Prod.mk.injEq, reduceCtorEq, BOp.create.injEq, List.not_mem_nil, false_and, false_or,
        or_false] at hc
      rcases hc with hc | hc
      · exact hc.1.1
      · exact hc.1.1
  cases hr : (demoCycle [(textC 2, h0)]).run poemB with
  | err m => exact absurd (show ((demoCycle [(textC 2, h0)]).run poemB).isOk = false by rw [hr]; rfl) (by decide +kernel)
  | panic m => exact absurd (show ((demoCycle [(textC 2, h0)]).run poemB).isOk = false by rw [hr]; rfl) (by decide +kernel)
  | ok r =>
    obtain ⟨cs, b⟩ := r
    refine ⟨cs, b, rfl, ?_⟩
    rw [C121_saved_partial (runOps_trace _ _) hu _ (demoCycle_fits _) hr]
    decide +kernel

end Verif.Props
