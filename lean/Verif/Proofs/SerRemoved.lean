import Verif.Proofs.SerSuccess
/-! # Serializing a contract some of whose listed objects were removed -/
namespace Verif
open Arena Baseline Store Spec

theorem bindState_no_panic (b : Baseline) (id : PropId) (o : Idx) : (b.bindState id o).isPanic = false := by
  unfold Baseline.bindState
  cases b.objects.get o with
  | none => rfl
  | some ob =>
    simp only [ObjectD.bindState]
    unfold bindIdx
    split
    · rfl
    · split <;> rfl

theorem pushState_cases (s : Ser) (o : Idx) (d : DynId) (hd : ∃ p, d.ty = .prim p) :
    (∃ s' i, s.pushState o d = (s', .ok i) ∧ s'.base = s.base ∧ Writable s.base o d) ∨
    (∃ m, s.pushState o d = (s, .err m) ∧ ¬ Writable s.base o d) := by
  have hb := pushState_base s o d
  have hp := bindState_no_panic s.base d.id o
  unfold Ser.pushState at hb ⊢
  unfold Writable
  cases h1 : s.base.bindState d.id o with
  | panic m => rw [h1] at hp; cases hp
  | err m => exact .inr ⟨m, rfl, by rintro ⟨hnd, v, sl, e, _⟩; cases e⟩
  | ok hnd =>
    simp only [h1] at hb ⊢
    cases h2 : s.base.state d.ty hnd with
    | panic m => unfold Baseline.state at h2; split at h2 <;> cases h2
    | err m =>
      refine .inr ⟨m, rfl, ?_⟩
      rintro ⟨hnd', v, sl, e, e2, _⟩
      injection e with e; subst e
      rw [h2] at e2; cases e2
    | ok v =>
      simp only [h2] at hb ⊢
      obtain ⟨sl, hsl⟩ := encode_prim v hd
      simp only [hsl] at hb ⊢
      exact .inl ⟨_, _, rfl, hb, hnd, v, sl, rfl, h2, hsl⟩

theorem pushStates_cases (s : Ser) (o : Idx) (ds : List DynId) (hd : ∀ d ∈ ds, ∃ p, d.ty = .prim p) :
    (∃ s' is, s.pushStates o ds = (s', .ok is) ∧ s'.base = s.base ∧ ∀ d ∈ ds, Writable s.base o d) ∨
    (∃ s' m, s.pushStates o ds = (s', .err m) ∧ ¬ ∀ d ∈ ds, Writable s.base o d) := by
  induction ds generalizing s with
  | nil => exact .inl ⟨s, [], rfl, rfl, by simp⟩
  | cons d ds ih =>
    unfold Ser.pushStates
    rcases pushState_cases s o d (hd d (by simp)) with ⟨s1, i, e1, e2, e3⟩ | ⟨m, e1, e2⟩
    · simp only [e1]
      rcases ih s1 (fun d h => hd d (by simp [h])) with ⟨s2, is, f1, f2, f3⟩ | ⟨s2, m, f1, f2⟩
      · simp only [f1]
        refine .inl ⟨_, _, rfl, f2.trans e2, ?_⟩
        intro d' hd'
        rcases List.mem_cons.1 hd' with rfl | hd'
        · exact e3
        · rw [← e2]; exact f3 d' hd'
      · simp only [f1]
        refine .inr ⟨_, _, rfl, fun h => f2 fun d' hd' => ?_⟩
        rw [e2]; exact h d' (by simp [hd'])
    · simp only [e1]
      exact .inr ⟨_, _, rfl, fun h => e2 (h d (by simp))⟩

theorem pushObjects_cases (s : Ser) (C : ContractTy) (h : Idx) (k : BitVec 16) (os : List Idx)
    (hC : ∀ f ∈ C.states, ∃ p, f.ty = .prim p) :
    ((∃ s', s.pushObjects C h k os = (s', .ok ())) ∧ ∀ o ∈ os, ∀ d ∈ C.stateIds h, Writable s.base o d) ∨
    ((∃ s' m, s.pushObjects C h k os = (s', .err m)) ∧ ¬ ∀ o ∈ os, ∀ d ∈ C.stateIds h, Writable s.base o d) := by
  have hd : ∀ d ∈ C.stateIds h, ∃ p, d.ty = .prim p := by
    intro d hd
    obtain ⟨n, f, hf, rfl⟩ := mem_stateIds hd
    exact hC f (List.mem_of_getElem? hf)
  induction os generalizing s with
  | nil => exact .inl ⟨⟨s, rfl⟩, by simp⟩
  | cons o os ih =>
    unfold Ser.pushObjects
    rcases pushStates_cases s o (C.stateIds h) hd with ⟨s1, is, e1, e2, e3⟩ | ⟨s1, m, e1, e2⟩
    · simp only [e1]
      rcases ih { s1 with objects := s1.objects ++ [⟨some k, some is⟩],
                          hObjects := s1.hObjects.insert o s1.objects.length } with ⟨f1, f2⟩ | ⟨f1, f2⟩
      · refine .inl ⟨f1, ?_⟩
        intro o' ho'
        rcases List.mem_cons.1 ho' with rfl | ho'
        · exact e3
        · have := f2 o' ho'
          simp only [e2] at this
          exact this
      · refine .inr ⟨f1, fun hw => f2 fun o' ho' => ?_⟩
        simp only [e2]
        exact hw o' (by simp [ho'])
    · simp only [e1]
      exact .inr ⟨⟨_, _, rfl⟩, fun hw => e2 (hw o (by simp))⟩

/-- `serialize` on a registered contract the format can carry: success exactly if every state of every listed object can
be read, an error otherwise. -/
theorem serialize_cases {s : Ser} {C : ContractTy} {h : Idx} {cd : ContractData}
    (hc : s.base.contractData h = .ok cd) (hC : ∀ f ∈ C.states, ∃ p, f.ty = .prim p)
    (room : (s.contracts.length + 1) % 65536 ≠ 0) (ord : HashOrder) :
    ((∃ s', s.serialize C h ord = (s', .ok ())) ∧ ∀ o ∈ cd.objects, ∀ d ∈ C.stateIds h, Writable s.base o d) ∨
    ((∃ s' m, s.serialize C h ord = (s', .err m)) ∧
      ¬ ∀ o ∈ cd.objects, ∀ d ∈ C.stateIds h, Writable s.base o d) := by
  obtain ⟨ks, hk⟩ := kindsOf_prim C.stateTypes (by
    intro t ht
    simp only [ContractTy.stateTypes, List.mem_map] at ht
    obtain ⟨f, hf, rfl⟩ := ht
    exact hC f hf)
  unfold Ser.serialize
  rw [hc]
  simp only [Ser.contractTable, hk, List.length_append, List.length_cons, List.length_nil, Nat.zero_add]
  rw [if_neg room]
  have H : ∀ (X : Ser) (k : BitVec 16), X.base = s.base →
      ((∃ s', X.pushObjects C h k (ord.order cd.objects) = (s', .ok ())) ∧
        ∀ o ∈ cd.objects, ∀ d ∈ C.stateIds h, Writable s.base o d) ∨
      ((∃ s' m, X.pushObjects C h k (ord.order cd.objects) = (s', .err m)) ∧
        ¬ ∀ o ∈ cd.objects, ∀ d ∈ C.stateIds h, Writable s.base o d) := by
    intro X k hX
    rw [← hX]
    rcases pushObjects_cases X C h k (ord.order cd.objects) hC with ⟨f1, f2⟩ | ⟨f1, f2⟩
    · exact .inl ⟨f1, fun o ho => f2 o ((ord.perm _).mem_iff.2 ho)⟩
    · exact .inr ⟨f1, fun hw => f2 fun o ho => hw o ((ord.perm _).mem_iff.1 ho)⟩
  exact H _ _ rfl

theorem not_writable_dead {b : Baseline} {o : Idx} (hd : b.objects.get o = none) (d : DynId) : ¬ Writable b o d := by
  rintro ⟨hnd, v, sl, h1, _⟩
  unfold Baseline.bindState at h1
  rw [hd] at h1; cases h1

/-! ## What was created stays listed -/

theorem step_listed {evs : List Event} {b : Baseline} (hb : BInv evs b) (op : BOp) {h o : Idx}
    (hu : ∀ (C : ContractTy) (ord : HashOrder), op ≠ .unregister C h ord) (ho : o ∈ objectsOf b h) :
    o ∈ objectsOf (b.step op).1 h := by
  have key : ∀ b' : Baseline, (∀ cd : ContractData, b.contracts.get h = some cd → ∃ cd' : ContractData,
      b'.contracts.get h = some cd' ∧ ∀ o ∈ cd.objects, o ∈ cd'.objects) → o ∈ objectsOf b' h := by
    intro b' hk
    unfold objectsOf at ho ⊢
    cases hc : b.contractData h with
    | err m => rw [hc] at ho; cases ho
    | panic m => rw [hc] at ho; cases ho
    | ok cd =>
      rw [hc] at ho
      obtain ⟨cd', e1, e2⟩ := hk cd (contractData_ok.1 hc)
      rw [contractData_ok.2 e1]
      exact e2 o ho
  cases op with
  | register C =>
    refine key _ fun cd hg => ?_
    rcases registerContract_cases b C with ⟨_, hr⟩ | ⟨hn, hr⟩
    · simp only [Baseline.step, hr]; exact ⟨cd, hg, fun _ h => h⟩
    · simp only [Baseline.step, hr]
      exact ⟨cd, get_insert_of_some hb.c.inv _ _ hg, fun _ h => h⟩
  | unregister C k ord =>
    have hne : h ≠ k := fun e => hu C ord (by rw [e])
    refine key _ fun cd hg => ?_
    show ∃ cd', (b.unregisterContract C k ord).1.contracts.get h = some cd' ∧ _
    rcases unregister_cases b C k ord with ⟨h1, _⟩ | ⟨cd0, cons, done, g1, _, hm, _, ⟨hdn, h5⟩ | ⟨h5, h6⟩⟩
    · rw [h1]; exact ⟨cd, hg, fun _ h => h⟩
    · rw [h5]
      refine ⟨cd, ?_, fun _ h => h⟩
      show (cons.remove k).1.get h = some cd
      rw [get_remove, if_neg hne, get_modify hm, if_neg hne, hg]
    · rw [h5]
      refine ⟨cd, ?_, fun _ h => h⟩
      show cons.get h = some cd
      rw [get_modify hm, if_neg hne, hg]
  | create C k ss cs =>
    refine key _ fun cd hg => ?_
    show ∃ cd', (b.objectCreate C k ss cs).1.contracts.get h = some cd' ∧ _
    rcases objectCreate_cases b C k ss cs with ⟨⟨cd0, hcd⟩, hs, hcs⟩ | ⟨h1, h2, _⟩
    · obtain ⟨cons, hm, hr⟩ := objectCreate_ok hcd hs hcs
      rw [hr]
      show ∃ cd', cons.get h = some cd' ∧ _
      rw [get_modify hm]
      split
      · rename_i e; subst e
        rw [hg]
        exact ⟨_, rfl, fun o ho => by simp [addObj, ho]⟩
      · exact ⟨cd, hg, fun _ h => h⟩
    · rw [h1]; exact ⟨cd, hg, fun _ h => h⟩
  | remove C o' =>
    refine key _ fun cd hg => ?_
    show ∃ cd', (b.objectRemove C o').1.contracts.get h = some cd' ∧ _
    rw [objectRemove_fst]; exact ⟨cd, hg, fun _ h => h⟩
  | writeState t k v =>
    refine key _ fun cd hg => ⟨cd, ?_, fun _ h => h⟩
    simp only [Baseline.step, stateWrite]; split <;> exact hg
  | writeChannel t k v =>
    refine key _ fun cd hg => ⟨cd, ?_, fun _ h => h⟩
    simp only [Baseline.step, channelWrite]; split <;> exact hg
  | setWarp o' w =>
    refine key _ fun cd hg => ⟨cd, ?_, fun _ h => h⟩
    simp only [Baseline.step, setWarp]; split <;> exact hg

theorem step_create_listed {b : Baseline} {C : ContractTy} {k o : Idx} {ss : List DynProp} {cs : List DynChannel}
    (hr : (b.step (.create C k ss cs)).2 = .ok (some o)) : o ∈ objectsOf (b.step (.create C k ss cs)).1 k := by
  have hr : (b.objectCreate C k ss cs).2.map some = .ok (some o) := hr
  show o ∈ objectsOf (b.objectCreate C k ss cs).1 k
  rcases objectCreate_cases b C k ss cs with ⟨⟨cd0, hcd⟩, hs, hcs⟩ | ⟨h1, h2, _⟩
  · obtain ⟨cons, hm, he⟩ := objectCreate_ok hcd hs hcs
    rw [he] at hr ⊢
    simp only [Outcome.map, Outcome.bind, Outcome.ok.injEq, Option.some.injEq] at hr
    unfold objectsOf
    rw [contractData_ok.2 (show _ = some (addObj (b.objects.insert (createdObj b k ss cs)).2 cd0) from ?_)]
    · simp [addObj, hr]
    · show cons.get k = _
      rw [get_modify hm]; simp [hcd]
  · cases hx : (b.objectCreate C k ss cs).2 <;> rw [hx] at hr h2 <;>
      simp_all [Outcome.map, Outcome.bind, Outcome.isErr]

theorem trace_listed {P evs : List Event} {b b' : Baseline} (hb : BInv P b) (ht : Trace b evs b') {h o : Idx}
    (hu : ∀ (C : ContractTy) (ord : HashOrder) (r : BOut), (BOp.unregister C h ord, r) ∉ evs)
    (ho : o ∈ objectsOf b h ∨ ∃ C, DidCreate evs C h o) : o ∈ objectsOf b' h := by
  induction ht generalizing P with
  | nil b =>
    rcases ho with ho | ⟨C, ss, cs, hm⟩
    · exact ho
    · cases hm
  | cons b op evs b' _ ih =>
    refine ih (step_binv hb op) (fun C ord r hm => hu C ord r (by simp [hm])) ?_
    rcases ho with ho | ⟨C, ss, cs, hm⟩
    · exact .inl (step_listed hb op (fun C ord e => hu C ord (b.step op).2 (by rw [e]; exact List.mem_cons_self)) ho)
    · rcases List.mem_cons.1 hm with e | hm
      · injection e with e1 e2
        subst e1
        exact .inl (step_create_listed e2.symm)
      · exact .inr ⟨C, ss, cs, hm⟩

end Verif
