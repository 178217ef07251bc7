import Verif.Proofs.BaselineInv
/-! # From the arenas to the public readers, and persistence of dead handles -/
namespace Verif
open Arena Store Baseline

theorem object_ok {b : Baseline} {o : Idx} {ob : ObjectD} :
    b.object o = .ok ob ↔ b.objects.get o = some ob := by
  unfold object; cases b.objects.get o <;> simp
theorem contractData_ok {b : Baseline} {h : Idx} {cd : ContractData} :
    b.contractData h = .ok cd ↔ b.contracts.get h = some cd := by
  unfold contractData; cases b.contracts.get h <;> simp
theorem state_ok {b : Baseline} {t : PropType} {h : Idx} {v : t.Carrier} :
    b.state t h = .ok v ↔ b.states.get t h = some v := by
  unfold state; cases b.states.get t h <;> simp
theorem channel_ok {b : Baseline} {t : PropType} {h : Idx} {v : t.Chan} :
    b.channel t h = .ok v ↔ b.channels.get t h = some v := by
  unfold channel; cases b.channels.get t h <;> simp

theorem object_err {b : Baseline} {o : Idx} : (b.object o).isErr = true ↔ b.objects.get o = none := by
  unfold object; cases b.objects.get o <;> simp [Outcome.isErr]
theorem contractData_err {b : Baseline} {o : Idx} :
    (b.contractData o).isErr = true ↔ b.contracts.get o = none := by
  unfold contractData; cases b.contracts.get o <;> simp [Outcome.isErr]
theorem state_err {b : Baseline} {t : PropType} {h : Idx} :
    (b.state t h).isErr = true ↔ b.states.get t h = none := by
  unfold state; cases b.states.get t h <;> simp [Outcome.isErr]
theorem channel_err {b : Baseline} {t : PropType} {h : Idx} :
    (b.channel t h).isErr = true ↔ b.channels.get t h = none := by
  unfold channel; cases b.channels.get t h <;> simp [Outcome.isErr]

theorem object_congr {b b' : Baseline} {o : Idx} (h : b'.objects.get o = b.objects.get o) :
    b'.object o = b.object o := by unfold object; rw [h]
theorem contractData_congr {b b' : Baseline} {o : Idx} (h : b'.contracts.get o = b.contracts.get o) :
    b'.contractData o = b.contractData o := by unfold contractData; rw [h]
theorem state_congr {b b' : Baseline} {t : PropType} {h : Idx} (e : b'.states.get t h = b.states.get t h) :
    b'.state t h = b.state t h := by unfold state; rw [e]
theorem channel_congr {b b' : Baseline} {t : PropType} {h : Idx}
    (e : b'.channels.get t h = b.channels.get t h) : b'.channel t h = b.channel t h := by
  unfold channel; rw [e]

theorem bindState_of_get {b : Baseline} {o : Idx} {ob : ObjectD} (h : b.objects.get o = some ob)
    (id : PropId) : b.bindState id o = ob.bindState id := by simp [bindState, h]
theorem bindChannel_of_get {b : Baseline} {o : Idx} {ob : ObjectD} (h : b.objects.get o = some ob)
    (id : PropId) : b.bindChannel id o = ob.bindChannel id := by simp [bindChannel, h]

theorem bindIdx_ok {ob : ObjectD} {fields : List Idx} {id : PropId} {i : Idx} :
    bindIdx ob fields id = .ok i ↔ id.contract = ob.contract ∧ fields[id.idx]? = some i := by
  unfold bindIdx
  by_cases h : id.contract = ob.contract
  · cases hx : fields[id.idx]? <;> simp [h]
  · simp [h]

theorem stateId_some {C : ContractTy} {h : Idx} {i : Nat} {d : DynId} (hd : C.stateId h i = some d) :
    C.stateTypes[i]? = some d.ty ∧ d.id = ⟨i, h⟩ := by
  unfold ContractTy.stateId at hd
  cases ht : C.stateTypes[i]? with
  | none => rw [ht] at hd; cases hd
  | some t => rw [ht] at hd; cases hd; exact ⟨rfl, rfl⟩
theorem chanId_some {C : ContractTy} {h : Idx} {i : Nat} {d : DynId} (hd : C.chanId h i = some d) :
    C.channelTypes[i]? = some d.ty ∧ d.id = ⟨i, h⟩ := by
  unfold ContractTy.chanId at hd
  cases ht : C.channelTypes[i]? with
  | none => rw [ht] at hd; cases hd
  | some t => rw [ht] at hd; cases hd; exact ⟨rfl, rfl⟩

/-! ## Dead handles stay dead -/

theorem step_obj_dead {evs : List Event} {b : Baseline} (h : BInv evs b) (op : BOp) {o : Idx}
    (hd : Dead b.objects o) : Dead (b.step op).1.objects o := by
  cases op with
  | register C =>
    rcases registerContract_cases b C with ⟨_, hr⟩ | ⟨hn, hr⟩ <;> simpa only [Baseline.step, hr] using hd
  | unregister C k ord =>
    show Dead (b.unregisterContract C k ord).1.objects o
    rcases unregister_cases b C k ord with ⟨h1, _⟩ | ⟨cd, cons, done, _, _, _, _, ⟨_, h5⟩ | ⟨h5, _⟩⟩
    · rw [h1]; exact hd
    · rw [h5]; exact removeList_dead hd done
    · rw [h5]; exact removeList_dead hd done
  | create C k ss cs =>
    show Dead (b.objectCreate C k ss cs).1.objects o
    rcases objectCreate_cases b C k ss cs with ⟨⟨cd, hc⟩, hs, hcs⟩ | ⟨h1, h2, _⟩
    · obtain ⟨cons, hm, hr⟩ := objectCreate_ok hc hs hcs
      rw [hr]; exact insert_dead h.o.inv hd _
    · rw [h1]; exact hd
  | remove C o' =>
    show Dead (b.objectRemove C o').1.objects o
    rw [objectRemove_fst]; exact removeList_dead hd [o']
  | writeState t k v => simp only [Baseline.step, stateWrite]; split <;> exact hd
  | writeChannel t k v => simp only [Baseline.step, channelWrite]; split <;> exact hd
  | setWarp o' w =>
    simp only [Baseline.step, setWarp]
    split
    · exact hd
    · rename_i objs hm; exact modify_dead hd hm

theorem step_con_dead {evs : List Event} {b : Baseline} (h : BInv evs b) (op : BOp) {k : Idx}
    (hd : Dead b.contracts k) : Dead (b.step op).1.contracts k := by
  cases op with
  | register C =>
    rcases registerContract_cases b C with ⟨_, hr⟩ | ⟨hn, hr⟩
    · simpa only [Baseline.step, hr] using hd
    · simp only [Baseline.step, hr]; exact insert_dead h.c.inv hd _
  | unregister C k' ord =>
    show Dead (b.unregisterContract C k' ord).1.contracts k
    rcases unregister_cases b C k' ord with ⟨h1, _⟩ | ⟨cd, cons, done, _, _, hm, _, ⟨_, h5⟩ | ⟨h5, _⟩⟩
    · rw [h1]; exact hd
    · rw [h5]; exact remove_dead_of_dead (modify_dead hd hm) k'
    · rw [h5]; exact modify_dead hd hm
  | create C k' ss cs =>
    show Dead (b.objectCreate C k' ss cs).1.contracts k
    rcases objectCreate_cases b C k' ss cs with ⟨⟨cd, hc⟩, hs, hcs⟩ | ⟨h1, h2, _⟩
    · obtain ⟨cons, hm, hr⟩ := objectCreate_ok hc hs hcs
      rw [hr]; exact modify_dead hd hm
    · rw [h1]; exact hd
  | remove C o' =>
    show Dead (b.objectRemove C o').1.contracts k
    rw [objectRemove_fst]; exact hd
  | writeState t k v => simp only [Baseline.step, stateWrite]; split <;> exact hd
  | writeChannel t k v => simp only [Baseline.step, channelWrite]; split <;> exact hd
  | setWarp o' w => simp only [Baseline.step, setWarp]; split <;> exact hd

theorem trace_obj_dead {P evs : List Event} {b b' : Baseline} (h : BInv P b) (ht : Trace b evs b') {o : Idx}
    (hd : Dead b.objects o) : Dead b'.objects o := by
  induction ht generalizing P with
  | nil b => exact hd
  | cons b op evs b' _ ih => exact ih (step_binv h op) (step_obj_dead h op hd)

theorem trace_con_dead {P evs : List Event} {b b' : Baseline} (h : BInv P b) (ht : Trace b evs b') {k : Idx}
    (hd : Dead b.contracts k) : Dead b'.contracts k := by
  induction ht generalizing P with
  | nil b => exact hd
  | cons b op evs b' _ ih => exact ih (step_binv h op) (step_con_dead h op hd)

/-! ## Object sets of contracts -/

/-- Every live object is listed by its (live) contract. -/
def Covered (b : Baseline) : Prop :=
  ∀ (o : Idx) (ob : ObjectD), b.objects.get o = some ob →
    ∃ cd, b.contracts.get ob.contract = some cd ∧ o ∈ cd.objects

/-- Every listed handle is live. -/
def Exact (b : Baseline) : Prop :=
  ∀ (h o : Idx) (cd : ContractData), b.contracts.get h = some cd → o ∈ cd.objects →
    ∃ ob, b.objects.get o = some ob

theorem step_covered {evs : List Event} {b : Baseline} (h : BInv evs b) (hc : Covered b) (op : BOp)
    (hp : (b.step op).2.isPanic = false) : Covered (b.step op).1 := by
  cases op with
  | register C =>
    rcases registerContract_cases b C with ⟨_, hr⟩ | ⟨hn, hr⟩
    · simpa only [Baseline.step, hr] using hc
    · simp only [Baseline.step, hr]
      intro o ob hg
      obtain ⟨cd, h1, h2⟩ := hc o ob hg
      exact ⟨cd, get_insert_of_some h.c.inv _ _ h1, h2⟩
  | unregister C k ord =>
    have hp' : (b.unregisterContract C k ord).2.isPanic = false := by
      simp only [Baseline.step] at hp
      cases hx : (b.unregisterContract C k ord).2 <;> rw [hx] at hp <;>
        simp_all [Outcome.map, Outcome.bind, Outcome.isPanic]
    show Covered (b.unregisterContract C k ord).1
    rcases unregister_cases b C k ord with ⟨h1, _⟩ | ⟨cd, cons, done, g1, _, hm, _, ⟨hdn, h5⟩ | ⟨h5, h6⟩⟩
    · rw [h1]; exact hc
    · rw [h5]
      intro o ob hg
      have hg : (removeList b.objects done).get o = some ob := hg
      rw [get_removeList] at hg
      split at hg
      · cases hg
      · rename_i hno
        obtain ⟨cd', h1, h2⟩ := hc o ob hg
        have hne : ob.contract ≠ k := by
          intro e
          rw [e, g1] at h1; cases h1
          apply hno
          rw [hdn]; exact (ord.perm _).mem_iff.2 h2
        refine ⟨cd', ?_, h2⟩
        show (cons.remove k).1.get ob.contract = some cd'
        rw [get_remove, if_neg hne, get_modify hm, if_neg hne, h1]
    · rw [hp'] at h6; cases h6
  | create C k ss cs =>
    show Covered (b.objectCreate C k ss cs).1
    rcases objectCreate_cases b C k ss cs with ⟨⟨cd, hcd⟩, hs, hcs⟩ | ⟨h1, h2, _⟩
    · obtain ⟨cons, hm, hr⟩ := objectCreate_ok hcd hs hcs
      rw [hr]
      intro o ob hg
      have hg : (b.objects.insert (createdObj b k ss cs)).1.get o = some ob := hg
      show ∃ cd, cons.get ob.contract = some cd ∧ o ∈ cd.objects
      rw [get_insert h.o.inv] at hg
      split at hg
      · rename_i e
        cases hg
        refine ⟨addObj (b.objects.insert (createdObj b k ss cs)).2 cd, ?_, ?_⟩
        · rw [get_modify hm]
          simp [createdObj, hcd]
        · simp [addObj, e]
      · obtain ⟨cd', h1, h2⟩ := hc o ob hg
        rw [get_modify hm]
        split
        · rename_i e; rw [e] at h1; rw [h1]
          exact ⟨_, rfl, by simp [addObj, h2]⟩
        · exact ⟨cd', h1, h2⟩
    · rw [h1]; exact hc
  | remove C o' =>
    show Covered (b.objectRemove C o').1
    rw [objectRemove_fst]
    intro o ob hg
    have hg : (removeList b.objects [o']).get o = some ob := hg
    rw [get_removeList] at hg
    split at hg
    · cases hg
    · exact hc o ob hg
  | writeState t k v => simp only [Baseline.step, stateWrite]; split <;> exact hc
  | writeChannel t k v => simp only [Baseline.step, channelWrite]; split <;> exact hc
  | setWarp o' w =>
    simp only [Baseline.step, setWarp]
    split
    · exact hc
    · rename_i objs hm
      intro o ob hg
      obtain ⟨ob0, h1, h2⟩ := (ObjMono.warp h.o.inv hm).back o ob hg
      obtain ⟨cd, h3, h4⟩ := hc o ob0 h1
      exact ⟨cd, by rw [h2.2.2]; exact h3, h4⟩

theorem step_exact {evs : List Event} {b : Baseline} (h : BInv evs b) (hc : Exact b) (op : BOp)
    (hp : (b.step op).2.isPanic = false) (hr : ∀ (C : ContractTy) (o : Idx), op ≠ .remove C o) :
    Exact (b.step op).1 := by
  cases op with
  | register C =>
    rcases registerContract_cases b C with ⟨_, hr⟩ | ⟨hn, hr⟩
    · simpa only [Baseline.step, hr] using hc
    · simp only [Baseline.step, hr]
      intro k o cd hg ho
      have hg : (b.contracts.insert ⟨C.id, []⟩).1.get k = some cd := hg
      rw [get_insert h.c.inv] at hg
      split at hg
      · cases hg; cases ho
      · exact hc k o cd hg ho
  | unregister C k ord =>
    have hp' : (b.unregisterContract C k ord).2.isPanic = false := by
      simp only [Baseline.step] at hp
      cases hx : (b.unregisterContract C k ord).2 <;> rw [hx] at hp <;>
        simp_all [Outcome.map, Outcome.bind, Outcome.isPanic]
    show Exact (b.unregisterContract C k ord).1
    rcases unregister_cases b C k ord with ⟨h1, _⟩ | ⟨cd, cons, done, g1, _, hm, _, ⟨hdn, h5⟩ | ⟨h5, h6⟩⟩
    · rw [h1]; exact hc
    · rw [h5]
      intro k' o cd' hg ho
      have hg : (cons.remove k).1.get k' = some cd' := hg
      rw [get_remove] at hg
      split at hg
      · cases hg
      · rename_i hne
        rw [get_modify hm, if_neg hne] at hg
        obtain ⟨ob, h2⟩ := hc k' o cd' hg ho
        refine ⟨ob, ?_⟩
        show (removeList b.objects done).get o = some ob
        rw [get_removeList, if_neg, h2]
        intro hod
        have hod' : o ∈ cd.objects := (ord.perm _).mem_iff.1 (hdn ▸ hod)
        rcases h.c.listed k o cd g1 hod' with ⟨ob1, h3, h4⟩ | hd
        · rcases h.c.listed k' o cd' hg ho with ⟨ob2, h6, h7⟩ | hd
          · rw [h3] at h6; cases h6; exact hne (by rw [← h7, h4])
          · rw [hd.1] at h3; cases h3
        · rw [hd.1] at h2; cases h2
    · rw [hp'] at h6; cases h6
  | create C k ss cs =>
    show Exact (b.objectCreate C k ss cs).1
    rcases objectCreate_cases b C k ss cs with ⟨⟨cd, hcd⟩, hs, hcs⟩ | ⟨h1, h2, _⟩
    · obtain ⟨cons, hm, hr⟩ := objectCreate_ok hcd hs hcs
      rw [hr]
      intro k' o cd' hg ho
      have hg : cons.get k' = some cd' := hg
      show ∃ ob, (b.objects.insert (createdObj b k ss cs)).1.get o = some ob
      have old : ∀ cd0 : ContractData, b.contracts.get k' = some cd0 → o ∈ cd0.objects →
          ∃ ob, (b.objects.insert (createdObj b k ss cs)).1.get o = some ob := by
        intro cd0 g0 m0
        obtain ⟨ob, h1⟩ := hc k' o cd0 g0 m0
        exact ⟨ob, get_insert_of_some h.o.inv _ _ h1⟩
      rw [get_modify hm] at hg
      split at hg
      · rename_i e; subst e
        rw [hcd] at hg
        cases hg
        rcases List.mem_insert_iff.1 ho with rfl | ho
        · exact ⟨_, get_insert_self h.o.inv _⟩
        · exact old cd hcd ho
      · exact old cd' hg ho
    · rw [h1]; exact hc
  | remove C o' => exact absurd rfl (hr C o')
  | writeState t k v => simp only [Baseline.step, stateWrite]; split <;> exact hc
  | writeChannel t k v => simp only [Baseline.step, channelWrite]; split <;> exact hc
  | setWarp o' w =>
    simp only [Baseline.step, setWarp]
    split
    · exact hc
    · rename_i objs hm
      intro k o cd hg ho
      obtain ⟨ob, h1⟩ := hc k o cd hg ho
      show ∃ ob, objs.get o = some ob
      rw [get_modify hm]
      split
      · rename_i e; rw [← e, h1]; exact ⟨_, rfl⟩
      · exact ⟨ob, h1⟩

/-- No call of the trace panicked. -/
def NoPanic (evs : List Event) : Prop := ∀ e ∈ evs, e.2.isPanic = false
/-- No call of the trace is an `object_remove`. -/
def NoRemove (evs : List Event) : Prop := ∀ (C : ContractTy) (o : Idx) (r : BOut), (BOp.remove C o, r) ∉ evs

theorem trace_covered {P evs : List Event} {b b' : Baseline} (h : BInv P b) (hc : Covered b)
    (ht : Trace b evs b') (hp : NoPanic evs) : Covered b' := by
  induction ht generalizing P with
  | nil b => exact hc
  | cons b op evs b' _ ih =>
    exact ih (step_binv h op) (step_covered h hc op (hp (op, (b.step op).2) (by simp)))
      (fun e he => hp e (by simp [he]))

theorem trace_exact {P evs : List Event} {b b' : Baseline} (h : BInv P b) (hc : Exact b)
    (ht : Trace b evs b') (hp : NoPanic evs) (hr : NoRemove evs) : Exact b' := by
  induction ht generalizing P with
  | nil b => exact hc
  | cons b op evs b' _ ih =>
    refine ih (step_binv h op) (step_exact h hc op (hp (op, (b.step op).2) (by simp)) ?_)
      (fun e he => hp e (by simp [he])) (fun C o r he => hr C o r (by simp [he]))
    rintro C o rfl
    exact hr C o _ (List.mem_cons_self ..)

theorem new_covered (kind : Kind) : Covered (Baseline.new kind) := by
  intro o ob h
  have h : (Arena.new : Arena ObjectD).get o = some ob := h
  rw [get_new] at h; cases h
theorem new_exact (kind : Kind) : Exact (Baseline.new kind) := by
  intro k o cd h
  have h : (Arena.new : Arena ContractData).get k = some cd := h
  rw [get_new] at h; cases h

theorem unregister_ok_iff {evs : List Event} {b : Baseline} (hb : BInv evs b) {C : ContractTy} {h : Idx}
    {cd : ContractData} (hg : b.contracts.get h = some cd) (hid : cd.id = C.id) (ord : HashOrder) :
    (b.unregisterContract C h ord).2 = .ok () ↔
      cd.objects = [] ∨ (C.NoFields ∧ ∀ o ∈ cd.objects, ∃ ob, b.objects.get o = some ob) := by
  obtain ⟨cons, hm⟩ := modify_isSome hg clearObjs
  have hm' : b.contracts.modify h (fun cd => { cd with objects := [] }) = some cons := hm
  have hnd : (ord.order cd.objects).Nodup := (ord.perm _).nodup_iff.2 (hb.c.nodup h cd hg)
  have key := removeObjects_ok_iff C (ord.order cd.objects) { b with contracts := cons } hnd
  have hnil : ord.order cd.objects = [] ↔ cd.objects = [] := by
    constructor
    · intro e; have := ord.perm cd.objects; rw [e] at this; exact this.symm.eq_nil
    · intro e; have := ord.perm cd.objects; rw [e] at this ⊢; exact this.eq_nil
  have hmem : ∀ o, o ∈ ord.order cd.objects ↔ o ∈ cd.objects := fun o => (ord.perm _).mem_iff
  simp only [hnil, hmem] at key
  rw [← key]
  have hu : b.unregisterContract C h ord =
      (match removeObjects C (ord.order cd.objects) { b with contracts := cons } with
        | (b1, .err m) => (b1, .err m)
        | (b1, .panic m) => (b1, .panic m)
        | (b1, .ok ()) => ({ b1 with contracts := (b1.contracts.remove h).1 }, .ok ())) := by
    simp only [unregisterContract, hg, hid, ne_eq, not_true, if_false, hm'] <;> rfl
  rw [hu]
  rcases removeObjects C (ord.order cd.objects) { b with contracts := cons } with ⟨b1, r⟩
  cases r <;> simp

end Verif
