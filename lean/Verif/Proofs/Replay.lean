import Verif.Proofs.Rename
/-! # Replaying a history of calls under other hash orders: the induction -/
namespace Verif
open Arena Store Baseline Spec

/-- `σ` sends the handles issued in the first run to those issued in the second. -/
def Ext (P : List (Idx × Idx)) (σ : Equiv.Perm Idx) : Prop := ∀ p ∈ P, σ p.1 = p.2

theorem Ext.tail {p : Idx × Idx} {P : List (Idx × Idx)} {σ : Equiv.Perm Idx} (h : Ext (p :: P) σ) : Ext P σ :=
  fun q hq => h q (List.mem_cons_of_mem _ hq)

theorem Ext.eq {P : List (Idx × Idx)} {σ τ : Equiv.Perm Idx} (h : Ext P σ) (h' : Ext P τ) {o : Idx} (ho : o ∈ P.map Prod.fst) :
    σ o = τ o := by
  obtain ⟨p, hp, rfl⟩ := List.mem_map.1 ho
  rw [h p hp, h' p hp]

/-- A finite injective correspondence extends to a permutation. -/
theorem ext_exists (P : List (Idx × Idx)) (h1 : (P.map Prod.fst).Nodup) (h2 : (P.map Prod.snd).Nodup) :
    ∃ σ : Equiv.Perm Idx, Ext P σ := by
  induction P with
  | nil => exact ⟨Equiv.refl _, fun p hp => by cases hp⟩
  | cons p P ih =>
    rw [List.map_cons, List.nodup_cons] at h1 h2
    obtain ⟨σ, hσ⟩ := ih h1.2 h2.2
    refine ⟨σ.trans (Equiv.swap (σ p.1) p.2), ?_⟩
    intro q hq
    rcases List.mem_cons.1 hq with rfl | hq
    · simp
    · simp only [Equiv.trans_apply]
      rw [hσ q hq]
      refine Equiv.swap_apply_of_ne_of_ne ?_ ?_
      · intro e
        have : q.1 = p.1 := σ.injective (by rw [hσ q hq, e])
        exact h1.1 (this ▸ List.mem_map_of_mem hq)
      · intro e
        exact h2.1 (e ▸ List.mem_map_of_mem hq)

structure Run (P : List (Idx × Idx)) (b : Baseline) (B : Equiv.Perm Idx → Baseline) : Prop where
  rel : ∀ σ : Equiv.Perm Idx, Ext P σ → Rel σ b (B σ)
  shape : ∀ σ τ : Equiv.Perm Idx, Ext P σ → Ext P τ → (B σ).objects.shape = (B τ).objects.shape
  nd1 : (P.map Prod.fst).Nodup
  nd2 : (P.map Prod.snd).Nodup
  live : ∀ (o : Idx) (v : ObjectD), b.objects.get o = some v → o ∈ P.map Prod.fst
  listed : ∀ (k : Idx) (cd : ContractData), b.contracts.get k = some cd → cd.objects.Nodup ∧ ∀ o ∈ cd.objects, o ∈ P.map Prod.fst
  cinv : Arena.Inv b.contracts
  tr1 : Tracked b.objects (P.map Prod.fst)
  tr2 : ∀ σ : Equiv.Perm Idx, Ext P σ → Tracked (B σ).objects (P.map Prod.snd)

theorem Run.new (k : Kind) : Run [] (Baseline.new k) (fun _ => Baseline.new k) := by
  refine ⟨fun σ _ => Rel.new σ k, fun _ _ _ _ => rfl, List.nodup_nil, List.nodup_nil, ?_, ?_, new_inv, ?_, ?_⟩
  · intro o v h
    have : (Baseline.new k).objects.get o = none := get_new o
    rw [this] at h; cases h
  · intro j cd h
    have : (Baseline.new k).contracts.get j = none := get_new j
    rw [this] at h; cases h
  · intro i hi; cases hi
  · intro σ _ i hi; cases hi

theorem removeList_tracked {α : Type} {a : Arena α} {l : List Idx} (h : Arena.Inv a) (ht : Tracked a l) (os : List Idx) :
    Tracked (removeList a os) l := by
  induction os generalizing a with
  | nil => exact ht
  | cons o os ih => exact ih (remove_inv h o) (step_tracked h ht (.remove o))

/-- A step that issues no object handle. -/
theorem Run.keep {P : List (Idx × Idx)} {b c : Baseline} {B C : Equiv.Perm Idx → Baseline} (h : Run P b B)
    (hrel : ∀ σ : Equiv.Perm Idx, Ext P σ → Rel σ c (C σ))
    (hshape : ∀ σ τ : Equiv.Perm Idx, Ext P σ → Ext P τ → (C σ).objects.shape = (C τ).objects.shape)
    (hlive : ∀ (o : Idx) (v : ObjectD), c.objects.get o = some v → ∃ w, b.objects.get o = some w)
    (hlist : ∀ (k : Idx) (cd : ContractData), c.contracts.get k = some cd → cd.objects = [] ∨ ∃ cd', b.contracts.get k = some cd' ∧ cd.objects = cd'.objects)
    (hci : Arena.Inv c.contracts) (ht1 : Tracked c.objects (P.map Prod.fst))
    (ht2 : ∀ σ : Equiv.Perm Idx, Ext P σ → Tracked (C σ).objects (P.map Prod.snd)) : Run P c C := by
  refine ⟨hrel, hshape, h.nd1, h.nd2, ?_, ?_, hci, ht1, ht2⟩
  · intro o v ho; obtain ⟨w, hw⟩ := hlive o v ho; exact h.live o w hw
  · intro k cd hk
    rcases hlist k cd hk with e | ⟨cd', h1, h2⟩
    · rw [e]; exact ⟨List.nodup_nil, fun o ho => by cases ho⟩
    · rw [h2]; exact h.listed k cd' h1

/-- A step that leaves the objects alone. -/
theorem Run.keepObjs {P : List (Idx × Idx)} {b c : Baseline} {B C : Equiv.Perm Idx → Baseline} (h : Run P b B)
    (hrel : ∀ σ : Equiv.Perm Idx, Ext P σ → Rel σ c (C σ)) (ho : c.objects = b.objects) (ho' : ∀ σ : Equiv.Perm Idx, Ext P σ → (C σ).objects = (B σ).objects)
    (hlist : ∀ (k : Idx) (cd : ContractData), c.contracts.get k = some cd → cd.objects = [] ∨ ∃ cd', b.contracts.get k = some cd' ∧ cd.objects = cd'.objects) (hci : Arena.Inv c.contracts) :
    Run P c C := by
  refine h.keep hrel ?_ (fun o v hv => ⟨v, by rw [← ho]; exact hv⟩) hlist hci (by rw [ho]; exact h.tr1) ?_
  · intro σ τ hσ hτ; rw [ho' σ hσ, ho' τ hτ]; exact h.shape σ τ hσ hτ
  · intro σ hσ; rw [ho' σ hσ]; exact h.tr2 σ hσ

theorem any_map_id (b : Baseline) (σ : Equiv.Perm Idx) (C : ContractTy) :
    ((b.contracts.mapV (renData σ)).iter.any fun e => e.2.id = C.id) = (b.contracts.iter.any fun e => e.2.id = C.id) := by
  rw [mapV_iter, List.any_map]; rfl

theorem register_rel {σ : Equiv.Perm Idx} {b b' : Baseline} (h : Rel σ b b') (C : ContractTy) :
    Rel σ (b.registerContract C).1 (b'.registerContract C).1 ∧ (b'.registerContract C).2 = (b.registerContract C).2 ∧
    (b'.registerContract C).1.objects = b'.objects := by
  unfold registerContract
  rw [h.contracts, any_map_id]
  split
  · exact ⟨h, rfl, rfl⟩
  · have := mapV_insert (renData σ) b.contracts ⟨C.id, []⟩
    have e : renData σ ⟨C.id, []⟩ = ⟨C.id, []⟩ := rfl
    rw [e] at this
    rw [this]
    exact ⟨h.withContracts _, rfl, rfl⟩

theorem register_contracts (b : Baseline) (hinv : Arena.Inv b.contracts) (C : ContractTy) (k : Idx) (cd : ContractData)
    (hk : (b.registerContract C).1.contracts.get k = some cd) :
    cd.objects = [] ∨ ∃ cd', b.contracts.get k = some cd' ∧ cd.objects = cd'.objects := by
  rcases registerContract_cases b C with ⟨_, e⟩ | ⟨_, e⟩
  · rw [e] at hk; exact .inr ⟨cd, hk, rfl⟩
  · rw [e] at hk
    simp only at hk
    rw [get_insert hinv] at hk
    split at hk
    · cases hk; exact .inl rfl
    · exact .inr ⟨cd, hk, rfl⟩

theorem register_cinv (b : Baseline) (hinv : Arena.Inv b.contracts) (C : ContractTy) : Arena.Inv (b.registerContract C).1.contracts := by
  unfold registerContract
  split
  · exact hinv
  · exact insert_inv hinv _

theorem Run.register {P : List (Idx × Idx)} {b : Baseline} {B : Equiv.Perm Idx → Baseline} (h : Run P b B) (C : ContractTy) :
    Run P (b.registerContract C).1 (fun σ => ((B σ).registerContract C).1) := by
  refine h.keepObjs (fun σ hσ => (register_rel (h.rel σ hσ) C).1) ?_ (fun σ hσ => (register_rel (h.rel σ hσ) C).2.2)
    (register_contracts b h.cinv C) (register_cinv b h.cinv C)
  unfold registerContract
  split <;> rfl

theorem stateWrite_rel {σ : Equiv.Perm Idx} {b b' : Baseline} (h : Rel σ b b') (t : PropType) (i : Idx) (v : t.Carrier) :
    Rel σ (b.stateWrite t i v).1 (b'.stateWrite t i (renVal σ t v)).1 ∧ (b'.stateWrite t i (renVal σ t v)).2 = (b.stateWrite t i v).2 := by
  unfold stateWrite
  rcases h.states.write t i v with ⟨e1, e2⟩ | ⟨r, r', e1, e2, hr⟩
  · rw [e1, e2]; exact ⟨h, rfl⟩
  · rw [e1, e2]; exact ⟨⟨h.kind, h.contracts, hr, h.channels, h.objects, h.inv, h.inv'⟩, rfl⟩

theorem channelWrite_rel {σ : Equiv.Perm Idx} {b b' : Baseline} (h : Rel σ b b') (t : PropType) (i : Idx) (v : t.Chan) :
    Rel σ (b.channelWrite t i v).1 (b'.channelWrite t i (renChan σ t v)).1 ∧ (b'.channelWrite t i (renChan σ t v)).2 = (b.channelWrite t i v).2 := by
  unfold channelWrite
  rcases h.channels.write t i v with ⟨e1, e2⟩ | ⟨r, r', e1, e2, hr⟩
  · rw [e1, e2]; exact ⟨h, rfl⟩
  · rw [e1, e2]; exact ⟨⟨h.kind, h.contracts, h.states, hr, h.objects, h.inv, h.inv'⟩, rfl⟩

theorem stateWrite_frame (b : Baseline) (t : PropType) (i : Idx) (v : t.Carrier) :
    (b.stateWrite t i v).1.objects = b.objects ∧ (b.stateWrite t i v).1.contracts = b.contracts := by
  unfold stateWrite; cases b.states.write t i v <;> exact ⟨rfl, rfl⟩

theorem channelWrite_frame (b : Baseline) (t : PropType) (i : Idx) (v : t.Chan) :
    (b.channelWrite t i v).1.objects = b.objects ∧ (b.channelWrite t i v).1.contracts = b.contracts := by
  unfold channelWrite; cases b.channels.write t i v <;> exact ⟨rfl, rfl⟩

theorem Run.stateWrite {P : List (Idx × Idx)} {b : Baseline} {B : Equiv.Perm Idx → Baseline} (h : Run P b B) (t : PropType) (i : Idx) (v : t.Carrier) :
    Run P (b.stateWrite t i v).1 (fun σ => ((B σ).stateWrite t i (renVal σ t v)).1) := by
  have hf := stateWrite_frame b t i v
  exact h.keepObjs (fun σ hσ => (stateWrite_rel (h.rel σ hσ) t i v).1) hf.1 (fun σ _ => (stateWrite_frame _ _ _ _).1)
    (fun k cd e => .inr ⟨cd, by rw [← hf.2]; exact e, rfl⟩) (by rw [hf.2]; exact h.cinv)

theorem Run.channelWrite {P : List (Idx × Idx)} {b : Baseline} {B : Equiv.Perm Idx → Baseline} (h : Run P b B) (t : PropType) (i : Idx) (v : t.Chan) :
    Run P (b.channelWrite t i v).1 (fun σ => ((B σ).channelWrite t i (renChan σ t v)).1) := by
  have hf := channelWrite_frame b t i v
  exact h.keepObjs (fun σ hσ => (channelWrite_rel (h.rel σ hσ) t i v).1) hf.1 (fun σ _ => (channelWrite_frame _ _ _ _).1)
    (fun k cd e => .inr ⟨cd, by rw [← hf.2]; exact e, rfl⟩) (by rw [hf.2]; exact h.cinv)

/-! ## `object_mut` -/

theorem setWarp_spec (b : Baseline) (o : Idx) (w : TimeWarp) :
    (b.objects.get o = none ∧ b.setWarp o w = (b, .err "the given handle doesn't exist in the arena")) ∨
    ∃ objs, b.objects.modify o (fun ob => { ob with warp := w }) = some objs ∧ b.setWarp o w = ({ b with objects := objs }, .ok ()) := by
  cases hg : b.objects.get o with
  | none =>
    have : b.objects.modify o (fun ob => { ob with warp := w }) = none := modify_eq_none.2 hg
    left; exact ⟨rfl, by simp only [Baseline.setWarp, this]⟩
  | some ob =>
    obtain ⟨objs, hm⟩ := modify_isSome hg (fun ob => { ob with warp := w })
    right; exact ⟨objs, hm, by simp only [Baseline.setWarp, hm]⟩

theorem setWarp_shape (b : Baseline) (o : Idx) (w : TimeWarp) : (b.setWarp o w).1.objects.shape = b.objects.shape := by
  rcases setWarp_spec b o w with ⟨_, e⟩ | ⟨objs, hm, e⟩
  · rw [e]
  · rw [e]; exact shape_modify hm

theorem setWarp_tracked {b : Baseline} {l : List Idx} (ht : Tracked b.objects l) (o : Idx) (w : TimeWarp) :
    Tracked (b.setWarp o w).1.objects l := by
  rcases setWarp_spec b o w with ⟨_, e⟩ | ⟨objs, hm, e⟩
  · rw [e]; exact ht
  · rw [e]
    intro i hi'
    rcases ht i hi' with ⟨v, hv⟩ | hd
    · left
      show ∃ v, objs.get i = some v
      rw [get_modify hm]
      split
      · rename_i e; rw [← e, hv]; exact ⟨_, rfl⟩
      · exact ⟨v, hv⟩
    · exact .inr (modify_dead hd hm)

theorem setWarp_rel {σ : Equiv.Perm Idx} {b b' : Baseline} (h : Rel σ b b') (o : Idx) (w : TimeWarp) :
    Rel σ (b.setWarp o w).1 (b'.setWarp (σ o) w).1 ∧ (b'.setWarp (σ o) w).2 = (b.setWarp o w).2 := by
  have ho := h.objects o
  rcases setWarp_spec b o w with ⟨hn, e⟩ | ⟨objs, hm, e⟩ <;> rcases setWarp_spec b' (σ o) w with ⟨hn', e'⟩ | ⟨objs', hm', e'⟩
  · rw [e, e']; exact ⟨h, rfl⟩
  · rw [hn] at ho
    rw [modify_eq_none.2 ho] at hm'; cases hm'
  · rw [hn'] at ho
    rw [modify_eq_none.2 ho.symm] at hm; cases hm
  · rw [e, e']
    refine ⟨⟨h.kind, h.contracts, h.states, h.channels, ?_, modify_inv h.inv hm, modify_inv h.inv' hm'⟩, rfl⟩
    intro i
    simp only
    rw [get_modify hm, get_modify hm', h.objects, h.objects]
    by_cases e : i = o
    · subst e; simp
    · rw [if_neg (fun x => e (σ.injective x)), if_neg e]

theorem Run.setWarp {P : List (Idx × Idx)} {b : Baseline} {B : Equiv.Perm Idx → Baseline} (h : Run P b B) (o : Idx) (w : TimeWarp) :
    Run P (b.setWarp o w).1 (fun σ => ((B σ).setWarp (σ o) w).1) := by
  have hc : (b.setWarp o w).1.contracts = b.contracts := by
    rcases setWarp_spec b o w with ⟨_, e⟩ | ⟨objs, hm, e⟩ <;> rw [e]
  refine h.keep (fun σ hσ => (setWarp_rel (h.rel σ hσ) o w).1) ?_ ?_ (fun k cd e => .inr ⟨cd, by rw [← hc]; exact e, rfl⟩)
    (by rw [hc]; exact h.cinv) ?_ ?_
  · intro σ τ hσ hτ
    rw [setWarp_shape, setWarp_shape]; exact h.shape σ τ hσ hτ
  · intro i v hv
    rcases setWarp_spec b o w with ⟨_, e⟩ | ⟨objs, hm, e⟩
    · rw [e] at hv; exact ⟨v, hv⟩
    · rw [e] at hv
      simp only at hv
      rw [get_modify hm] at hv
      split at hv
      · rename_i e; rw [e]; cases hb : b.objects.get o with
        | none => rw [hb] at hv; cases hv
        | some x => exact ⟨x, rfl⟩
      · exact ⟨v, hv⟩
  · exact setWarp_tracked h.tr1 o w
  · intro σ hσ
    exact setWarp_tracked (h.tr2 σ hσ) _ w

/-! ## Removal -/

theorem remove_dead_eq {α : Type} {a : Arena α} {o : Idx} (h : a.get o = none) : (a.remove o).1 = a := by
  unfold Arena.get at h
  unfold Arena.remove
  cases hs : a.slots[o.slot]? with
  | none => rfl
  | some s =>
    cases s with
    | free n => rfl
    | occ g v =>
      simp only [hs] at h ⊢
      split at h
      · cases h
      · rename_i hne; rw [if_neg hne]

theorem Run.remove {P : List (Idx × Idx)} {b : Baseline} {B : Equiv.Perm Idx → Baseline} (h : Run P b B) (C : ContractTy) (o : Idx) :
    Run P (b.objectRemove C o).1 (fun σ => ((B σ).objectRemove C (σ o)).1) := by
  refine h.keep (fun σ hσ => (objectRemove_rel (h.rel σ hσ) C o).1) ?_ ?_ ?_ ?_ ?_ ?_
  · intro σ τ hσ hτ
    simp only [objectRemove_fst]
    by_cases ho : o ∈ P.map Prod.fst
    · rw [hσ.eq hτ ho]; exact shape_removeList (h.shape σ τ hσ hτ) _
    · have hd : b.objects.get o = none := by
        cases hb : b.objects.get o with
        | none => rfl
        | some v => exact absurd (h.live o v hb) ho
      have e1 : (B σ).objects.get (σ o) = none := by rw [(h.rel σ hσ).objects, hd]
      have e2 : (B τ).objects.get (τ o) = none := by rw [(h.rel τ hτ).objects, hd]
      rw [removeList_singleton, removeList_singleton, remove_dead_eq e1, remove_dead_eq e2]
      exact h.shape σ τ hσ hτ
  · intro i v hv
    rw [objectRemove_fst] at hv
    simp only at hv
    rw [get_removeList] at hv
    split at hv
    · cases hv
    · exact ⟨v, hv⟩
  · intro k cd e
    rw [objectRemove_fst] at e
    exact .inr ⟨cd, e, rfl⟩
  · rw [objectRemove_fst]; exact h.cinv
  · rw [objectRemove_fst]
    obtain ⟨σ, hσ⟩ := ext_exists P h.nd1 h.nd2
    exact removeList_tracked (h.rel σ hσ).inv h.tr1 _
  · intro σ hσ
    rw [objectRemove_fst]
    exact removeList_tracked (h.rel σ hσ).inv' (h.tr2 σ hσ) _

theorem Run.unregister {P : List (Idx × Idx)} {b : Baseline} {B : Equiv.Perm Idx → Baseline} (h : Run P b B) (C : ContractTy) (k : Idx)
    (ord ord' : HashOrder) (calm : Calm b (.unregister C k ord)) :
    Run P (b.unregisterContract C k ord).1 (fun σ => ((B σ).unregisterContract C k ord').1) := by
  have key := fun (σ : Equiv.Perm Idx) (hσ : Ext P σ) => unregister_rel (h.rel σ hσ) (fun k cd e => (h.listed k cd e).1) C k ord ord' calm
  obtain ⟨σ0, hσ0⟩ := ext_exists P h.nd1 h.nd2
  have back : ∀ (j : Idx) (cd cd' : ContractData) (cons : Arena ContractData), b.contracts.modify k clearObjs = some cons → cons.get j = some cd →
      cd.objects = [] ∨ ∃ cd', b.contracts.get j = some cd' ∧ cd.objects = cd'.objects := by
    intro j cd _ cons hm hj
    rw [get_modify hm] at hj
    split at hj
    · cases hb : b.contracts.get k with
      | none => rw [hb] at hj; cases hj
      | some x => rw [hb] at hj; cases hj; exact .inl rfl
    · exact .inr ⟨cd, hj, rfl⟩
  have hobj : ∀ i v, (b.unregisterContract C k ord).1.objects.get i = some v → ∃ w, b.objects.get i = some w := by
    intro i v hv
    rcases unregister_cases b C k ord with ⟨e, _⟩ | ⟨cd, cons, done, _, _, _, _, ⟨_, e⟩ | ⟨e, _⟩⟩
    · rw [e] at hv; exact ⟨v, hv⟩
    all_goals
      rw [e] at hv
      simp only at hv
      rw [get_removeList] at hv
      split at hv
      · cases hv
      · exact ⟨v, hv⟩
  refine h.keep (fun σ hσ => (key σ hσ).1) ?_ hobj ?_ ?_ ?_ ?_
  · intro σ τ hσ hτ
    by_cases hc : ∃ cd : ContractData, b.contracts.get k = some cd ∧ cd.id = C.id
    · obtain ⟨cd, hk, hid⟩ := hc
      rw [(key σ hσ).2.2.1 cd hk hid, (key τ hτ).2.2.1 cd hk hid]
      have : cd.objects.map σ = cd.objects.map τ := List.map_congr_left fun o ho => hσ.eq hτ ((h.listed k cd hk).2 o ho)
      rw [this]
      exact shape_removeList (h.shape σ τ hσ hτ) _
    · rw [(key σ hσ).2.2.2 hc, (key τ hτ).2.2.2 hc]
      exact h.shape σ τ hσ hτ
  · intro j cd hj
    rcases unregister_cases b C k ord with ⟨e, _⟩ | ⟨cd0, cons, done, _, _, hm, _, ⟨_, e⟩ | ⟨e, _⟩⟩
    · rw [e] at hj; exact .inr ⟨cd, hj, rfl⟩
    · rw [e] at hj
      simp only at hj
      rw [get_remove] at hj
      split at hj
      · cases hj
      · exact back j cd cd0 cons hm hj
    · rw [e] at hj; exact back j cd cd0 cons hm hj
  · rcases unregister_cases b C k ord with ⟨e, _⟩ | ⟨cd0, cons, done, _, _, hm, _, ⟨_, e⟩ | ⟨e, _⟩⟩
    · rw [e]; exact h.cinv
    · rw [e]; exact remove_inv (modify_inv h.cinv hm) _
    · rw [e]; exact modify_inv h.cinv hm
  · rcases unregister_cases b C k ord with ⟨e, _⟩ | ⟨cd0, cons, done, _, _, hm, _, ⟨_, e⟩ | ⟨e, _⟩⟩
    · rw [e]; exact h.tr1
    all_goals rw [e]; exact removeList_tracked (h.rel σ0 hσ0).inv h.tr1 _
  · intro σ hσ
    rcases unregister_cases (B σ) C k ord' with ⟨e, _⟩ | ⟨cd0, cons, done, _, _, hm, _, ⟨_, e⟩ | ⟨e, _⟩⟩
    · rw [e]; exact h.tr2 σ hσ
    all_goals rw [e]; exact removeList_tracked (h.rel σ hσ).inv' (h.tr2 σ hσ) _

/-! ## Creation -/

/-- The `object_create` of the second run. -/
def create2 (B : Equiv.Perm Idx → Baseline) (C : ContractTy) (k : Idx) (ss : List DynProp) (cs : List DynChannel) (σ : Equiv.Perm Idx) :
    Baseline × Outcome Idx :=
  (B σ).objectCreate C k (ss.map (renDyn σ)) (cs.map fun c => ⟨c.1, renChan σ c.1 c.2⟩)

theorem create_contracts {b : Baseline} {C : ContractTy} {k : Idx} {ss : List DynProp} {cs : List DynChannel} {o : Idx}
    (ho : (b.objectCreate C k ss cs).2 = .ok o) :
    ∃ cons, b.contracts.modify k (addObj o) = some cons ∧ (b.objectCreate C k ss cs).1.contracts = cons := by
  rcases objectCreate_cases b C k ss cs with ⟨⟨cd, hk⟩, hs, hc⟩ | ⟨_, he, _⟩
  · obtain ⟨cons, hm, e⟩ := objectCreate_ok hk hs hc
    rw [e] at ho ⊢
    cases ho
    exact ⟨cons, hm, rfl⟩
  · rw [ho] at he; cases he

theorem Run.create {P : List (Idx × Idx)} {b : Baseline} {B : Equiv.Perm Idx → Baseline} (h : Run P b B) (C : ContractTy) (k : Idx)
    (ss : List DynProp) (cs : List DynChannel) :
    ∃ P' : List (Idx × Idx), (∀ p ∈ P, p ∈ P') ∧
      Run P' (b.objectCreate C k ss cs).1 (fun σ => (create2 B C k ss cs σ).1) ∧
      ∀ σ : Equiv.Perm Idx, Ext P' σ → (create2 B C k ss cs σ).2 = (b.objectCreate C k ss cs).2.map σ := by
  obtain ⟨σ0, hσ0⟩ := ext_exists P h.nd1 h.nd2
  by_cases hok : ∃ o, (b.objectCreate C k ss cs).2 = .ok o
  · let x0 : ObjectD := ⟨[], [], k, TimeWarp.default⟩
    let i : Idx := (b.objects.insert x0).2
    let j : Idx := ((B σ0).objects.insert x0).2
    have hinv : Arena.Inv b.objects := (h.rel σ0 hσ0).inv
    have hi : ∀ x : ObjectD, (b.objects.insert x).2 = i := fun x => next_idx rfl x0 x
    have hj : ∀ (σ : Equiv.Perm Idx), Ext P σ → ∀ x : ObjectD, ((B σ).objects.insert x).2 = j :=
      fun σ hσ x => next_idx (h.shape σ σ0 hσ hσ0) x0 x
    have ni : i ∉ P.map Prod.fst := insert_not_issued hinv h.tr1 x0
    have nj : j ∉ P.map Prod.snd := insert_not_issued (h.rel σ0 hσ0).inv' (h.tr2 σ0 hσ0) x0
    have key := fun (σ : Equiv.Perm Idx) (hσ : Ext ((i, j) :: P) σ) => create_rel (h.rel σ hσ.tail) C k ss cs
      (fun _ x y => by rw [hi x, hj σ hσ.tail y]; exact (hσ (i, j) (List.mem_cons_self ..)).symm)
    obtain ⟨o, ho⟩ := hok
    obtain ⟨cons, hm, hcons⟩ := create_contracts ho
    have nd1 : (((i, j) :: P).map Prod.fst).Nodup := by rw [List.map_cons, List.nodup_cons]; exact ⟨ni, h.nd1⟩
    have nd2 : (((i, j) :: P).map Prod.snd).Nodup := by rw [List.map_cons, List.nodup_cons]; exact ⟨nj, h.nd2⟩
    obtain ⟨σ1, hσ1⟩ := ext_exists _ nd1 nd2
    obtain ⟨x, y, e1, e2, _⟩ := (key σ1 hσ1).2.2.1 ⟨o, ho⟩
    have hoi : o = i := by
      rw [ho] at e1
      rw [← hi x]
      exact Outcome.ok.inj e1
    refine ⟨(i, j) :: P, fun p hp => List.mem_cons_of_mem _ hp, ⟨fun σ hσ => (key σ hσ).1, ?_, nd1, nd2, ?_, ?_, ?_, ?_, ?_⟩,
      fun σ hσ => (key σ hσ).2.1⟩
    · intro σ τ hσ hτ
      obtain ⟨_, y1, _, _, s1⟩ := (key σ hσ).2.2.1 ⟨o, ho⟩
      obtain ⟨_, y2, _, _, s2⟩ := (key τ hτ).2.2.1 ⟨o, ho⟩
      show (create2 B C k ss cs σ).1.objects.shape = (create2 B C k ss cs τ).1.objects.shape
      unfold create2
      rw [s1, s2]
      have h1 := shape_insert (B σ).objects y1
      have h2 := shape_insert (B τ).objects y2
      rw [h.shape σ τ hσ.tail hτ.tail] at h1
      exact congrArg Prod.fst (h1.symm.trans h2)
    · intro p v hp
      rw [e2, get_insert hinv, hi x] at hp
      rw [List.map_cons, List.mem_cons]
      split at hp
      · rename_i e; exact .inl e
      · exact .inr (h.live p v hp)
    · intro q cd hq
      rw [hcons, get_modify hm] at hq
      have hsub : ∀ cd' : ContractData, ∀ r : Idx, b.contracts.get r = some cd' → ∀ z ∈ cd'.objects, z ∈ ((i, j) :: P).map Prod.fst :=
        fun cd' r hr z hz => by rw [List.map_cons]; exact List.mem_cons_of_mem _ ((h.listed r cd' hr).2 z hz)
      split at hq
      · cases hb : b.contracts.get k with
        | none => rw [hb] at hq; cases hq
        | some cd' =>
          rw [hb] at hq
          cases hq
          refine ⟨nodup_addObj (h.listed k cd' hb).1, ?_⟩
          intro z hz
          rcases List.mem_insert_iff.1 hz with e | hz
          · rw [e, hoi]; simp
          · exact hsub cd' k hb z hz
      · exact ⟨(h.listed q cd hq).1, hsub cd q hq⟩
    · rw [hcons]; exact modify_inv h.cinv hm
    · rw [e2]
      have := insert_tracked hinv h.tr1 x
      rw [hi x] at this
      exact this
    · intro σ hσ
      obtain ⟨_, y1, _, _, s1⟩ := (key σ hσ).2.2.1 ⟨o, ho⟩
      show Tracked (create2 B C k ss cs σ).1.objects _
      unfold create2
      rw [s1]
      have := insert_tracked (h.rel σ hσ.tail).inv' (h.tr2 σ hσ.tail) y1
      rw [hj σ hσ.tail y1] at this
      exact this
  · have key := fun (σ : Equiv.Perm Idx) (hσ : Ext P σ) => create_rel (h.rel σ hσ) C k ss cs (fun x => absurd x hok)
    have e1 := ((key σ0 hσ0).2.2.2 hok).1
    have e2 := fun (σ : Equiv.Perm Idx) (hσ : Ext P σ) => ((key σ hσ).2.2.2 hok).2
    refine ⟨P, fun p hp => hp, ?_, fun σ hσ => (key σ hσ).2.1⟩
    refine h.keepObjs (fun σ hσ => (key σ hσ).1) (by rw [e1]) (fun σ hσ => by unfold create2; rw [e2 σ hσ]) ?_ (by rw [e1]; exact h.cinv)
    intro q cd hq
    rw [e1] at hq
    exact .inr ⟨cd, hq, rfl⟩

/-! ## One call, and a history of calls -/

theorem Run.step {P : List (Idx × Idx)} {b : Baseline} {B : Equiv.Perm Idx → Baseline} (h : Run P b B) (op : BOp) (ord : HashOrder)
    (calm : Calm b op) :
    ∃ P' : List (Idx × Idx), (∀ p ∈ P, p ∈ P') ∧
      Run P' (b.step op).1 (fun σ => ((B σ).step (replay σ ord op)).1) ∧
      ∀ σ : Equiv.Perm Idx, Ext P' σ → ((B σ).step (replay σ ord op)).2 = replayOut σ (op, (b.step op).2) := by
  cases op with
  | register C =>
    refine ⟨P, fun p hp => hp, h.register C, fun σ hσ => ?_⟩
    show (((B σ).registerContract C).2.map some) = ((b.registerContract C).2.map some)
    rw [(register_rel (h.rel σ hσ) C).2.1]
  | unregister C k o =>
    refine ⟨P, fun p hp => hp, h.unregister C k o ord calm, fun σ hσ => ?_⟩
    show (((B σ).unregisterContract C k ord).2.map fun _ => none) = ((b.unregisterContract C k o).2.map fun _ => none)
    rw [(unregister_rel (h.rel σ hσ) (fun k cd e => (h.listed k cd e).1) C k o ord calm).2.1]
  | create C k ss cs =>
    obtain ⟨P', h1, h2, h3⟩ := h.create C k ss cs
    refine ⟨P', h1, h2, fun σ hσ => ?_⟩
    show ((create2 B C k ss cs σ).2.map some) = ((b.objectCreate C k ss cs).2.map some).map (Option.map σ)
    rw [h3 σ hσ]
    cases (b.objectCreate C k ss cs).2 <;> rfl
  | remove C o =>
    refine ⟨P, fun p hp => hp, h.remove C o, fun σ hσ => ?_⟩
    show (((B σ).objectRemove C (σ o)).2.map fun _ => none) = ((b.objectRemove C o).2.map fun _ => none)
    rw [(objectRemove_rel (h.rel σ hσ) C o).2]
  | writeState t i v =>
    refine ⟨P, fun p hp => hp, h.stateWrite t i v, fun σ hσ => ?_⟩
    show (((B σ).stateWrite t i (renVal σ t v)).2.map fun _ => none) = ((b.stateWrite t i v).2.map fun _ => none)
    rw [(stateWrite_rel (h.rel σ hσ) t i v).2]
  | writeChannel t i v =>
    refine ⟨P, fun p hp => hp, h.channelWrite t i v, fun σ hσ => ?_⟩
    show (((B σ).channelWrite t i (renChan σ t v)).2.map fun _ => none) = ((b.channelWrite t i v).2.map fun _ => none)
    rw [(channelWrite_rel (h.rel σ hσ) t i v).2]
  | setWarp o w =>
    refine ⟨P, fun p hp => hp, h.setWarp o w, fun σ hσ => ?_⟩
    show (((B σ).setWarp (σ o) w).2.map fun _ => none) = ((b.setWarp o w).2.map fun _ => none)
    rw [(setWarp_rel (h.rel σ hσ) o w).2]

theorem Run.runOps {P : List (Idx × Idx)} {b : Baseline} {B : Equiv.Perm Idx → Baseline} (h : Run P b B) (ops : List BOp)
    (ords : Nat → HashOrder) (calm : CalmRun b ops) :
    ∃ P' : List (Idx × Idx), (∀ p ∈ P, p ∈ P') ∧
      Run P' (b.runOps ops).2 (fun σ => ((B σ).runOps (replayAll σ ords ops)).2) ∧
      ∀ σ : Equiv.Perm Idx, Ext P' σ → ((B σ).runOps (replayAll σ ords ops)).1.map Prod.snd = (b.runOps ops).1.map (replayOut σ) := by
  induction ops generalizing P b B ords with
  | nil => exact ⟨P, fun p hp => hp, h, fun _ _ => rfl⟩
  | cons op ops ih =>
    obtain ⟨P1, a1, a2, a3⟩ := h.step op (ords 0) calm.1
    obtain ⟨P2, c1, c2, c3⟩ := ih a2 (fun k => ords (k + 1)) calm.2
    refine ⟨P2, fun p hp => c1 p (a1 p hp), c2, fun σ hσ => ?_⟩
    have hσ1 : Ext P1 σ := fun p hp => hσ p (c1 p hp)
    have e := congr (congrArg List.cons (a3 σ hσ1)) (c3 σ hσ)
    exact e

theorem replay_exists (k : Kind) (ops : List BOp) (ords : Nat → HashOrder) (calm : CalmRun (Baseline.new k) ops) :
    ∃ σ : Equiv.Perm Idx,
      (((Baseline.new k).runOps (replayAll σ ords ops)).1.map Prod.snd = ((Baseline.new k).runOps ops).1.map (replayOut σ)) ∧
      Renamed σ ((Baseline.new k).runOps ops).2 ((Baseline.new k).runOps (replayAll σ ords ops)).2 := by
  obtain ⟨P, _, h2, h3⟩ := (Run.new k).runOps ops ords calm
  obtain ⟨σ, hσ⟩ := ext_exists P h2.nd1 h2.nd2
  exact ⟨σ, h3 σ hσ, (h2.rel σ hσ).renamed⟩

end Verif
