import Verif.Proofs.BaselineApi
/-! # What a contract lists was created through it, removed or not -/
namespace Verif
open Arena Baseline Store

/-- Everything a contract lists was created through its handle, and no handle was created twice. -/
structure LInv (evs : List Event) (b : Baseline) : Prop where
  made : ∀ (h o : Idx) (cd : ContractData), b.contracts.get h = some cd → o ∈ cd.objects →
    ∃ C, DidCreate evs C h o
  once : ∀ (C C' : ContractTy) (h h' o : Idx), DidCreate evs C h o → DidCreate evs C' h' o → C = C' ∧ h = h'

theorem didCreate_mono {evs : List Event} {e : Event} {C : ContractTy} {h o : Idx} (hd : DidCreate evs C h o) :
    DidCreate (evs ++ [e]) C h o := by
  obtain ⟨ss, cs, hm⟩ := hd
  exact ⟨ss, cs, by simp [hm]⟩

theorem LInv.same {evs : List Event} {b b' : Baseline} (h : LInv evs b) {e : Event}
    (he : ∀ (C : ContractTy) (k o : Idx), DidCreate (evs ++ [e]) C k o → DidCreate evs C k o)
    (hc : ∀ (k o : Idx) (cd : ContractData), b'.contracts.get k = some cd → o ∈ cd.objects →
      ∃ cd0, b.contracts.get k = some cd0 ∧ o ∈ cd0.objects) : LInv (evs ++ [e]) b' := by
  refine ⟨?_, fun C C' k k' o h1 h2 => h.once C C' k k' o (he _ _ _ h1) (he _ _ _ h2)⟩
  intro k o cd hg ho
  obtain ⟨cd0, h1, h2⟩ := hc k o cd hg ho
  obtain ⟨C, hd⟩ := h.made k o cd0 h1 h2
  exact ⟨C, didCreate_mono hd⟩

theorem step_linv {evs : List Event} {b : Baseline} (hb : BInv evs b) (h : LInv evs b) (op : BOp) :
    LInv (evs ++ [(op, (b.step op).2)]) (b.step op).1 := by
  cases op with
  | register C =>
    refine h.same ?_ ?_
    · rintro C' k o ⟨ss, cs, hm⟩
      exact ⟨ss, cs, by simpa using hm⟩
    · rcases registerContract_cases b C with ⟨_, hr⟩ | ⟨hn, hr⟩
      · simp only [Baseline.step, hr]; exact fun k o cd hg ho => ⟨cd, hg, ho⟩
      · simp only [Baseline.step, hr]
        intro k o cd hg ho
        have hg : (b.contracts.insert ⟨C.id, []⟩).1.get k = some cd := hg
        rw [get_insert hb.c.inv] at hg
        split at hg
        · cases hg; cases ho
        · exact ⟨cd, hg, ho⟩
  | unregister C k ord =>
    refine h.same ?_ ?_
    · rintro C' k o ⟨ss, cs, hm⟩
      exact ⟨ss, cs, by simpa using hm⟩
    · show ∀ (k' o : Idx) (cd : ContractData), (b.unregisterContract C k ord).1.contracts.get k' = some cd → _
      rcases unregister_cases b C k ord with ⟨h1, _⟩ | ⟨cd, cons, done, g1, _, hm, _, ⟨hdn, h5⟩ | ⟨h5, h6⟩⟩
      · rw [h1]; exact fun k o cd hg ho => ⟨cd, hg, ho⟩
      · rw [h5]
        intro k' o cd' hg ho
        have hg : (cons.remove k).1.get k' = some cd' := hg
        rw [get_remove] at hg
        split at hg
        · cases hg
        · rename_i hne
          rw [get_modify hm, if_neg hne] at hg
          exact ⟨cd', hg, ho⟩
      · rw [h5]
        intro k' o cd' hg ho
        have hg : cons.get k' = some cd' := hg
        rw [get_modify hm] at hg
        split at hg
        · rename_i e; subst e
          rw [g1] at hg; cases hg; cases ho
        · exact ⟨cd', hg, ho⟩
  | create C k ss cs =>
    show LInv (evs ++ [(_, (b.objectCreate C k ss cs).2.map some)]) (b.objectCreate C k ss cs).1
    rcases objectCreate_cases b C k ss cs with ⟨⟨cd, hcd⟩, hs, hcs⟩ | ⟨h1, h2, _⟩
    · obtain ⟨cons, hm, hr⟩ := objectCreate_ok hcd hs hcs
      have hnew := fun C' k' => hb.o.not_created (createdObj b k ss cs) C' k'
      rw [hr]
      have old : ∀ (C' : ContractTy) (k' o : Idx), DidCreate (evs ++ [(BOp.create C k ss cs,
          (Outcome.ok (b.objects.insert (createdObj b k ss cs)).2).map some)]) C' k' o →
          DidCreate evs C' k' o ∨ (C' = C ∧ k' = k ∧ o = (b.objects.insert (createdObj b k ss cs)).2) := by
        rintro C' k' o ⟨ss', cs', hm⟩
        rcases List.mem_append.1 hm with hm | hm
        · exact .inl ⟨ss', cs', hm⟩
        · simp [Outcome.map, Outcome.bind] at hm
          exact .inr ⟨hm.1.1, hm.1.2.1, hm.2⟩
      refine ⟨?_, ?_⟩
      · intro k' o cd' hg ho
        have hg : cons.get k' = some cd' := hg
        rw [get_modify hm] at hg
        split at hg
        · rename_i e; subst e
          rw [hcd] at hg
          cases hg
          rcases List.mem_insert_iff.1 ho with rfl | ho
          · exact ⟨C, ss, cs, by simp [Outcome.map, Outcome.bind]⟩
          · obtain ⟨C', hd⟩ := h.made _ _ _ hcd ho
            exact ⟨C', didCreate_mono hd⟩
        · obtain ⟨C', hd⟩ := h.made _ _ _ hg ho
          exact ⟨C', didCreate_mono hd⟩
      · intro C1 C2 k1 k2 o h1 h2
        rcases old _ _ _ h1 with h3 | ⟨rfl, rfl, rfl⟩ <;> rcases old _ _ _ h2 with h4 | ⟨rfl, rfl, e⟩
        · exact h.once _ _ _ _ _ h3 h4
        · subst e; exact absurd h3 (hnew _ _)
        · exact absurd h4 (hnew _ _)
        · exact ⟨rfl, rfl⟩
    · rw [h1]
      refine h.same ?_ (fun k o cd hg ho => ⟨cd, hg, ho⟩)
      rintro C' k' o ⟨ss', cs', hm⟩
      rcases List.mem_append.1 hm with hm | hm
      · exact ⟨ss', cs', hm⟩
      · simp at hm
        obtain ⟨_, hm⟩ := hm
        cases hx : (b.objectCreate C k ss cs).2 <;> rw [hx] at hm h2 <;>
          simp_all [Outcome.map, Outcome.bind, Outcome.isErr]
  | remove C o' =>
    refine h.same ?_ ?_
    · rintro C' k o ⟨ss, cs, hm⟩
      exact ⟨ss, cs, by simpa using hm⟩
    · show ∀ (k' o : Idx) (cd : ContractData), (b.objectRemove C o').1.contracts.get k' = some cd → _
      rw [objectRemove_fst]
      exact fun k o cd hg ho => ⟨cd, hg, ho⟩
  | writeState t k v =>
    refine h.same ?_ ?_
    · rintro C' k o ⟨ss, cs, hm⟩
      exact ⟨ss, cs, by simpa using hm⟩
    · simp only [Baseline.step, stateWrite]; split <;> exact fun k o cd hg ho => ⟨cd, hg, ho⟩
  | writeChannel t k v =>
    refine h.same ?_ ?_
    · rintro C' k o ⟨ss, cs, hm⟩
      exact ⟨ss, cs, by simpa using hm⟩
    · simp only [Baseline.step, channelWrite]; split <;> exact fun k o cd hg ho => ⟨cd, hg, ho⟩
  | setWarp o' w =>
    refine h.same ?_ ?_
    · rintro C' k o ⟨ss, cs, hm⟩
      exact ⟨ss, cs, by simpa using hm⟩
    · simp only [Baseline.step, setWarp]; split <;> exact fun k o cd hg ho => ⟨cd, hg, ho⟩

theorem trace_linv {P evs : List Event} {b b' : Baseline} (hb : BInv P b) (h : LInv P b) (ht : Trace b evs b') :
    LInv (P ++ evs) b' := by
  induction ht generalizing P with
  | nil b => simpa using h
  | cons b op evs b' _ ih =>
    have := ih (step_binv hb op) (step_linv hb h op)
    simpa using this

theorem new_linv (kind : Kind) : LInv [] (Baseline.new kind) := by
  refine ⟨?_, ?_⟩
  · intro h o cd hg
    have := (new_binv kind).c.origin h cd hg
    obtain ⟨C, _, hr⟩ := this
    cases hr
  · rintro C C' h h' o ⟨ss, cs, hm⟩
    cases hm

theorem history_linv {kind : Kind} {evs : List Event} {b : Baseline} (hH : History kind evs b) : LInv evs b := by
  have := trace_linv (new_binv kind) (new_linv kind) hH
  simpa using this

end Verif
