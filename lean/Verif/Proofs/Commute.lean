import Verif.Proofs.SimRun
import Verif.Proofs.Determinism
/-! # Calls that do not depend on each other -/
namespace Verif
open Arena Store Baseline Spec

/-- A write to a live entry and an insert commute. -/
theorem Arena.insert_modify {α : Type} {a a' : Arena α} {i : Idx} {f : α → α} (hm : a.modify i f = some a') (v : α) :
    (a.insert v).1.modify i f = some (a'.insert v).1 ∧ (a'.insert v).2 = (a.insert v).2 := by
  unfold Arena.modify at hm
  cases hs : a.slots[i.slot]? with
  | none => simp only [hs] at hm; cases hm
  | some s =>
    cases s with
    | free n => simp only [hs] at hm; cases hm
    | occ g x =>
      simp only [hs] at hm
      by_cases hg : g = i.gen
      · rw [if_pos hg] at hm
        cases hm
        have hlt := (List.getElem?_eq_some_iff.1 hs).1
        have key : ∀ (b : Arena α) (k : Nat) (s : Slot α), b.slots[i.slot]? = some (.occ g x) → k ≠ i.slot →
            ({ b with slots := b.slots.set k s } : Arena α).modify i f = some { b with slots := (b.slots.set i.slot (.occ g (f x))).set k s } := by
          intro b k s hb hk
          unfold Arena.modify
          simp only [List.getElem?_set_ne hk, hb, if_pos hg]
          rw [List.set_comm _ _ hk]
        unfold Arena.insert Arena.insert? Arena.tryInsert
        cases hh : a.head with
        | some k =>
          simp only
          by_cases hk : k = i.slot
          · subst hk
            simp only [hs, List.getElem?_set_self hlt]
            refine ⟨?_, ?_⟩
            · simp [Arena.modify, hs, hg, hh]
            · simp
          · rw [List.getElem?_set_ne (fun e => hk e.symm)]
            cases hk2 : a.slots[k]? with
            | none =>
              simp only
              refine ⟨?_, ?_⟩
              · simp [Arena.modify, hs, hg, hh]
              · simp
            | some s =>
              cases s with
              | occ g' x' =>
                simp only
                refine ⟨?_, ?_⟩
                · simp [Arena.modify, hs, hg, hh]
                · simp
              | free n =>
                simp only
                exact ⟨key { a with head := n, count := a.count + 1 } k _ hs hk, by simp⟩
        | none =>
          simp only [Arena.reserve, List.length_set]
          have e1 : ((a.slots.set i.slot (.occ g (f x))) ++ (List.range a.slots.length).map (fun k =>
              if k + 1 = a.slots.length then Slot.free none else Slot.free (some (a.slots.length + k + 1)))) =
              (a.slots ++ (List.range a.slots.length).map (fun k =>
              if k + 1 = a.slots.length then Slot.free none else Slot.free (some (a.slots.length + k + 1)))).set i.slot (.occ g (f x)) := by
            rw [List.set_append_left _ _ hlt]
          simp only [hh, e1]
          have hs' : (a.slots ++ (List.range a.slots.length).map (fun k =>
              if k + 1 = a.slots.length then (Slot.free none : Slot α) else Slot.free (some (a.slots.length + k + 1))))[i.slot]? = some (.occ g x) := by
            rw [List.getElem?_append_left hlt, hs]
          have hne : a.slots.length ≠ i.slot := by omega
          rw [List.getElem?_set_ne hne.symm]
          generalize (a.slots ++ (List.range a.slots.length).map (fun k =>
              if k + 1 = a.slots.length then (Slot.free none : Slot α) else Slot.free (some (a.slots.length + k + 1)))) = sl at hs' ⊢
          cases hk2 : sl[a.slots.length]? with
          | none => simp only; refine ⟨?_, ?_⟩ <;> simp [Arena.modify, hs, hg, hh]
          | some s =>
            cases s with
            | occ g' x' => simp only; refine ⟨?_, ?_⟩ <;> simp [Arena.modify, hs, hg, hh]
            | free n =>
              simp only
              exact ⟨key { a with slots := sl, head := n, count := a.count + 1 } a.slots.length _ hs' hne, by simp⟩
      · rw [if_neg hg] at hm; cases hm

namespace Matched
variable {α β : Type} {r : Idx → Idx → Prop} {R : α → β → Prop} {a : Arena α} {b : Arena β}

/-- Insert on the left only. -/
theorem insertL (h : Matched r R a b) (v : α) : Matched r R (a.insert v).1 b := by
  refine ⟨insert_inv h.linv v, h.rinv, h.det, h.inj, fun i j hr => ?_⟩
  rcases h.pair i j hr with ⟨v', w', g1, g2, g3⟩ | ⟨g1, g2⟩
  · exact .inl ⟨v', w', get_insert_of_some h.linv v v' g1, g2, g3⟩
  · exact .inr ⟨insert_dead h.linv g1 v, g2⟩

/-- Insert on the right, for a handle of the left that had no counterpart. -/
theorem adopt (h : Matched r R a b) {i : Idx} {v : α} {w : β} (hg : a.get i = some v) (hn : ∀ j : Idx, ¬ r i j) (hR : R v w) :
    Matched (fun i' j => r i' j ∨ (i' = i ∧ j = (b.insert w).2)) R a (b.insert w).1 := by
  refine ⟨h.linv, insert_inv h.rinv w, ?_, ?_, ?_⟩
  · rintro i' j j' (h1 | ⟨h1, h1'⟩) (h2 | ⟨h2, h2'⟩)
    · exact h.det i' j j' h1 h2
    · exact absurd (h2 ▸ h1) (hn j)
    · exact absurd (h1 ▸ h2) (hn j')
    · rw [h1', h2']
  · rintro i1 i2 j (h1 | ⟨h1, h1'⟩) (h2 | ⟨h2, h2'⟩)
    · exact h.inj i1 i2 j h1 h2
    · exact absurd h2' (h.ne_new' h1 w)
    · exact absurd h1' (h.ne_new' h2 w)
    · rw [h1, h2]
  · rintro i' j (h1 | ⟨rfl, rfl⟩)
    · rcases h.pair i' j h1 with ⟨v', w', g1, g2, g3⟩ | ⟨g1, g2⟩
      · exact .inl ⟨v', w', g1, get_insert_of_some h.rinv w w' g2, g3⟩
      · exact .inr ⟨g1, insert_dead h.rinv g2 w⟩
    · exact .inl ⟨v, w, hg, get_insert_self h.rinv w, hR⟩

/-- Two inserts, in one order on the left and in the other on the right. -/
theorem swap (h : Matched r R a b) {v1 v2 : α} {w1 w2 : β} (h1 : R v1 w1) (h2 : R v2 w2) :
    Matched (fun i j => (r i j ∨ (i = ((a.insert v1).1.insert v2).2 ∧ j = (b.insert w2).2)) ∨
      (i = (a.insert v1).2 ∧ j = ((b.insert w2).1.insert w1).2)) R ((a.insert v1).1.insert v2).1 ((b.insert w2).1.insert w1).1 := by
  have hL := h.insertL v1
  refine (hL.insert h2).adopt (get_insert_of_some hL.linv v2 v1 (get_insert_self h.linv v1)) ?_ h1
  rintro j (z | ⟨z, _⟩)
  · exact h.ne_new z v1 rfl
  · have := insert_fresh hL.linv v2
    rw [← z, get_insert_self h.linv v1] at this
    cases this

end Matched

/-! ## Stores -/

section
variable {F : PropType → Type} {r : PropType → Idx → Idx → Prop} {R : (t : PropType) → F t → F t → Prop}

theorem StoreMatched.createL {s s' : Store F} (h : StoreMatched r R s s') (ps : List ((t : PropType) × F t)) :
    StoreMatched r R (Baseline.createAll s ps).1 s' := by
  induction ps generalizing s with
  | nil => exact h
  | cons p ps ih =>
    refine ih (s := (s.create p.1 p.2).1) fun t => ?_
    rw [create_eq]
    by_cases e : t = p.1
    · subst e
      show Matched _ _ (arenaOf (Function.update s p.1 _) p.1) _
      rw [arenaOf_update_self]
      exact (h p.1).insertL p.2
    · show Matched _ _ (arenaOf (Function.update s p.1 _) t) _
      rw [arenaOf_update_ne s e]
      exact h t

theorem StoreMatched.adoptAll {ps qs : List ((t : PropType) × F t)} (hp : PropsMatched R ps qs) :
    ∀ {r : PropType → Idx → Idx → Prop} {s s' : Store F} {is : List Idx}, StoreMatched r R s s' → is.length = ps.length →
    (∀ (k : Nat) (p : (t : PropType) × F t) (i : Idx), ps[k]? = some p → is[k]? = some i → s.get p.1 i = some p.2 ∧ ∀ j : Idx, ¬ r p.1 i j) →
    (∀ (k l : Nat) (p q : (t : PropType) × F t) (i : Idx), ps[k]? = some p → is[k]? = some i → ps[l]? = some q → is[l]? = some i → p.1 = q.1 → k = l) →
    ∃ r' : PropType → Idx → Idx → Prop, (∀ (t : PropType) (i j : Idx), r t i j → r' t i j) ∧
      StoreMatched r' R s (Baseline.createAll s' qs).1 ∧ FieldsMatched r' (ps.map Sigma.fst) is (Baseline.createAll s' qs).2 := by
  induction hp with
  | nil =>
    intro r s s' is h hl _ _
    have : is = [] := List.length_eq_zero_iff.1 hl
    subst this
    exact ⟨r, fun _ _ _ h => h, h, rfl, fun n i j h1 => by simp at h1⟩
  | cons hpq _ ih =>
    intro r s s' is h hl hv hd
    obtain ⟨t, v, w, rfl, rfl, hR⟩ := hpq
    cases is with
    | nil => cases hl
    | cons i is =>
      obtain ⟨hg, hn⟩ := hv 0 ⟨t, v⟩ i rfl rfl
      have hm : StoreMatched (fun t' i' j => r t' i' j ∨ (t' = t ∧ i' = i ∧ j = (s'.create t w).2)) R s (s'.create t w).1 := by
        intro t'
        rw [create_eq]
        by_cases e : t' = t
        · subst e
          show Matched _ _ _ (arenaOf (Function.update s' t' _) t')
          rw [arenaOf_update_self]
          rw [Store.get_eq] at hg
          exact ((h t').adopt hg hn hR).congr fun i' j => by simp
        · show Matched _ _ _ (arenaOf (Function.update s' t _) t')
          rw [arenaOf_update_ne s' e]
          exact (h t').congr fun i' j => by simp [e]
      obtain ⟨r', h1, h2, h3, h4⟩ := ih (is := is) hm (Nat.succ.inj hl) (fun k p i' z1 z2 => by
        obtain ⟨y1, y2⟩ := hv (k + 1) p i' z1 z2
        refine ⟨y1, ?_⟩
        rintro j (z | ⟨z3, z4, _⟩)
        · exact y2 j z
        · cases hd (k + 1) 0 p ⟨t, v⟩ i' z1 z2 rfl (by rw [z4]; rfl) z3) (fun k l p q i' z1 z2 z3 z4 z5 =>
        Nat.succ.inj (hd (k + 1) (l + 1) p q i' z1 z2 z3 z4 z5))
      refine ⟨r', fun t i j hr => h1 t i j (.inl hr), h2, congrArg (· + 1) h3, ?_⟩
      intro n i' j g1 g2
      cases n with
      | zero =>
        have e1 : i = i' := Option.some.inj g1
        have e2 : (s'.create t w).2 = j := Option.some.inj g2
        exact ⟨t, rfl, h1 t i' j (.inr ⟨rfl, e1.symm, e2.symm⟩)⟩
      | succ n => exact h4 n i' j g1 g2

/-- As `createAll`, saying in addition that all new pairs are of handles that were dead on the left. -/
theorem StoreMatched.createAll' {ps qs : List ((t : PropType) × F t)} (hp : PropsMatched R ps qs) :
    ∀ {r : PropType → Idx → Idx → Prop} {s s' : Store F}, s.Inv → StoreMatched r R s s' →
    ∃ r' : PropType → Idx → Idx → Prop, (∀ (t : PropType) (i j : Idx), r t i j → r' t i j) ∧
      (∀ (t : PropType) (i j : Idx), r' t i j → r t i j ∨ s.get t i = none) ∧
      StoreMatched r' R (Baseline.createAll s ps).1 (Baseline.createAll s' qs).1 ∧
      FieldsMatched r' (ps.map Sigma.fst) (Baseline.createAll s ps).2 (Baseline.createAll s' qs).2 := by
  induction hp with
  | nil => intro r s s' _ h; exact ⟨r, fun _ _ _ h => h, fun _ _ _ h => .inl h, h, rfl, fun n i j h1 => by simp [Baseline.createAll] at h1⟩
  | cons hpq _ ih =>
    intro r s s' hs h
    obtain ⟨t, v, w, rfl, rfl, hR⟩ := hpq
    obtain ⟨r', h1, h0, h2, h3, h4⟩ := ih (create_inv hs t v) (h.create t hR)
    refine ⟨r', fun t i j hr => h1 t i j (.inl hr), ?_, h2, congrArg (· + 1) h3, ?_⟩
    · intro t' i j z
      rcases h0 t' i j z with (z | ⟨rfl, rfl, _⟩) | z
      · exact .inl z
      · exact .inr (create_fresh hs _ v)
      · right
        cases hg : s.get t' i with
        | none => rfl
        | some x => rw [get_create_of_some hs t v hg] at z; cases z
    · intro n i j g1 g2
      cases n with
      | zero =>
        have e1 : (s.create t v).2 = i := Option.some.inj g1
        have e2 : (s'.create t w).2 = j := Option.some.inj g2
        exact ⟨t, rfl, h1 t i j (.inr ⟨rfl, e1.symm, e2.symm⟩)⟩
      | succ n => exact h4 n i j g1 g2

/-- Two lists of fields, created in one order on the left and in the other on the right. -/
theorem StoreMatched.swap {s s' : Store F} (h : StoreMatched r R s s') (hs : s.Inv) {ps ps' qs qs' : List ((t : PropType) × F t)}
    (hp : PropsMatched R ps ps') (hq : PropsMatched R qs qs') :
    ∃ r' : PropType → Idx → Idx → Prop, (∀ (t : PropType) (i j : Idx), r t i j → r' t i j) ∧
      StoreMatched r' R (Baseline.createAll (Baseline.createAll s ps).1 qs).1 (Baseline.createAll (Baseline.createAll s' qs').1 ps').1 ∧
      FieldsMatched r' (ps.map Sigma.fst) (Baseline.createAll s ps).2 (Baseline.createAll (Baseline.createAll s' qs').1 ps').2 ∧
      FieldsMatched r' (qs.map Sigma.fst) (Baseline.createAll (Baseline.createAll s ps).1 qs).2 (Baseline.createAll s' qs').2 := by
  have c1 := createAll_created hs ps
  have c2 := createAll_created c1.inv qs
  obtain ⟨r1, a1, a2, a3, a4⟩ := (h.createL ps).createAll' hq c1.inv
  obtain ⟨r2, b1, b2, b3⟩ := StoreMatched.adoptAll hp (is := (Baseline.createAll s ps).2) a3 c1.len (fun k p i z1 z2 => by
    refine ⟨c2.frame _ _ _ (c1.val k p i z1 z2), fun j z => ?_⟩
    rcases a2 _ _ _ z with z | z
    · have := (h p.1).pair i j z
      rcases this with ⟨v, w, g1, _⟩ | ⟨g1, g1'⟩
      · have := c1.fresh k p i z1 z2; rw [Store.get_eq, g1] at this; cases this
      · have g2 := (((h.createL ps) p.1).pair i j z)
        rcases g2 with ⟨v, w, y1, y2, _⟩ | ⟨y1, _⟩
        · rw [g1'.1] at y2; cases y2
        · have := c1.val k p i z1 z2; rw [Store.get_eq, y1.1] at this; cases this
    · rw [c1.val k p i z1 z2] at z; cases z) (fun k l p q i z1 z2 z3 z4 z5 => c1.distinct k l p q i z1 z2 z3 z4 z5)
  exact ⟨r2, fun t i j z => b1 t i j (a1 t i j z), b2, b3, a4.mono b1⟩

end

end Verif
