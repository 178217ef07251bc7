import Verif.Model.Baseline
import Verif.Proofs.Arena
/-! # Lemmas about the typed stores of states and channels -/
namespace Verif
open Arena

namespace Store
variable {F : PropType → Type}

/-- Every arena of the store satisfies the arena invariant. -/
def Inv (s : Store F) : Prop := ∀ (t : PropType) (a : Arena (F t)), s t = some a → Arena.Inv a

theorem empty_inv : Inv (empty : Store F) := by intro t a h; cases h

theorem get_empty (t : PropType) (h : Idx) : (empty : Store F).get t h = none := rfl

/-- The arena used by `create`. -/
def arenaOf (s : Store F) (t : PropType) : Arena (F t) :=
  match s t with
  | none => Arena.new
  | some a => a

theorem arenaOf_inv {s : Store F} (hs : Inv s) (t : PropType) : Arena.Inv (s.arenaOf t) := by
  unfold arenaOf
  split
  · exact new_inv
  · rename_i a h; exact hs t a h

theorem get_eq (s : Store F) (t : PropType) (h : Idx) : s.get t h = (s.arenaOf t).get h := by
  unfold get arenaOf
  cases s t with
  | none => simp [get_new]
  | some a => rfl

theorem create_eq (s : Store F) (t : PropType) (v : F t) :
    s.create t v = (Function.update s t (some ((s.arenaOf t).insert v).1), ((s.arenaOf t).insert v).2) :=
  rfl

theorem arenaOf_update_self (s : Store F) (t : PropType) (a : Arena (F t)) :
    arenaOf (Function.update s t (some a)) t = a := by simp [arenaOf]

theorem get_update_ne (s : Store F) (t t' : PropType) (h : t' ≠ t) (a : Option (Arena (F t))) (i : Idx) :
    get (Function.update s t a) t' i = s.get t' i := by simp [get, h]

theorem update_inv {s : Store F} (hs : Inv s) (t : PropType) {a : Arena (F t)} (ha : Arena.Inv a) :
    Inv (Function.update s t (some a)) := by
  intro t' a' h
  by_cases e : t' = t
  · subst e; simp at h; subst h; exact ha
  · rw [Function.update_of_ne e] at h; exact hs t' a' h

theorem create_inv {s : Store F} (hs : Inv s) (t : PropType) (v : F t) : Inv (s.create t v).1 :=
  update_inv hs t (insert_inv (arenaOf_inv hs t) v)

theorem get_create_self {s : Store F} (hs : Inv s) (t : PropType) (v : F t) :
    (s.create t v).1.get t (s.create t v).2 = some v := by
  rw [create_eq, get_eq, arenaOf_update_self]; exact get_insert_self (arenaOf_inv hs t) v

theorem create_fresh {s : Store F} (hs : Inv s) (t : PropType) (v : F t) :
    s.get t (s.create t v).2 = none := by
  rw [create_eq, get_eq]; exact insert_fresh (arenaOf_inv hs t) v

theorem get_create_ne {s : Store F} (hs : Inv s) (t : PropType) (v : F t) {t' : PropType} {i : Idx}
    (h : ¬ (t' = t ∧ i = (s.create t v).2)) : (s.create t v).1.get t' i = s.get t' i := by
  by_cases e : t' = t
  · subst e
    rw [create_eq, get_eq, arenaOf_update_self, get_insert_ne (arenaOf_inv hs t'), ← get_eq]
    intro e; exact h ⟨rfl, e⟩
  · rw [create_eq, get_update_ne _ _ _ e]

theorem get_create_of_some {s : Store F} (hs : Inv s) (t : PropType) (v : F t) {t' : PropType} {i : Idx}
    {w : F t'} (h : s.get t' i = some w) : (s.create t v).1.get t' i = some w := by
  rw [get_create_ne hs, h]
  rintro ⟨rfl, rfl⟩
  rw [create_fresh hs] at h; cases h

theorem write_eq_none {s : Store F} {t : PropType} {h : Idx} {v : F t} :
    s.write t h v = none ↔ s.get t h = none := by
  unfold write get
  cases hs : s t with
  | none => simp
  | some a =>
    simp only
    cases hm : a.modify h (fun _ => v) with
    | none => simp [modify_eq_none.1 hm]
    | some a' =>
      simp only [false_iff, reduceCtorEq]
      intro hn; rw [modify_eq_none.2 hn] at hm; cases hm

theorem write_inv {s s' : Store F} (hs : Inv s) {t : PropType} {h : Idx} {v : F t}
    (hw : s.write t h v = some s') : Inv s' := by
  unfold write at hw
  split at hw
  · cases hw
  · rename_i a ha
    split at hw
    · cases hw
    · rename_i a' hm
      cases hw
      exact update_inv hs t (modify_inv (hs t a ha) hm)

theorem get_write_self {s s' : Store F} {t : PropType} {h : Idx} {v : F t}
    (hw : s.write t h v = some s') : s'.get t h = some v := by
  have hg : s.get t h ≠ none := fun e => by rw [write_eq_none.2 e] at hw; cases hw
  unfold write at hw
  split at hw
  · cases hw
  · rename_i a ha
    split at hw
    · cases hw
    · rename_i a' hm
      cases hw
      simp only [get, Function.update_self, get_modify hm, if_true]
      simp only [get, ha] at hg
      cases hx : a.get h with
      | none => exact absurd hx hg
      | some w => rfl

theorem get_write_ne {s s' : Store F} {t : PropType} {h : Idx} {v : F t}
    (hw : s.write t h v = some s') {t' : PropType} {h' : Idx} (hne : ¬ (t' = t ∧ h' = h)) :
    s'.get t' h' = s.get t' h' := by
  unfold write at hw
  split at hw
  · cases hw
  · rename_i a ha
    split at hw
    · cases hw
    · rename_i a' hm
      cases hw
      by_cases e : t' = t
      · subst e
        have : h' ≠ h := fun e => hne ⟨rfl, e⟩
        simp [get, get_modify hm, this, ha]
      · exact get_update_ne s t t' e _ _

theorem get_write_live {s s' : Store F} {t : PropType} {h : Idx} {v : F t}
    (hw : s.write t h v = some s') {t' : PropType} {h' : Idx} :
    (∃ w, s.get t' h' = some w) → ∃ w, s'.get t' h' = some w := by
  rintro ⟨w, hg⟩
  by_cases e : t' = t ∧ h' = h
  · obtain ⟨rfl, rfl⟩ := e; exact ⟨v, get_write_self hw⟩
  · exact ⟨w, by rw [get_write_ne hw e, hg]⟩

end Store

open Store Baseline

/-- What the creation loop did: `ps` were stored under the handles `is`. -/
structure Created {F : PropType → Type} (s : Store F) (ps : List ((t : PropType) × F t)) (s' : Store F)
    (is : List Idx) : Prop where
  inv : s'.Inv
  len : is.length = ps.length
  val : ∀ (k : Nat) (p : (t : PropType) × F t) (i : Idx), ps[k]? = some p → is[k]? = some i →
    s'.get p.1 i = some p.2
  fresh : ∀ (k : Nat) (p : (t : PropType) × F t) (i : Idx), ps[k]? = some p → is[k]? = some i →
    s.get p.1 i = none
  distinct : ∀ (k l : Nat) (p q : (t : PropType) × F t) (i : Idx), ps[k]? = some p → is[k]? = some i →
    ps[l]? = some q → is[l]? = some i → p.1 = q.1 → k = l
  frame : ∀ (t : PropType) (i : Idx) (w : F t), s.get t i = some w → s'.get t i = some w
  only : ∀ (t : PropType) (i : Idx),
    (∃ (k : Nat) (v : F t), ps[k]? = some ⟨t, v⟩ ∧ is[k]? = some i) ∨ s'.get t i = s.get t i

theorem createAll_created {F : PropType → Type} {s : Store F} (hs : s.Inv)
    (ps : List ((t : PropType) × F t)) : Created s ps (createAll s ps).1 (createAll s ps).2 := by
  induction ps generalizing s with
  | nil =>
    refine ⟨hs, rfl, ?_, ?_, ?_, fun _ _ _ h => h, fun _ _ => .inr rfl⟩ <;> simp [createAll]
  | cons p ps ih =>
    have ih := ih (create_inv hs p.1 p.2)
    have hself := get_create_self hs p.1 p.2
    have hfr := create_fresh hs p.1 p.2
    simp only [createAll]
    generalize hc : s.create p.1 p.2 = c at *
    have hfr' : ∀ (k : Nat) (q : (t : PropType) × F t) (i : Idx), ps[k]? = some q →
        (createAll c.1 ps).2[k]? = some i → ¬ (q.1 = p.1 ∧ i = c.2) := by
      rintro k q i h1 h2 ⟨e1, e2⟩
      have := ih.fresh k q i h1 h2
      obtain ⟨qt, qv⟩ := q
      simp only at e1 this
      subst e1 e2
      rw [hself] at this; cases this
    refine ⟨ih.inv, by simp [ih.len], ?_, ?_, ?_, ?_, ?_⟩
    · intro k q i h1 h2
      cases k with
      | zero =>
        simp at h1 h2; subst h1 h2
        exact ih.frame _ _ _ hself
      | succ k => simp at h1 h2; exact ih.val k q i h1 h2
    · intro k q i h1 h2
      cases k with
      | zero => simp at h1 h2; subst h1 h2; exact hfr
      | succ k =>
        simp at h1 h2
        have h3 := ih.fresh k q i h1 h2
        rw [← hc] at h3
        rwa [get_create_ne hs] at h3
        rw [hc]; exact hfr' k q i h1 h2
    · intro k l q r i h1 h2 h3 h4 e
      cases k with
      | zero =>
        cases l with
        | zero => rfl
        | succ l =>
          simp at h1 h2 h3 h4; subst h1 h2
          exact absurd ⟨e.symm, rfl⟩ (hfr' l r c.2 h3 h4)
      | succ k =>
        cases l with
        | zero =>
          simp at h1 h2 h3 h4; subst h3 h4
          exact absurd ⟨e, rfl⟩ (hfr' k q c.2 h1 h2)
        | succ l =>
          simp at h1 h2 h3 h4
          rw [ih.distinct k l q r i h1 h2 h3 h4 e]
    · intro t i w h
      apply ih.frame
      rw [← hc]; exact get_create_of_some hs _ _ h
    · intro t i
      rcases ih.only t i with ⟨k, v, h1, h2⟩ | h
      · exact .inl ⟨k + 1, v, by simpa using h1, by simpa using h2⟩
      · by_cases e : t = p.1 ∧ i = c.2
        · obtain ⟨rfl, rfl⟩ := e
          exact .inl ⟨0, p.2, by simp, by simp⟩
        · right
          rw [h, ← hc]
          exact get_create_ne hs _ _ (by rw [hc]; exact e)

end Verif
