import Mathlib.Data.List.Forall2
import Verif.Proofs.Rename
/-! # Two arenas with corresponding contents

`Matched r R a b`: the correspondence `r` of handles is one to one, and handles that correspond both resolve, to values related by
`R`, or are both dead for good. -/
namespace Verif
open Arena Store Baseline

/-- See the head of the file. -/
structure Matched {α β : Type} (r : Idx → Idx → Prop) (R : α → β → Prop) (a : Arena α) (b : Arena β) : Prop where
  linv : Arena.Inv a
  rinv : Arena.Inv b
  det : ∀ i j j' : Idx, r i j → r i j' → j = j'
  inj : ∀ i i' j : Idx, r i j → r i' j → i = i'
  pair : ∀ i j : Idx, r i j → (∃ v w, a.get i = some v ∧ b.get j = some w ∧ R v w) ∨ (Dead a i ∧ Dead b j)

namespace Matched
variable {α β : Type} {r r' : Idx → Idx → Prop} {R R' : α → β → Prop} {a : Arena α} {b : Arena β}

theorem left (h : Matched r R a b) {i j : Idx} (hr : r i j) {v : α} (hg : a.get i = some v) : ∃ w, b.get j = some w ∧ R v w := by
  rcases h.pair i j hr with ⟨v', w, h1, h2, h3⟩ | ⟨h1, _⟩
  · rw [hg] at h1; cases h1; exact ⟨w, h2, h3⟩
  · rw [h1.1] at hg; cases hg

theorem right (h : Matched r R a b) {i j : Idx} (hr : r i j) {w : β} (hg : b.get j = some w) : ∃ v, a.get i = some v ∧ R v w := by
  rcases h.pair i j hr with ⟨v, w', h1, h2, h3⟩ | ⟨_, h1⟩
  · rw [hg] at h2; cases h2; exact ⟨v, h1, h3⟩
  · rw [h1.1] at hg; cases hg

theorem none (h : Matched r R a b) {i j : Idx} (hr : r i j) (hg : a.get i = none) : b.get j = none := by
  rcases h.pair i j hr with ⟨v', w, h1, h2, h3⟩ | ⟨_, h1⟩
  · rw [hg] at h1; cases h1
  · exact h1.1

theorem mono (h : Matched r R a b) (hR : ∀ (v : α) (w : β), R v w → R' v w) : Matched r R' a b :=
  ⟨h.linv, h.rinv, h.det, h.inj, fun i j hr => (h.pair i j hr).imp (fun ⟨v, w, h1, h2, h3⟩ => ⟨v, w, h1, h2, hR v w h3⟩) (fun x => x)⟩

theorem eq_iff (h : Matched r R a b) {i i' j j' : Idx} (h1 : r i j) (h2 : r i' j') : i = i' ↔ j = j' :=
  ⟨fun e => h.det i j j' h1 (e ▸ h2), fun e => h.inj i i' j h1 (e ▸ h2)⟩

theorem ne_new (h : Matched r R a b) {i j : Idx} (hr : r i j) (v : α) : i ≠ (a.insert v).2 := by
  intro e
  rcases h.pair i j hr with ⟨v', w, h1, _⟩ | ⟨h1, _⟩
  · have := insert_fresh h.linv v; rw [← e, h1] at this; cases this
  · have := (insert_dead h.linv h1 v).1
    rw [e, get_insert_self h.linv v] at this; cases this

theorem ne_new' (h : Matched r R a b) {i j : Idx} (hr : r i j) (w : β) : j ≠ (b.insert w).2 := by
  intro e
  rcases h.pair i j hr with ⟨v', w', _, h1, _⟩ | ⟨_, h1⟩
  · have := insert_fresh h.rinv w; rw [← e, h1] at this; cases this
  · have := (insert_dead h.rinv h1 w).1
    rw [e, get_insert_self h.rinv w] at this; cases this

/-- Insert on both sides; the new handles correspond. -/
theorem insert (h : Matched r R a b) {v : α} {w : β} (hR : R v w) :
    Matched (fun i j => r i j ∨ (i = (a.insert v).2 ∧ j = (b.insert w).2)) R (a.insert v).1 (b.insert w).1 := by
  refine ⟨insert_inv h.linv v, insert_inv h.rinv w, ?_, ?_, ?_⟩
  · rintro i j j' (h1 | ⟨h1, h1'⟩) (h2 | ⟨h2, h2'⟩)
    · exact h.det i j j' h1 h2
    · exact absurd h2 (h.ne_new h1 v)
    · exact absurd h1 (h.ne_new h2 v)
    · rw [h1', h2']
  · rintro i i' j (h1 | ⟨h1, h1'⟩) (h2 | ⟨h2, h2'⟩)
    · exact h.inj i i' j h1 h2
    · exact absurd h2' (h.ne_new' h1 w)
    · exact absurd h1' (h.ne_new' h2 w)
    · rw [h1, h2]
  · rintro i j (h1 | ⟨rfl, rfl⟩)
    · rcases h.pair i j h1 with ⟨v', w', g1, g2, g3⟩ | ⟨g1, g2⟩
      · exact .inl ⟨v', w', get_insert_of_some h.linv v v' g1, get_insert_of_some h.rinv w w' g2, g3⟩
      · exact .inr ⟨insert_dead h.linv g1 v, insert_dead h.rinv g2 w⟩
    · exact .inl ⟨v, w, get_insert_self h.linv v, get_insert_self h.rinv w, hR⟩

/-- Remove corresponding handles on both sides. -/
theorem removeList (h : Matched r R a b) {l l' : List Idx} (hl : ∀ i j : Idx, r i j → (i ∈ l ↔ j ∈ l')) :
    Matched r R (removeList a l) (removeList b l') := by
  refine ⟨removeList_inv h.linv l, removeList_inv h.rinv l', h.det, h.inj, fun i j hr => ?_⟩
  rcases h.pair i j hr with ⟨v, w, h1, h2, h3⟩ | ⟨h1, h2⟩
  · by_cases hi : i ∈ l
    · exact .inr ⟨removeList_dead_of_live h.linv h1 hi, removeList_dead_of_live h.rinv h2 ((hl i j hr).1 hi)⟩
    · refine .inl ⟨v, w, ?_, ?_, h3⟩
      · rw [get_removeList, if_neg hi, h1]
      · rw [get_removeList, if_neg (fun e => hi ((hl i j hr).2 e)), h2]
  · exact .inr ⟨removeList_dead h1 l, removeList_dead h2 l'⟩

theorem remove (h : Matched r R a b) {i j : Idx} (hr : r i j) : Matched r R (a.remove i).1 (b.remove j).1 := by
  have := h.removeList (l := [i]) (l' := [j]) (fun i' j' hr' => by
    simp only [List.mem_singleton]; exact h.eq_iff hr' hr)
  exact this

/-- Change the values at corresponding handles. -/
theorem modify (h : Matched r R a b) {i j : Idx} (hr : r i j) {f : α → α} {g : β → β} {a' : Arena α} {b' : Arena β}
    (ha : a.modify i f = some a') (hb : b.modify j g = some b') (hR : ∀ (v : α) (w : β), a.get i = some v → b.get j = some w → R v w → R (f v) (g w)) :
    Matched r R a' b' := by
  refine ⟨modify_inv h.linv ha, modify_inv h.rinv hb, h.det, h.inj, fun i' j' hr' => ?_⟩
  rcases h.pair i' j' hr' with ⟨v, w, h1, h2, h3⟩ | ⟨h1, h2⟩
  · left
    rw [get_modify ha, get_modify hb]
    by_cases e : i' = i
    · have e' : j' = j := (h.eq_iff hr' hr).1 e
      rw [if_pos e, if_pos e', ← e, ← e', h1, h2]
      exact ⟨f v, g w, rfl, rfl, hR v w (e ▸ h1) (e' ▸ h2) h3⟩
    · rw [if_neg e, if_neg (fun e' => e ((h.eq_iff hr' hr).2 e'))]
      exact ⟨v, w, h1, h2, h3⟩
  · exact .inr ⟨modify_dead h1 ha, modify_dead h2 hb⟩

theorem congr (h : Matched r R a b) (hr : ∀ i j : Idx, r i j ↔ r' i j) : Matched r' R a b := by
  have : r = r' := funext fun i => funext fun j => propext (hr i j)
  exact this ▸ h

end Matched

/-! ## Handles that were never given out -/

/-- The handle neither resolves nor did so before. -/
def New {α : Type} (a : Arena α) (j : Idx) : Prop := a.get j = none ∧ ¬ Dead a j

theorem insert_new {α : Type} {a : Arena α} (h : Arena.Inv a) (v : α) : New a (a.insert v).2 := by
  refine ⟨insert_fresh h v, fun hd => ?_⟩
  have := (insert_dead h hd v).1
  rw [get_insert_self h v] at this; cases this

theorem New.before_insert {α : Type} {a : Arena α} (h : Arena.Inv a) {v : α} {j : Idx} (hn : New (a.insert v).1 j) : New a j := by
  refine ⟨?_, fun hd => hn.2 (insert_dead h hd v)⟩
  cases hg : a.get j with
  | none => rfl
  | some w => have := get_insert_of_some h v w hg; rw [hn.1] at this; cases this

/-- A handle that corresponds to something is not new. -/
theorem Matched.not_new {α β : Type} {r : Idx → Idx → Prop} {R : α → β → Prop} {a : Arena α} {b : Arena β} (h : Matched r R a b) {i j : Idx}
    (hr : r i j) : ¬ New b j := by
  intro hn
  rcases h.pair i j hr with ⟨_, w, _, h1, _⟩ | ⟨_, h1⟩
  · rw [hn.1] at h1; cases h1
  · exact hn.2 h1

/-! ## Typed stores -/

/-- Two stores with corresponding contents. -/
def StoreMatched {F : PropType → Type} (r : PropType → Idx → Idx → Prop) (R : (t : PropType) → F t → F t → Prop) (s s' : Store F) : Prop :=
  ∀ t : PropType, Matched (r t) (R t) (s.arenaOf t) (s'.arenaOf t)

theorem arenaOf_update_ne {F : PropType → Type} (s : Store F) {t t' : PropType} (h : t' ≠ t) (a : Option (Arena (F t))) :
    arenaOf (Function.update s t a) t' = s.arenaOf t' := by
  unfold arenaOf; rw [Function.update_of_ne h]

/-- Field handles that correspond, position by position. -/
def FieldsMatched (r : PropType → Idx → Idx → Prop) (ts : List PropType) (is js : List Idx) : Prop :=
  is.length = js.length ∧ ∀ (n : Nat) (i j : Idx), is[n]? = some i → js[n]? = some j → ∃ t, ts[n]? = some t ∧ r t i j

theorem FieldsMatched.mono {r r' : PropType → Idx → Idx → Prop} {ts : List PropType} {is js : List Idx} (h : FieldsMatched r ts is js)
    (hr : ∀ (t : PropType) (i j : Idx), r t i j → r' t i j) : FieldsMatched r' ts is js :=
  ⟨h.1, fun n i j h1 h2 => let ⟨t, h3, h4⟩ := h.2 n i j h1 h2; ⟨t, h3, hr t i j h4⟩⟩

/-- Pairs of values of the same type that correspond. -/
def PropsMatched {F : PropType → Type} (R : (t : PropType) → F t → F t → Prop) : List ((t : PropType) × F t) → List ((t : PropType) × F t) → Prop :=
  List.Forall₂ fun p q => ∃ (t : PropType) (v w : F t), p = ⟨t, v⟩ ∧ q = ⟨t, w⟩ ∧ R t v w

theorem PropsMatched.types {F : PropType → Type} {R : (t : PropType) → F t → F t → Prop} {ps qs : List ((t : PropType) × F t)}
    (h : PropsMatched R ps qs) : ps.map Sigma.fst = qs.map Sigma.fst := by
  induction h with
  | nil => rfl
  | cons h _ ih => obtain ⟨t, v, w, rfl, rfl, _⟩ := h; simp only [List.map_cons, ih]

theorem StoreMatched.create {F : PropType → Type} {r : PropType → Idx → Idx → Prop} {R : (t : PropType) → F t → F t → Prop} {s s' : Store F}
    (h : StoreMatched r R s s') (t : PropType) {v w : F t} (hR : R t v w) :
    StoreMatched (fun t' i j => r t' i j ∨ (t' = t ∧ i = (s.create t v).2 ∧ j = (s'.create t w).2)) R (s.create t v).1 (s'.create t w).1 := by
  intro t'
  by_cases e : t' = t
  · subst e
    rw [create_eq, create_eq, arenaOf_update_self, arenaOf_update_self]
    exact ((h t').insert hR).congr (fun i j => by simp)
  · rw [create_eq, create_eq]
    show Matched _ _ (arenaOf (Function.update s t _) t') (arenaOf (Function.update s' t _) t')
    rw [arenaOf_update_ne s e, arenaOf_update_ne s' e]
    exact (h t').congr (fun i j => by simp [e])

theorem StoreMatched.createAll {F : PropType → Type} {R : (t : PropType) → F t → F t → Prop} {ps qs : List ((t : PropType) × F t)}
    (hp : PropsMatched R ps qs) : ∀ {r : PropType → Idx → Idx → Prop} {s s' : Store F}, StoreMatched r R s s' →
    ∃ r' : PropType → Idx → Idx → Prop, (∀ (t : PropType) (i j : Idx), r t i j → r' t i j) ∧
      (∀ (t : PropType) (i j : Idx), r' t i j → r t i j ∨ New (s'.arenaOf t) j) ∧
      StoreMatched r' R (createAll s ps).1 (createAll s' qs).1 ∧
      FieldsMatched r' (ps.map Sigma.fst) (createAll s ps).2 (createAll s' qs).2 := by
  induction hp with
  | nil => intro r s s' h; exact ⟨r, fun _ _ _ h => h, fun _ _ _ h => .inl h, h, rfl, fun n i j h1 => by simp [Baseline.createAll] at h1⟩
  | cons hpq _ ih =>
    intro r s s' h
    obtain ⟨t, v, w, rfl, rfl, hR⟩ := hpq
    obtain ⟨r', h1, h0, h2, h3, h4⟩ := ih (h.create t hR)
    refine ⟨r', fun t i j hr => h1 t i j (.inl hr), fun t' i j hr => ?_, h2, ?_, ?_⟩
    · by_cases e : t' = t
      · subst e
        rcases h0 t' i j hr with (z | ⟨_, _, z⟩) | z
        · exact .inl z
        · right; rw [z, create_eq]; exact insert_new (h t').rinv w
        · right
          rw [create_eq, arenaOf_update_self] at z
          exact z.before_insert (h t').rinv
      · rcases h0 t' i j hr with (z | ⟨z, _⟩) | z
        · exact .inl z
        · exact absurd z e
        · right
          rw [create_eq] at z
          have z : New (arenaOf (Function.update s' t (some ((s'.arenaOf t).insert w).1)) t') j := z
          rw [arenaOf_update_ne s' e] at z
          exact z
    · exact congrArg (· + 1) h3
    · intro n i j g1 g2
      cases n with
      | zero =>
        have e1 : (s.create t v).2 = i := Option.some.inj g1
        have e2 : (s'.create t w).2 = j := Option.some.inj g2
        exact ⟨t, rfl, h1 t i j (.inr ⟨rfl, e1.symm, e2.symm⟩)⟩
      | succ n => exact h4 n i j g1 g2

theorem write_arena {F : PropType → Type} {s s1 : Store F} {t : PropType} {i : Idx} {v : F t} (h : s.write t i v = some s1) :
    ∃ a, (s.arenaOf t).modify i (fun _ => v) = some a ∧ s1.arenaOf t = a ∧ ∀ t' : PropType, t' ≠ t → s1.arenaOf t' = s.arenaOf t' := by
  unfold Store.write at h
  unfold arenaOf
  cases hs : s t with
  | none => simp only [hs] at h; cases h
  | some a =>
    simp only [hs] at h
    cases hm : a.modify i (fun _ => v) with
    | none => simp only [hm] at h; cases h
    | some a' =>
      simp only [hm] at h
      cases h
      refine ⟨a', rfl, ?_, fun t' ht => ?_⟩
      · exact arenaOf_update_self s t a'
      · exact arenaOf_update_ne s ht _

theorem StoreMatched.write {F : PropType → Type} {r : PropType → Idx → Idx → Prop} {R : (t : PropType) → F t → F t → Prop} {s s' : Store F}
    (h : StoreMatched r R s s') {t : PropType} {i j : Idx} (hr : r t i j) {v w : F t} (hR : R t v w) {s1 s1' : Store F}
    (h1 : s.write t i v = some s1) (h2 : s'.write t j w = some s1') : StoreMatched r R s1 s1' := by
  obtain ⟨a, m1, e1, o1⟩ := write_arena h1
  obtain ⟨a', m2, e2, o2⟩ := write_arena h2
  intro t'
  by_cases e : t' = t
  · subst e
    rw [e1, e2]
    exact (h t').modify hr m1 m2 (fun _ _ _ _ _ => hR)
  · rw [o1 t' e, o2 t' e]; exact h t'

end Verif
