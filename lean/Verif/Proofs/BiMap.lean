import Verif.Model.Flatbuffer
/-! # Lemmas about the bidirectional map -/
namespace Verif.BiMap
variable {α β : Type} [DecidableEq α] [DecidableEq β]

/-- One-to-one: no left and no right value occurs twice. -/
def Inv (m : BiMap α β) : Prop := (m.pairs.map Prod.fst).Nodup ∧ (m.pairs.map Prod.snd).Nodup

theorem empty_inv : Inv (empty : BiMap α β) := by simp [Inv, empty]

theorem mem_empty (e : α × β) : e ∉ (empty : BiMap α β).pairs := by simp [empty]

theorem mem_insert {m : BiMap α β} {a x : α} {b y : β} :
    (x, y) ∈ (m.insert a b).pairs ↔ (x = a ∧ y = b) ∨ ((x, y) ∈ m.pairs ∧ x ≠ a ∧ y ≠ b) := by
  simp [insert]

theorem insert_inv {m : BiMap α β} (h : m.Inv) (a : α) (b : β) : (m.insert a b).Inv := by
  unfold Inv insert
  simp only [List.map_cons, List.nodup_cons]
  refine ⟨⟨?_, ?_⟩, ⟨?_, ?_⟩⟩
  · simp
  · exact List.Nodup.sublist (List.Sublist.map _ List.filter_sublist) h.1
  · simp
  · exact List.Nodup.sublist (List.Sublist.map _ List.filter_sublist) h.2

theorem pair_left {m : BiMap α β} (h : m.Inv) {a : α} {b b' : β} (h1 : (a, b) ∈ m.pairs)
    (h2 : (a, b') ∈ m.pairs) : b = b' := by
  have h := h.1
  generalize m.pairs = l at *
  induction l with
  | nil => cases h1
  | cons e l ih =>
    simp only [List.map_cons, List.nodup_cons] at h
    rcases List.mem_cons.1 h1 with rfl | h1' <;> rcases List.mem_cons.1 h2 with h2' | h2'
    · injection h2' with _ h2'; exact h2'.symm
    · exact absurd (List.mem_map.2 ⟨_, h2', rfl⟩) h.1
    · subst h2'; exact absurd (List.mem_map.2 ⟨_, h1', rfl⟩) h.1
    · exact ih h1' h2' h.2

theorem pair_right {m : BiMap α β} (h : m.Inv) {a a' : α} {b : β} (h1 : (a, b) ∈ m.pairs)
    (h2 : (a', b) ∈ m.pairs) : a = a' := by
  have h := h.2
  generalize m.pairs = l at *
  induction l with
  | nil => cases h1
  | cons e l ih =>
    simp only [List.map_cons, List.nodup_cons] at h
    rcases List.mem_cons.1 h1 with rfl | h1' <;> rcases List.mem_cons.1 h2 with h2' | h2'
    · injection h2' with h2' _; exact h2'.symm
    · exact absurd (List.mem_map.2 ⟨_, h2', rfl⟩) h.1
    · subst h2'; exact absurd (List.mem_map.2 ⟨_, h1', rfl⟩) h.1
    · exact ih h1' h2' h.2

theorem getL_some_mem {m : BiMap α β} {a : α} {b : β} (h : m.getL a = some b) : (a, b) ∈ m.pairs := by
  unfold getL at h
  cases hf : m.pairs.find? (fun p => p.1 = a) with
  | none => rw [hf] at h; cases h
  | some e =>
    rw [hf] at h; injection h with h
    have h1 := List.find?_some hf
    have h2 := List.mem_of_find?_eq_some hf
    obtain ⟨x, y⟩ := e
    simp at h1 h; subst h1 h; exact h2

theorem getR_some_mem {m : BiMap α β} {a : α} {b : β} (h : m.getR b = some a) : (a, b) ∈ m.pairs := by
  unfold getR at h
  cases hf : m.pairs.find? (fun p => p.2 = b) with
  | none => rw [hf] at h; cases h
  | some e =>
    rw [hf] at h; injection h with h
    have h1 := List.find?_some hf
    have h2 := List.mem_of_find?_eq_some hf
    obtain ⟨x, y⟩ := e
    simp at h1 h; subst h1 h; exact h2

theorem getL_none {m : BiMap α β} {a : α} : m.getL a = none ↔ ∀ b : β, (a, b) ∉ m.pairs := by
  unfold getL
  simp only [Option.map_eq_none_iff, List.find?_eq_none, decide_eq_true_eq, Prod.forall]
  constructor
  · intro h b hb; exact h a b hb rfl
  · rintro h x y hm rfl; exact h y hm

theorem getR_none {m : BiMap α β} {b : β} : m.getR b = none ↔ ∀ a : α, (a, b) ∉ m.pairs := by
  unfold getR
  simp only [Option.map_eq_none_iff, List.find?_eq_none, decide_eq_true_eq, Prod.forall]
  constructor
  · intro h a hb; exact h a b hb rfl
  · rintro h x y hm rfl; exact h x hm

theorem getL_iff {m : BiMap α β} (h : m.Inv) {a : α} {b : β} : m.getL a = some b ↔ (a, b) ∈ m.pairs := by
  refine ⟨getL_some_mem, fun hm => ?_⟩
  cases hg : m.getL a with
  | none => exact absurd hm (getL_none.1 hg b)
  | some b' => rw [pair_left h hm (getL_some_mem hg)]

theorem getR_iff {m : BiMap α β} (h : m.Inv) {a : α} {b : β} : m.getR b = some a ↔ (a, b) ∈ m.pairs := by
  refine ⟨getR_some_mem, fun hm => ?_⟩
  cases hg : m.getR b with
  | none => exact absurd hm (getR_none.1 hg a)
  | some a' => rw [pair_right h hm (getR_some_mem hg)]

theorem clashes_false {m : BiMap α β} {a : α} {b : β} :
    m.clashes a b = false ↔ (∀ y : β, (a, y) ∉ m.pairs) ∧ ∀ x : α, (x, b) ∉ m.pairs := by
  unfold clashes
  rw [Bool.or_eq_false_iff, ← getL_none, ← getR_none]
  cases m.getL a <;> cases m.getR b <;> simp

/-- Insertion without a clash only adds. -/
theorem mem_insert_fresh {m : BiMap α β} {a x : α} {b y : β} (h : m.clashes a b = false) :
    (x, y) ∈ (m.insert a b).pairs ↔ (x = a ∧ y = b) ∨ (x, y) ∈ m.pairs := by
  rw [mem_insert]
  obtain ⟨h1, h2⟩ := clashes_false.1 h
  constructor
  · rintro (h | h)
    · exact .inl h
    · exact .inr h.1
  · rintro (hm | hm)
    · exact .inl hm
    · exact .inr ⟨hm, fun e => h1 _ (e ▸ hm), fun e => h2 _ (e ▸ hm)⟩

end Verif.BiMap
