import Verif.Model.Arena
import Verif.Spec.HandleMap
/-! Helper lemmas about the arena model. -/
namespace Verif.Arena
variable {α : Type}

/-- The free list, as a list of slot numbers. -/
def Chain (slots : List (Slot α)) : Option Nat → List Nat → Prop
  | h, [] => h = none
  | h, i :: is => h = some i ∧ ∃ nx, slots[i]? = some (.free nx) ∧ Chain slots nx is

/-- Is this slot occupied? -/
def isOccSlot : Slot α → Bool
  | .occ _ _ => true
  | .free _ => false

/-- Representation invariant. -/
structure Inv (a : Arena α) : Prop where
  chain : ∃ fl : List Nat, fl.Nodup ∧ Chain a.slots a.head fl ∧
    ∀ i nx, a.slots[i]? = some (.free nx) → i ∈ fl
  gens : ∀ (i g : Nat) (v : α), a.slots[i]? = some (.occ g v) → g ≤ a.generation
  count : a.count = (a.slots.filter isOccSlot).length
  nonempty : 0 < a.slots.length

theorem chain_mono {s s' : List (Slot α)} {h : Option Nat} {fl : List Nat}
    (hc : Chain s h fl) (heq : ∀ i ∈ fl, s'[i]? = s[i]?) : Chain s' h fl := by
  induction fl generalizing h with
  | nil => simpa [Chain] using hc
  | cons i is ih =>
    obtain ⟨h1, nx, h2, h3⟩ := hc
    refine ⟨h1, nx, ?_, ih h3 (fun j hj => heq j (by simp [hj]))⟩
    rw [heq i (by simp)]; exact h2

theorem chain_mem_free {s : List (Slot α)} {h : Option Nat} {fl : List Nat}
    (hc : Chain s h fl) : ∀ i ∈ fl, ∃ nx, s[i]? = some (.free nx) := by
  induction fl generalizing h with
  | nil => simp
  | cons j is ih =>
    obtain ⟨_, nx, h2, h3⟩ := hc
    intro i hi
    rcases List.mem_cons.1 hi with rfl | hi
    · exact ⟨nx, h2⟩
    · exact ih h3 i hi

theorem filter_set_length (l : List (Slot α)) (i : Nat) (x y : Slot α) (h : l[i]? = some x) :
    ((l.set i y).filter isOccSlot).length + (if isOccSlot x then 1 else 0)
      = (l.filter isOccSlot).length + (if isOccSlot y then 1 else 0) := by
  induction l generalizing i with
  | nil => simp at h
  | cons z l ih =>
    cases i with
    | zero =>
      simp at h; subst h
      simp only [List.set_cons_zero, List.filter_cons]
      split <;> split <;> simp <;> omega
    | succ i =>
      simp at h
      have := ih i h
      simp only [List.set_cons_succ, List.filter_cons]
      split <;> simp at * <;> omega

/-- The chain built by `reserve` over fresh slots. -/
theorem reserve_slot (a : Arena α) (n k : Nat) (hk : k < n) :
    (a.reserve n).slots[a.slots.length + k]? =
      some (if k + 1 = n then Slot.free a.head else Slot.free (some (a.slots.length + k + 1))) := by
  simp [reserve, hk]

theorem reserve_slot_old (a : Arena α) (n i : Nat) (hi : i < a.slots.length) :
    (a.reserve n).slots[i]? = a.slots[i]? := by
  simp [reserve, List.getElem?_append_left hi]

theorem reserve_length (a : Arena α) (n : Nat) :
    (a.reserve n).slots.length = a.slots.length + n := by
  simp [reserve]

theorem reserve_chain_aux (a : Arena α) (n : Nat) (fl : List Nat)
    (hfl : Chain (a.reserve n).slots a.head fl) :
    ∀ d k, k + d + 1 = n →
      Chain (a.reserve n).slots (some (a.slots.length + k))
        ((List.range' (a.slots.length + k) (d + 1)) ++ fl) := by
  intro d
  induction d with
  | zero =>
    intro k hk
    refine ⟨rfl, a.head, ?_, ?_⟩
    · rw [reserve_slot a n k (by omega)]; simp; omega
    · simpa using hfl
  | succ d ih =>
    intro k hk
    rw [List.range'_succ]
    refine ⟨rfl, some (a.slots.length + k + 1), ?_, ?_⟩
    · rw [reserve_slot a n k (by omega)]
      rw [if_neg (by omega)]
    · have := ih (k + 1) (by omega)
      simpa [Nat.add_assoc] using this

theorem reserve_cases (a : Arena α) (n i : Nat) (s : Slot α) (h : (a.reserve n).slots[i]? = some s) :
    (i < a.slots.length ∧ a.slots[i]? = some s) ∨
    (∃ k, k < n ∧ i = a.slots.length + k ∧ ∃ nx, s = .free nx) := by
  by_cases hi : i < a.slots.length
  · left; exact ⟨hi, by rw [← reserve_slot_old a n i hi]; exact h⟩
  · right
    have hlt : i < (a.reserve n).slots.length := by
      rcases Nat.lt_or_ge i (a.reserve n).slots.length with h' | h'
      · exact h'
      · rw [List.getElem?_eq_none h'] at h; cases h
    rw [reserve_length] at hlt
    refine ⟨i - a.slots.length, by omega, by omega, ?_⟩
    have he : i = a.slots.length + (i - a.slots.length) := by omega
    rw [he, reserve_slot a n _ (by omega)] at h
    split at h <;> simp at h <;> exact ⟨_, h.symm⟩

theorem filter_replicate_free (l : List Nat) (f : Nat → Slot α) (hf : ∀ k ∈ l, isOccSlot (f k) = false) :
    ((l.map f).filter isOccSlot) = [] := by
  rw [List.filter_eq_nil_iff]
  intro x hx
  obtain ⟨k, hk, rfl⟩ := List.mem_map.1 hx
  simp [hf k hk]

/-- Generalised: works from an arena that need not be non-empty. -/
theorem reserve_inv' (a : Arena α) (n : Nat)
    (hchain : ∃ fl : List Nat, fl.Nodup ∧ Chain a.slots a.head fl ∧
      ∀ i nx, a.slots[i]? = some (.free nx) → i ∈ fl)
    (hg : ∀ (i g : Nat) (v : α), a.slots[i]? = some (.occ g v) → g ≤ a.generation)
    (hc : a.count = (a.slots.filter isOccSlot).length) (hn : 0 < n) : Inv (a.reserve n) := by
  obtain ⟨fl, hnd, hch, hall⟩ := hchain
  have hlt : ∀ i ∈ fl, i < a.slots.length := by
    intro i hi
    obtain ⟨nx, h⟩ := chain_mem_free hch i hi
    rcases Nat.lt_or_ge i a.slots.length with h' | h'
    · exact h'
    · rw [List.getElem?_eq_none h'] at h; cases h
  have hch' : Chain (a.reserve n).slots a.head fl :=
    chain_mono hch (fun i hi => reserve_slot_old a n i (hlt i hi))
  refine ⟨⟨List.range' a.slots.length n ++ fl, ?_, ?_, ?_⟩, ?_, ?_, ?_⟩
  · rw [List.nodup_append]
    refine ⟨List.nodup_range', hnd, ?_⟩
    intro x hx y hy hxy
    subst hxy
    have := hlt x hy
    simp [List.mem_range'_1] at hx
    omega
  · obtain ⟨d, rfl⟩ : ∃ d, n = d + 1 := ⟨n - 1, by omega⟩
    have := reserve_chain_aux a (d + 1) fl hch' d 0 (by omega)
    simpa [reserve] using this
  · intro i nx h
    rcases reserve_cases a n i _ h with ⟨_, h'⟩ | ⟨k, hk, rfl, _⟩
    · exact List.mem_append_right _ (hall i nx h')
    · apply List.mem_append_left
      simp [List.mem_range'_1]; omega
  · intro i g v h
    rcases reserve_cases a n i _ h with ⟨_, h'⟩ | ⟨k, hk, rfl, nx, h'⟩
    · simpa [reserve] using hg i g v h'
    · cases h'
  · simp only [reserve, List.filter_append]
    rw [filter_replicate_free]
    · simpa using hc
    · intro k _; split <;> rfl
  · rw [reserve_length]; omega

theorem reserve_inv {a : Arena α} (h : Inv a) {n : Nat} (hn : 0 < n) : Inv (a.reserve n) :=
  reserve_inv' a n h.chain h.gens h.count hn

theorem withCapacity_inv (n : Nat) : Inv (withCapacity n : Arena α) := by
  apply reserve_inv'
  · exact ⟨[], List.nodup_nil, rfl, by simp⟩
  · simp
  · simp
  · omega

theorem new_inv : Inv (new : Arena α) := withCapacity_inv 4

theorem reserve_get (a : Arena α) (n : Nat) (i : Idx) : (a.reserve n).get i = a.get i := by
  unfold get
  by_cases hi : i.slot < a.slots.length
  · rw [reserve_slot_old a n _ hi]
  · rw [List.getElem?_eq_none (by omega : a.slots.length ≤ i.slot)]
    cases h : (a.reserve n).slots[i.slot]? with
    | none => rfl
    | some s =>
      rcases reserve_cases a n _ _ h with ⟨h', _⟩ | ⟨_, _, _, nx, rfl⟩
      · exact absurd h' hi
      · rfl

theorem reserve_generation (a : Arena α) (n : Nat) : (a.reserve n).generation = a.generation := rfl

/-- What a successful `tryInsert` does, in terms of lookups. -/
structure InsertSpec (a a' : Arena α) (v : α) (i : Idx) : Prop where
  inv : Inv a'
  dead : a.get i = none
  self : a'.get i = some v
  other : ∀ j, j ≠ i → a'.get j = a.get j
  gen : i.gen = a.generation
  generation : a'.generation = a.generation
  notOcc : ∀ (g : Nat) (v : α), a.slots[i.slot]? ≠ some (.occ g v)
  count : a'.count = a.count + 1

theorem tryInsert_spec {a : Arena α} (h : Inv a) (v : α) (hd : a.head ≠ none) :
    ∃ a' i, a.tryInsert v = .done a' i ∧ InsertSpec a a' v i := by
  obtain ⟨fl, hnd, hch, hall⟩ := h.chain
  cases fl with
  | nil => exact absurd hch hd
  | cons i is =>
    obtain ⟨h1, nx, h2, h3⟩ := hch
    have hil : i < a.slots.length := by
      rcases Nat.lt_or_ge i a.slots.length with h' | h'
      · exact h'
      · rw [List.getElem?_eq_none h'] at h2; cases h2
    refine ⟨⟨a.slots.set i (.occ a.generation v), a.generation, nx, a.count + 1⟩, ⟨i, a.generation⟩,
      by simp only [tryInsert, h1, h2], ?_⟩
    have hni : i ∉ is := (List.nodup_cons.1 hnd).1
    refine ⟨⟨⟨is, (List.nodup_cons.1 hnd).2, ?_, ?_⟩, ?_, ?_, ?_⟩, ?_, ?_, ?_, rfl, rfl, ?_, rfl⟩
    · apply chain_mono h3
      intro j hj
      have : i ≠ j := fun e => hni (e ▸ hj)
      simp [List.getElem?_set, this]
    · intro j nx' hj
      simp only [List.getElem?_set] at hj
      split at hj
      · simp [hil] at hj
      · rename_i hne
        have := hall j nx' hj
        rcases List.mem_cons.1 this with rfl | h'
        · exact absurd rfl hne
        · exact h'
    · intro j g w hj
      simp only [List.getElem?_set] at hj
      split at hj
      · simp [hil] at hj; simp [hj.1]
      · exact h.gens j g w hj
    · have := filter_set_length a.slots i _ (.occ a.generation v) h2
      simp [isOccSlot] at this
      simp only [this, h.count]
    · simpa using h.nonempty
    · simp [get, h2]
    · simp [get, hil]
    · intro j hj
      simp only [get, List.getElem?_set]
      by_cases hs : i = j.slot
      · simp only [if_pos hs]
        rw [← hs, h2]
        simp only [hil, if_true]
        rw [if_neg]
        intro hg
        apply hj
        cases j; simp at *; exact ⟨hs.symm, hg.symm⟩
      · simp only [if_neg hs]
    · intro g w; simp [h2]

theorem insert?_spec {a : Arena α} (h : Inv a) (v : α) :
    ∃ a' i, a.insert? v = some (a', i) ∧ InsertSpec a a' v i := by
  by_cases hd : a.head = none
  · have hr := reserve_inv h h.nonempty
    obtain ⟨a', i, h1, h2⟩ := tryInsert_spec hr v (by simp [reserve])
    refine ⟨a', i, ?_, ?_⟩
    · have : a.tryInsert v = .full := by simp [tryInsert, hd]
      simp [insert?, this, h1]
    · refine ⟨h2.inv, by rw [← h2.dead, reserve_get], h2.self, fun j hj => by rw [h2.other j hj, reserve_get],
        h2.gen, h2.generation, ?_, h2.count⟩
      intro g w hg
      apply h2.notOcc g w
      rw [reserve_slot_old, hg]
      rcases Nat.lt_or_ge i.slot a.slots.length with h' | h'
      · exact h'
      · rw [List.getElem?_eq_none h'] at hg; cases hg
  · obtain ⟨a', i, h1, h2⟩ := tryInsert_spec h v hd
    exact ⟨a', i, by simp [insert?, h1], h2⟩

/-- In every arena satisfying the invariant, insertion does not panic and the total `insert` is it. -/
theorem insert?_eq {a : Arena α} (h : Inv a) (v : α) : a.insert? v = some (a.insert v) := by
  obtain ⟨a', i, h1, _⟩ := insert?_spec h v
  simp [insert, h1]

theorem insert_spec {a : Arena α} (h : Inv a) (v : α) :
    InsertSpec a (a.insert v).1 v (a.insert v).2 := by
  obtain ⟨a', i, h1, h2⟩ := insert?_spec h v
  have : a.insert v = (a', i) := by simp [insert, h1]
  rw [this]; exact h2

theorem insert_inv {a : Arena α} (h : Inv a) (v : α) : Inv (a.insert v).1 := (insert_spec h v).inv
theorem get_insert_self {a : Arena α} (h : Inv a) (v : α) :
    (a.insert v).1.get (a.insert v).2 = some v := (insert_spec h v).self
theorem get_insert_ne {a : Arena α} (h : Inv a) (v : α) {j : Idx} (hj : j ≠ (a.insert v).2) :
    (a.insert v).1.get j = a.get j := (insert_spec h v).other j hj
theorem insert_fresh {a : Arena α} (h : Inv a) (v : α) : a.get (a.insert v).2 = none :=
  (insert_spec h v).dead
theorem get_insert {a : Arena α} (h : Inv a) (v : α) (j : Idx) :
    (a.insert v).1.get j = if j = (a.insert v).2 then some v else a.get j := by
  split
  · rename_i e; rw [e, get_insert_self h]
  · rename_i e; exact get_insert_ne h v e
theorem get_insert_of_some {a : Arena α} (h : Inv a) (v w : α) {j : Idx} (hj : a.get j = some w) :
    (a.insert v).1.get j = some w := by
  rw [get_insert_ne h v, hj]
  intro e; rw [e, insert_fresh h] at hj; cases hj

theorem get_some_iff {a : Arena α} {i : Idx} {v : α} :
    a.get i = some v ↔ a.slots[i.slot]? = some (.occ i.gen v) := by
  unfold get
  split
  · rename_i g w h
    rw [h]
    split
    · rename_i hg; subst hg; simp
    · rename_i hg
      simp
      intro e; exact absurd e hg
  · rename_i h
    constructor
    · intro h'; cases h'
    · intro h'; exact absurd h' (h _ _)

theorem get_gen_le {a : Arena α} (h : Inv a) {i : Idx} {v : α} (hg : a.get i = some v) :
    i.gen ≤ a.generation := h.gens _ _ _ (get_some_iff.1 hg)

theorem remove_of_none {a : Arena α} {i : Idx} (h : a.get i = none) : a.remove i = (a, none) := by
  unfold remove
  unfold get at h
  split
  · rename_i g v hs
    rw [hs] at h
    simp only at h
    split
    · rename_i hg; rw [if_pos hg] at h; cases h
    · rfl
  · rfl

/-- The arena after a successful removal. -/
def freed (a : Arena α) (i : Idx) : Arena α :=
  ⟨a.slots.set i.slot (.free a.head), a.generation + 1, some i.slot, a.count - 1⟩

theorem remove_of_some {a : Arena α} {i : Idx} {v : α} (h : a.get i = some v) :
    a.remove i = (a.freed i, some v) := by
  have := get_some_iff.1 h
  simp [remove, this, freed]

theorem remove_snd (a : Arena α) (i : Idx) : (a.remove i).2 = a.get i := by
  cases h : a.get i with
  | none => rw [remove_of_none h]
  | some v => rw [remove_of_some h]

theorem get_remove (a : Arena α) (i j : Idx) :
    (a.remove i).1.get j = if j = i then none else a.get j := by
  cases h : a.get i with
  | none =>
    rw [remove_of_none h]
    split
    · rename_i e; rw [e, h]
    · rfl
  | some v =>
    rw [remove_of_some h]
    have hs := get_some_iff.1 h
    have hil : i.slot < a.slots.length := by
      rcases Nat.lt_or_ge i.slot a.slots.length with h' | h'
      · exact h'
      · rw [List.getElem?_eq_none h'] at hs; cases hs
    by_cases hsl : i.slot = j.slot
    · have h1 : ((a.freed i).get j) = none := by
        simp [get, freed, hsl, hsl ▸ hil]
      rw [h1]
      split
      · rfl
      · rename_i hne
        symm
        cases hj : a.get j with
        | none => rfl
        | some w =>
          exfalso
          have hj' := get_some_iff.1 hj
          rw [← hsl, hs] at hj'
          simp at hj'
          apply hne
          cases i; cases j; simp at *; exact ⟨hsl.symm, hj'.1.symm⟩
    · rw [if_neg (fun e => hsl (by rw [e]))]
      simp [get, freed, hsl]

theorem remove_inv {a : Arena α} (h : Inv a) (i : Idx) : Inv (a.remove i).1 := by
  cases hg : a.get i with
  | none => rw [remove_of_none hg]; exact h
  | some v =>
    rw [remove_of_some hg]
    have hs := get_some_iff.1 hg
    have hil : i.slot < a.slots.length := by
      rcases Nat.lt_or_ge i.slot a.slots.length with h' | h'
      · exact h'
      · rw [List.getElem?_eq_none h'] at hs; cases hs
    obtain ⟨fl, hnd, hch, hall⟩ := h.chain
    have hni : i.slot ∉ fl := by
      intro hmem
      obtain ⟨nx, hf⟩ := chain_mem_free hch _ hmem
      rw [hs] at hf; cases hf
    refine ⟨⟨i.slot :: fl, List.nodup_cons.2 ⟨hni, hnd⟩, ⟨rfl, a.head, by simp [freed, hil], ?_⟩, ?_⟩, ?_, ?_, ?_⟩
    · apply chain_mono hch
      intro j hj
      have : i.slot ≠ j := fun e => hni (e ▸ hj)
      simp [freed, this]
    · intro j nx hj
      simp only [freed, List.getElem?_set] at hj
      split at hj
      · rename_i e; simp [e]
      · exact List.mem_cons_of_mem _ (hall j nx hj)
    · intro j g w hj
      simp only [freed, List.getElem?_set] at hj
      split at hj
      · simp [hil] at hj
      · exact Nat.le_succ_of_le (h.gens j g w hj)
    · have := filter_set_length a.slots i.slot _ (.free a.head) hs
      simp [isOccSlot] at this
      show a.count - 1 = ((a.slots.set i.slot (.free a.head)).filter isOccSlot).length
      have hc := h.count
      omega
    · simpa [freed] using h.nonempty

theorem remove_generation {a : Arena α} {i : Idx} {v : α} (h : a.get i = some v) :
    (a.remove i).1.generation = a.generation + 1 := by rw [remove_of_some h]; rfl

theorem remove_generation_le (a : Arena α) (i : Idx) :
    a.generation ≤ (a.remove i).1.generation := by
  cases h : a.get i with
  | none => rw [remove_of_none h] <;> exact Nat.le_refl _
  | some v => rw [remove_generation h]; omega

theorem modify_eq_none {a : Arena α} {i : Idx} {f : α → α} : a.modify i f = none ↔ a.get i = none := by
  unfold modify get
  split
  · split <;> simp
  · simp

theorem modify_of_some {a : Arena α} {i : Idx} {v : α} (f : α → α) (h : a.get i = some v) :
    a.modify i f = some { a with slots := a.slots.set i.slot (.occ i.gen (f v)) } := by
  have := get_some_iff.1 h
  simp [modify, this]

theorem modify_inv {a a' : Arena α} (h : Inv a) {i : Idx} {f : α → α} (hm : a.modify i f = some a') :
    Inv a' := by
  cases hg : a.get i with
  | none => rw [modify_eq_none.2 hg] at hm; cases hm
  | some v =>
    rw [modify_of_some f hg] at hm
    cases hm
    have hs := get_some_iff.1 hg
    have hil : i.slot < a.slots.length := by
      rcases Nat.lt_or_ge i.slot a.slots.length with h' | h'
      · exact h'
      · rw [List.getElem?_eq_none h'] at hs; cases hs
    obtain ⟨fl, hnd, hch, hall⟩ := h.chain
    have hni : i.slot ∉ fl := by
      intro hmem
      obtain ⟨nx, hf⟩ := chain_mem_free hch _ hmem
      rw [hs] at hf; cases hf
    refine ⟨⟨fl, hnd, ?_, ?_⟩, ?_, ?_, ?_⟩
    · apply chain_mono hch
      intro j hj
      have : i.slot ≠ j := fun e => hni (e ▸ hj)
      simp [List.getElem?_set, this]
    · intro j nx hj
      simp only [List.getElem?_set] at hj
      split at hj
      · simp [hil] at hj
      · exact hall j nx hj
    · intro j g w hj
      simp only [List.getElem?_set] at hj
      split at hj
      · simp [hil] at hj; rw [← hj.1]; exact h.gens _ _ _ hs
      · exact h.gens j g w hj
    · have := filter_set_length a.slots i.slot _ (.occ i.gen (f v)) hs
      simp [isOccSlot] at this
      simp only [this, h.count]
    · simpa using h.nonempty

theorem get_modify {a a' : Arena α} {i : Idx} {f : α → α} (hm : a.modify i f = some a') (j : Idx) :
    a'.get j = if j = i then (a.get i).map f else a.get j := by
  cases hg : a.get i with
  | none => rw [modify_eq_none.2 hg] at hm; cases hm
  | some v =>
    rw [modify_of_some f hg] at hm
    cases hm
    have hs := get_some_iff.1 hg
    have hil : i.slot < a.slots.length := by
      rcases Nat.lt_or_ge i.slot a.slots.length with h' | h'
      · exact h'
      · rw [List.getElem?_eq_none h'] at hs; cases hs
    by_cases hsl : i.slot = j.slot
    · by_cases hgn : i.gen = j.gen
      · have e : j = i := by cases i; cases j; simp at *; exact ⟨hsl.symm, hgn.symm⟩
        subst e
        simp [get, hil]
      · have e : j ≠ i := fun e => hgn (by rw [e])
        rw [if_neg e]
        have h1 : (a.slots.set i.slot (Slot.occ i.gen (f v)))[j.slot]? = some (.occ i.gen (f v)) := by
          rw [← hsl]; simp [hil]
        have h2 : a.slots[j.slot]? = some (.occ i.gen v) := by rw [← hsl]; exact hs
        simp [get, h1, h2, hgn]
    · rw [if_neg (fun e => hsl (by rw [e]))]
      simp [get, List.getElem?_set, hsl]

theorem modify_generation {a a' : Arena α} {i : Idx} {f : α → α} (hm : a.modify i f = some a') :
    a'.generation = a.generation := by
  cases hg : a.get i with
  | none => rw [modify_eq_none.2 hg] at hm; cases hm
  | some v => rw [modify_of_some f hg] at hm; cases hm; rfl

theorem contains_iff {a : Arena α} {i : Idx} : a.contains i = true ↔ ∃ v, a.get i = some v := by
  simp [contains, Option.isSome_iff_exists]

/-! ### Iteration -/

theorem mem_entriesFrom {l : List (Slot α)} {k : Nat} {i : Idx} {v : α} :
    (i, v) ∈ entriesFrom k l ↔ k ≤ i.slot ∧ l[i.slot - k]? = some (.occ i.gen v) := by
  induction l generalizing k with
  | nil => simp [entriesFrom]
  | cons s l ih =>
    have hstep : (k + 1 ≤ i.slot ∧ l[i.slot - (k + 1)]? = some (.occ i.gen v)) ↔
        (k < i.slot ∧ (s :: l)[i.slot - k]? = some (.occ i.gen v)) := by
      constructor
      · rintro ⟨h1, h2⟩
        refine ⟨by omega, ?_⟩
        obtain ⟨d, hd⟩ : ∃ d, i.slot - k = d + 1 := ⟨i.slot - k - 1, by omega⟩
        rw [hd, List.getElem?_cons_succ]
        rw [show i.slot - (k + 1) = d by omega] at h2
        exact h2
      · rintro ⟨h1, h2⟩
        refine ⟨by omega, ?_⟩
        obtain ⟨d, hd⟩ : ∃ d, i.slot - k = d + 1 := ⟨i.slot - k - 1, by omega⟩
        rw [hd, List.getElem?_cons_succ] at h2
        rw [show i.slot - (k + 1) = d by omega]
        exact h2
    cases s with
    | free nx =>
      simp only [entriesFrom]
      rw [ih, hstep]
      constructor
      · rintro ⟨h1, h2⟩; exact ⟨by omega, h2⟩
      · rintro ⟨h1, h2⟩
        refine ⟨?_, h2⟩
        rcases Nat.lt_or_ge k i.slot with h | h
        · exact h
        · have : i.slot - k = 0 := by omega
          rw [this] at h2; simp at h2
    | occ g w =>
      simp only [entriesFrom, List.mem_cons]
      rw [ih, hstep]
      constructor
      · rintro (h | ⟨h1, h2⟩)
        · simp at h
          obtain ⟨rfl, rfl⟩ := h
          simp
        · exact ⟨by omega, h2⟩
      · rintro ⟨h1, h2⟩
        rcases Nat.lt_or_ge k i.slot with h | h
        · right; exact ⟨h, h2⟩
        · left
          have h0 : i.slot - k = 0 := by omega
          rw [h0] at h2; simp at h2
          cases i; simp at *
          exact ⟨⟨by omega, h2.1.symm⟩, h2.2.symm⟩

theorem mem_iter {a : Arena α} {i : Idx} {v : α} : (i, v) ∈ a.iter ↔ a.get i = some v := by
  unfold iter
  rw [mem_entriesFrom, get_some_iff]; simp

theorem entriesFrom_slots {l : List (Slot α)} {k : Nat} :
    ((entriesFrom k l).map (fun p => p.1.slot)).Pairwise (· < ·) ∧
    ∀ x ∈ (entriesFrom k l).map (fun p => p.1.slot), k ≤ x := by
  induction l generalizing k with
  | nil => simp [entriesFrom]
  | cons s l ih =>
    cases s with
    | free nx =>
      simp only [entriesFrom]
      refine ⟨ih.1, fun x hx => ?_⟩
      have := (ih (k := k + 1)).2 x hx
      omega
    | occ g w =>
      simp only [entriesFrom, List.map_cons, List.pairwise_cons]
      refine ⟨⟨fun x hx => ?_, ih.1⟩, fun x hx => ?_⟩
      · have := (ih (k := k + 1)).2 x hx
        omega
      · rcases List.mem_cons.1 hx with rfl | hx
        · exact Nat.le_refl _
        · have := (ih (k := k + 1)).2 x hx
          omega

theorem iter_nodup (a : Arena α) : (a.iter.map Prod.fst).Nodup := by
  have h := (entriesFrom_slots (l := a.slots) (k := 0)).1
  unfold iter
  rw [List.pairwise_map] at h
  rw [List.nodup_iff_pairwise_ne, List.pairwise_map]
  exact h.imp (fun {x y} hxy e => by rw [e] at hxy; omega)

theorem entriesFrom_length (l : List (Slot α)) (k : Nat) :
    (entriesFrom k l).length = (l.filter isOccSlot).length := by
  induction l generalizing k with
  | nil => rfl
  | cons s l ih => cases s <;> simp [entriesFrom, List.filter_cons, isOccSlot, ih]

theorem iter_length {a : Arena α} (h : Inv a) : a.iter.length = a.len := by
  simp [iter, entriesFrom_length, len, h.count]

/-! ### Sequences of calls -/

/-- Facts every step preserves. -/
theorem step_inv {a : Arena α} (h : Inv a) (op : ArenaOp α) : Inv (a.step op).1 := by
  cases op with
  | insert v => exact insert_inv h v
  | remove i => exact remove_inv h i
  | overwrite i v =>
    simp only [step]
    split
    · rename_i a' hm; exact modify_inv h hm
    · exact h
  | reserve n => exact reserve_inv h (Nat.succ_pos n)

theorem run_inv {a : Arena α} (h : Inv a) (ops : List (ArenaOp α)) : Inv (a.run ops).1 := by
  induction ops generalizing a with
  | nil => exact h
  | cons op ops ih => exact ih (step_inv h op)

/-- A handle is dead for good: it does not resolve and its generation is in the past. -/
def Dead (a : Arena α) (i : Idx) : Prop := a.get i = none ∧ i.gen < a.generation

theorem remove_dead {a : Arena α} (h : Inv a) {i : Idx} {v : α} (hg : a.get i = some v) :
    Dead (a.remove i).1 i := by
  refine ⟨by simp [get_remove], ?_⟩
  rw [remove_generation hg]
  have := get_gen_le h hg
  omega

theorem insert_dead {a : Arena α} (h : Inv a) {i : Idx} (hd : Dead a i) (v : α) :
    Dead (a.insert v).1 i := by
  have hs := insert_spec h v
  refine ⟨?_, by rw [hs.generation]; exact hd.2⟩
  rw [get_insert_ne h, hd.1]
  intro e
  have := hs.gen
  rw [← e] at this
  have := hd.2
  omega

theorem remove_dead_of_dead {a : Arena α} {i : Idx} (hd : Dead a i) (j : Idx) :
    Dead (a.remove j).1 i := by
  refine ⟨?_, Nat.lt_of_lt_of_le hd.2 (remove_generation_le a j)⟩
  rw [get_remove]; split
  · rfl
  · exact hd.1

theorem modify_dead {a a' : Arena α} {i j : Idx} {f : α → α} (hd : Dead a i)
    (hm : a.modify j f = some a') : Dead a' i := by
  refine ⟨?_, by rw [modify_generation hm]; exact hd.2⟩
  rw [get_modify hm]; split
  · rename_i e; rw [← e, hd.1]; rfl
  · exact hd.1

theorem step_dead {a : Arena α} (h : Inv a) {i : Idx} (hd : Dead a i) (op : ArenaOp α) :
    Dead (a.step op).1 i := by
  cases op with
  | insert v => exact insert_dead h hd v
  | remove j => exact remove_dead_of_dead hd j
  | overwrite j v =>
    simp only [step]
    split
    · rename_i a' hm; exact modify_dead hd hm
    · exact hd
  | reserve n => exact ⟨by simpa [step, reserve_get] using hd.1, hd.2⟩

theorem run_dead {a : Arena α} (h : Inv a) {i : Idx} (hd : Dead a i) (ops : List (ArenaOp α)) :
    Dead (a.run ops).1 i := by
  induction ops generalizing a with
  | nil => exact hd
  | cons op ops ih => exact ih (step_inv h op) (step_dead h hd op)

/-- Handles issued so far are live or dead for good. -/
def Tracked (a : Arena α) (issued : List Idx) : Prop :=
  ∀ i ∈ issued, (∃ v, a.get i = some v) ∨ Dead a i

theorem step_tracked {a : Arena α} (h : Inv a) {issued : List Idx} (ht : Tracked a issued)
    (op : ArenaOp α) : Tracked (a.step op).1 issued := by
  intro i hi
  rcases ht i hi with ⟨w, hw⟩ | hd
  · cases op with
    | insert v => exact .inl ⟨w, get_insert_of_some h v w hw⟩
    | remove j =>
      by_cases e : i = j
      · subst e; exact .inr (remove_dead h hw)
      · exact .inl ⟨w, by simp [step, get_remove, e, hw]⟩
    | overwrite j v =>
      simp only [step]
      split
      · rename_i a' hm
        left
        rw [get_modify hm]
        split
        · rename_i e; rw [← e, hw]; exact ⟨_, rfl⟩
        · exact ⟨w, hw⟩
      · exact .inl ⟨w, hw⟩
    | reserve n => exact .inl ⟨w, by simpa [step, reserve_get] using hw⟩
  · exact .inr (step_dead h hd op)

theorem insert_not_issued {a : Arena α} (h : Inv a) {issued : List Idx} (ht : Tracked a issued) (v : α) :
    (a.insert v).2 ∉ issued := by
  intro hi
  have hs := insert_spec h v
  rcases ht _ hi with ⟨w, hw⟩ | hd
  · rw [hs.dead] at hw; cases hw
  · have := hd.2
    have := hs.gen
    omega

theorem insert_tracked {a : Arena α} (h : Inv a) {issued : List Idx} (ht : Tracked a issued) (v : α) :
    Tracked (a.insert v).1 ((a.insert v).2 :: issued) := by
  intro i hi
  rcases List.mem_cons.1 hi with rfl | hi
  · exact .inl ⟨v, get_insert_self h v⟩
  · exact step_tracked h ht (.insert v) i hi

theorem run_refines {a : Arena α} (h : Inv a) {m : Spec.HMap α} (hf : ∀ i, a.get i = m.find i)
    (ht : Tracked a m.issued) (ops : List (ArenaOp α)) :
    ∃ m', Spec.Steps m ops (a.run ops).2 m' ∧ (∀ i, (a.run ops).1.get i = m'.find i) ∧
      Tracked (a.run ops).1 m'.issued := by
  induction ops generalizing a m with
  | nil => exact ⟨m, .nil m, hf, ht⟩
  | cons op ops ih =>
    have key : ∃ m1, Spec.Step m op (a.step op).2 m1 ∧ (∀ i, (a.step op).1.get i = m1.find i) ∧
        Tracked (a.step op).1 m1.issued := by
      cases op with
      | insert v =>
        refine ⟨_, .insert m v (a.insert v).2 (insert_not_issued h ht v), ?_, insert_tracked h ht v⟩
        intro i
        simp only [step, get_insert h, Spec.HMap.put, hf]
      | remove j =>
        refine ⟨⟨m.put j none, m.issued⟩, ?_, ?_, step_tracked h ht (.remove j)⟩
        · have : (a.step (.remove j)).2 = .value (m.find j) := by
            simp [step, remove_snd, hf]
          rw [this]; exact .remove m j
        · intro i
          simp only [step, get_remove, Spec.HMap.put, hf]
      | overwrite j v =>
        have ht' := step_tracked h ht (.overwrite j v)
        simp only [step] at ht' ⊢
        split
        · rename_i a' hm
          rw [hm] at ht'
          cases hg : a.get j with
          | none => rw [modify_eq_none.2 hg] at hm; cases hm
          | some old =>
            refine ⟨_, .overwrite m j v old (by rw [← hf, hg]), ?_, ht'⟩
            intro i
            simp only [get_modify hm, hg, Spec.HMap.put, hf, Option.map_some]
        · rename_i hm
          exact ⟨m, .overwriteDead m j v (by rw [← hf]; exact modify_eq_none.1 hm), hf, ht⟩
      | reserve n =>
        exact ⟨m, .reserve m n, fun i => by simp only [step, reserve_get, hf],
          step_tracked h ht (.reserve n)⟩
    obtain ⟨m1, h1, h2, h3⟩ := key
    obtain ⟨m', h4, h5, h6⟩ := ih (step_inv h op) h2 h3
    exact ⟨m', .cons h1 h4, h5, h6⟩

theorem get_new (i : Idx) : (new : Arena α).get i = none := by
  simp only [new, withCapacity, reserve_get]
  simp [get]

theorem get_withCapacity (n : Nat) (i : Idx) : (withCapacity n : Arena α).get i = none := by
  simp only [withCapacity, reserve_get]
  simp [get]

end Verif.Arena

namespace Verif.Arena
variable {α : Type}

/-! ### Capacity -/

theorem exists_free_of_count_lt {a : Arena α} (h : Inv a) (hlt : a.count < a.slots.length) :
    a.head ≠ none := by
  intro hn
  obtain ⟨fl, _, hch, hall⟩ := h.chain
  have hfl : fl = [] := by
    cases fl with
    | nil => rfl
    | cons i is => obtain ⟨h1, _⟩ := hch; rw [hn] at h1; cases h1
  subst hfl
  have : ∀ s ∈ a.slots, isOccSlot s = true := by
    intro s hs
    obtain ⟨i, hi⟩ := List.mem_iff_getElem?.1 hs
    cases s with
    | free nx => exact absurd (hall i nx hi) (by simp)
    | occ g v => rfl
  have hc := h.count
  rw [List.filter_eq_self.2 this] at hc
  omega

theorem count_le {a : Arena α} (h : Inv a) : a.count ≤ a.slots.length := by
  rw [h.count]; exact List.length_filter_le ..

theorem count_lt_of_head {a : Arena α} (h : Inv a) (hd : a.head ≠ none) : a.count < a.slots.length := by
  obtain ⟨fl, _, hch, _⟩ := h.chain
  cases fl with
  | nil => exact absurd hch hd
  | cons i is =>
    obtain ⟨_, nx, h2, _⟩ := hch
    rw [h.count]
    have hmem : (Slot.free nx : Slot α) ∈ a.slots := List.mem_of_getElem? h2
    rw [List.length_filter_lt_length_iff_exists]
    exact ⟨_, hmem, by simp [isOccSlot]⟩

theorem tryInsert_length {a a' : Arena α} {v : α} {i : Idx} (h : a.tryInsert v = .done a' i) :
    a'.slots.length = a.slots.length := by
  unfold tryInsert at h
  split at h
  · cases h
  · split at h
    · cases h; simp
    · cases h

theorem insert_capacity {a : Arena α} (h : Inv a) (v : α) :
    (a.insert v).1.capacity = if a.len < a.capacity then a.capacity else 2 * a.capacity := by
  unfold capacity len
  split
  · rename_i hlt
    obtain ⟨a', i, h1, _⟩ := tryInsert_spec h v (exists_free_of_count_lt h hlt)
    have : a.insert v = (a', i) := by simp [insert, insert?, h1]
    rw [this]; exact tryInsert_length h1
  · rename_i hge
    have hd : a.head = none := by
      cases hh : a.head with
      | none => rfl
      | some x => exact absurd (count_lt_of_head h (by simp [hh])) hge
    have h0 : a.tryInsert v = .full := by simp [tryInsert, hd]
    obtain ⟨a', i, h1, _⟩ := tryInsert_spec (reserve_inv h h.nonempty) v (by simp [reserve])
    have : a.insert v = (a', i) := by simp [insert, insert?, h0, h1]
    rw [this]
    show a'.slots.length = _
    rw [tryInsert_length h1, reserve_length]; omega

theorem insert_len {a : Arena α} (h : Inv a) (v : α) : (a.insert v).1.len = a.len + 1 :=
  (insert_spec h v).count

theorem insertMany_capacity {a : Arena α} (h : Inv a) (vs : List α)
    (hle : a.len + vs.length ≤ a.capacity) :
    (vs.foldl (fun b v => (b.insert v).1) a).capacity = a.capacity := by
  induction vs generalizing a with
  | nil => rfl
  | cons v vs ih =>
    simp only [List.foldl_cons, List.length_cons] at *
    have hc : (a.insert v).1.capacity = a.capacity := by
      rw [insert_capacity h, if_pos (by omega)]
    rw [ih (insert_inv h v) (by rw [insert_len h, hc]; omega), hc]

/-! ### Building from an iterator -/

/-- State while filling a fresh arena: `done` occupied slots followed by a chain of free ones. -/
structure Filling (a : Arena α) (done : List α) (n : Nat) : Prop where
  inv : Inv a
  gen : a.generation = 0
  occ : ∀ (k : Nat) (v : α), done[k]? = some v → a.slots[k]? = some (.occ 0 v)
  free : ∀ (k : Nat), done.length ≤ k → k < n →
    a.slots[k]? = some (.free (if k + 1 = n then none else some (k + 1)))
  head : a.head = if done.length < n then some done.length else none
  size : a.slots.length = n

theorem filling_start (n : Nat) (hn : 0 < n) : Filling (withCapacity n : Arena α) [] n := by
  have hm : max n 1 = n := by omega
  refine ⟨withCapacity_inv n, rfl, by simp, ?_, ?_, ?_⟩
  · intro k _ hk
    have := reserve_slot ({ slots := [], generation := 0, head := none, count := 0 } : Arena α) n k hk
    simp only [List.length_nil, Nat.zero_add] at this
    rw [withCapacity, hm, this]
    split <;> rfl
  · simp [withCapacity, reserve, hn]
  · simp [withCapacity, reserve, hm]

theorem filling_step {a : Arena α} {done : List α} {n : Nat} (h : Filling a done n) (v : α)
    (hlt : done.length < n) : Filling (a.insert v).1 (done ++ [v]) n := by
  have hh : a.head = some done.length := by rw [h.head, if_pos hlt]
  have hs := h.free done.length (Nat.le_refl _) hlt
  have e : (a.insert v).1 = ⟨a.slots.set done.length (.occ a.generation v), a.generation,
      (if done.length + 1 = n then none else some (done.length + 1)), a.count + 1⟩ := by
    simp [insert, insert?, tryInsert, hh, hs]
  have hi := insert_inv h.inv v
  rw [e] at hi ⊢
  refine ⟨hi, h.gen, ?_, ?_, ?_, ?_⟩
  · intro k w hk
    simp only [List.getElem?_set]
    rcases Nat.lt_trichotomy k done.length with hlt' | rfl | hgt
    · rw [if_neg (by omega)]
      rw [List.getElem?_append_left hlt'] at hk
      exact h.occ k w hk
    · simp at hk; subst hk
      simp [h.size, hlt, h.gen]
    · rw [List.getElem?_eq_none (by simp; omega)] at hk; cases hk
  · intro k hk1 hk2
    simp at hk1
    simp only [List.getElem?_set]
    rw [if_neg (by omega)]
    exact h.free k (by omega) hk2
  · simp only [List.length_append, List.length_singleton]
    split <;> split <;> first | rfl | omega
  · simpa using h.size

theorem filling_all {a : Arena α} {done : List α} {n : Nat} (h : Filling a done n) (vs : List α)
    (hle : done.length + vs.length ≤ n) :
    Filling (vs.foldl (fun b v => (b.insert v).1) a) (done ++ vs) n := by
  induction vs generalizing a done with
  | nil => simpa using h
  | cons v vs ih =>
    simp only [List.length_cons] at hle
    have := ih (filling_step h v (by omega)) (by simp; omega)
    simpa using this

theorem entriesFrom_eq {l : List (Slot α)} {vs : List α} {k : Nat}
    (hocc : ∀ (j : Nat) (v : α), vs[j]? = some v → l[j]? = some (.occ 0 v))
    (hfree : ∀ (j : Nat), vs.length ≤ j → j < l.length → ∃ nx, l[j]? = some (.free nx)) (hle : vs.length ≤ l.length) :
    (entriesFrom k l).map Prod.snd = vs := by
  induction l generalizing vs k with
  | nil => simp at hle; subst hle; rfl
  | cons s l ih =>
    cases vs with
    | nil =>
      obtain ⟨nx, hnx⟩ := hfree 0 (by simp) (by simp)
      simp at hnx; subst hnx
      simp only [entriesFrom]
      apply ih (vs := [])
      · simp
      · intro j _ hj
        obtain ⟨nx', h'⟩ := hfree (j + 1) (by simp) (by simpa using hj)
        exact ⟨nx', by simpa using h'⟩
      · simp
    | cons v vs =>
      have := hocc 0 v (by simp)
      simp at this; subst this
      simp only [entriesFrom, List.map_cons]
      congr 1
      apply ih
      · intro j w hw
        have := hocc (j + 1) w (by simpa using hw)
        simpa using this
      · intro j hj1 hj2
        obtain ⟨nx', h'⟩ := hfree (j + 1) (by simpa using hj1) (by simpa using hj2)
        exact ⟨nx', by simpa using h'⟩
      · simpa using hle

theorem intoIter_fromIter (l : List α) : (fromIter l).intoIter = l := by
  cases hl : l with
  | nil =>
    subst hl
    simp [fromIter, intoIter, iter, withCapacity, reserve, entriesFrom]
  | cons x xs =>
    rw [← hl]
    have hn : 0 < l.length := by rw [hl]; simp
    have hf := filling_all (filling_start (α := α) l.length hn) l (by simp)
    simp only [List.nil_append] at hf
    unfold intoIter iter fromIter
    apply entriesFrom_eq
    · exact hf.occ
    · intro j hj1 hj2
      rw [hf.size] at hj2
      exact ⟨_, hf.free j hj1 hj2⟩
    · rw [hf.size] <;> exact Nat.le_refl _

end Verif.Arena
