import Verif.Proofs.Arena
/-! # Arenas from which nothing was removed -/
namespace Verif.Arena
variable {α : Type}

/-- Slots `0` to `n - 1` are occupied with generation 0, the others are free and chained in order. -/
def Packed (a : Arena α) (n : Nat) : Prop := ∃ (done : List α) (cap : Nat), Filling a done cap ∧ done.length = n

theorem packed_new : Packed (new : Arena α) 0 := ⟨[], 4, filling_start 4 (by omega), rfl⟩

theorem Filling.le {a : Arena α} {done : List α} {n : Nat} (h : Filling a done n) : done.length ≤ n := by
  rcases Nat.lt_or_ge n done.length with hlt | hge
  · have := h.occ n done[n] (List.getElem?_eq_getElem hlt)
    rw [List.getElem?_eq_none (by rw [h.size]; exact Nat.le_refl _)] at this
    cases this
  · exact hge

theorem filling_grow {a : Arena α} {done : List α} {n : Nat} (h : Filling a done n) (hf : done.length = n) :
    Filling (a.reserve n) done (n + n) := by
  have hn : 0 < n := by rw [← h.size]; exact h.inv.nonempty
  refine ⟨reserve_inv h.inv hn, h.gen, ?_, ?_, ?_, ?_⟩
  · intro k v hk
    have hlt : k < done.length := by
      rcases Nat.lt_or_ge k done.length with hlt | hge
      · exact hlt
      · rw [List.getElem?_eq_none hge] at hk; cases hk
    rw [reserve_slot_old a n k (by rw [h.size]; omega)]
    exact h.occ k v hk
  · intro k h1 h2
    have := reserve_slot a n (k - n) (by omega)
    have hd : a.head = none := by rw [h.head, if_neg (by omega)]
    rw [h.size, show n + (k - n) = k by omega, hd] at this
    rw [this]
    by_cases e : k + 1 = n + n
    · rw [if_pos e, if_pos (by omega)]
    · rw [if_neg e, if_neg (by omega)]
  · simp [reserve, h.size]; omega
  · rw [reserve_length, h.size]

theorem insert_full {a : Arena α} (hd : a.head = none) (hs : 0 < a.slots.length) (v : α) :
    a.insert? v = (a.reserve a.slots.length).insert? v := by
  have h1 : a.tryInsert v = .full := by simp [tryInsert, hd]
  have h2 : (a.reserve a.slots.length).tryInsert v ≠ .full := by
    have hsl := reserve_slot a a.slots.length 0 hs
    rw [Nat.add_zero] at hsl
    simp only [tryInsert]
    rw [show (a.reserve a.slots.length).head = some a.slots.length from rfl]
    simp only [hsl]
    split <;> simp_all <;> split at * <;> simp_all
  unfold insert?
  rw [h1]
  cases h3 : (a.reserve a.slots.length).tryInsert v with
  | done a' i => rfl
  | corrupt => rfl
  | full => exact absurd h3 h2

theorem packed_insert {a : Arena α} {n : Nat} (h : Packed a n) (v : α) :
    (a.insert v).2 = ⟨n, 0⟩ ∧ Packed (a.insert v).1 (n + 1) := by
  obtain ⟨done, cap, hf, rfl⟩ := h
  have room : ∀ {a : Arena α} {cap : Nat}, Filling a done cap → done.length < cap →
      (a.insert v).2 = ⟨done.length, 0⟩ ∧ Packed (a.insert v).1 (done.length + 1) := by
    intro a cap hf hlt
    refine ⟨?_, done ++ [v], cap, filling_step hf v hlt, by simp⟩
    have hh : a.head = some done.length := by rw [hf.head, if_pos hlt]
    have hs := hf.free done.length (Nat.le_refl _) hlt
    simp [insert, insert?, tryInsert, hh, hs, hf.gen]
  by_cases hlt : done.length < cap
  · exact room hf hlt
  · have hle := hf.le
    have hc : 0 < cap := by rw [← hf.size]; exact hf.inv.nonempty
    have hg := filling_grow hf (by omega)
    have hd : a.head = none := by rw [hf.head, if_neg hlt]
    have e : a.insert v = (a.reserve cap).insert v := by
      have h1 := insert?_eq hf.inv v
      have h2 := insert?_eq hg.inv v
      have := insert_full hd hf.inv.nonempty v
      rw [h1, hf.size, h2] at this
      exact Option.some.inj this
    rw [e]
    exact room hg (by omega)

theorem packed_modify {a a' : Arena α} {n : Nat} (h : Packed a n) {i : Idx} {f : α → α} (hm : a.modify i f = some a') :
    Packed a' n := by
  obtain ⟨done, cap, hf, rfl⟩ := h
  unfold modify at hm
  cases hs : a.slots[i.slot]? with
  | none => rw [hs] at hm; simp at hm
  | some s =>
    rw [hs] at hm
    cases s with
    | free nx => simp at hm
    | occ g v =>
      simp only at hm
      by_cases hg : g = i.gen
      · rw [if_pos hg] at hm
        injection hm with hm
        have hsl : i.slot < done.length := by
          rcases Nat.lt_or_ge i.slot done.length with hlt | hge
          · exact hlt
          · have hcap : i.slot < cap := by
              rw [← hf.size]
              rcases Nat.lt_or_ge i.slot a.slots.length with hlt | hge'
              · exact hlt
              · rw [List.getElem?_eq_none hge'] at hs; cases hs
            rw [hf.free _ hge hcap] at hs; cases hs
        have hv := hf.occ i.slot done[i.slot] (List.getElem?_eq_getElem hsl)
        rw [hs] at hv
        injection hv with hv
        injection hv with hv1 hv2
        subst hm
        refine ⟨done.set i.slot (f v), cap, ⟨?_, hf.gen, ?_, ?_, ?_, ?_⟩, by simp⟩
        · refine modify_inv hf.inv (i := i) (f := f) ?_
          unfold modify
          rw [hs]; simp [hg]
        · intro k w hk
          simp only [List.getElem?_set] at hk ⊢
          by_cases e : i.slot = k
          · rw [if_pos e] at hk ⊢
            subst e
            rw [if_pos hsl] at hk
            injection hk with hk
            rw [if_pos (by rw [hf.size]; exact Nat.lt_of_lt_of_le hsl hf.le), hk, hv1]
          · rw [if_neg e] at hk ⊢
            exact hf.occ k w hk
        · intro k h1 h2
          simp only [List.length_set] at h1
          simp only [List.getElem?_set]
          rw [if_neg (by omega)]
          exact hf.free k h1 h2
        · simp only [List.length_set]; exact hf.head
        · simp only [List.length_set]; exact hf.size
      · rw [if_neg hg] at hm; cases hm

theorem packed_get {a : Arena α} {n : Nat} (h : Packed a n) (i : Idx) :
    (∃ v, a.get i = some v) ↔ i.slot < n ∧ i.gen = 0 := by
  obtain ⟨done, cap, hf, rfl⟩ := h
  constructor
  · rintro ⟨v, hv⟩
    rw [get_some_iff] at hv
    have hsl : i.slot < done.length := by
      rcases Nat.lt_or_ge i.slot done.length with hlt | hge
      · exact hlt
      · have hcap : i.slot < cap := by
          rw [← hf.size]
          rcases Nat.lt_or_ge i.slot a.slots.length with hlt | hge'
          · exact hlt
          · rw [List.getElem?_eq_none hge'] at hv; cases hv
        rw [hf.free _ hge hcap] at hv; cases hv
    have hw := hf.occ i.slot done[i.slot] (List.getElem?_eq_getElem hsl)
    rw [hv] at hw
    injection hw with hw
    injection hw with hw1 hw2
    exact ⟨hsl, hw1⟩
  · rintro ⟨h1, h2⟩
    refine ⟨done[i.slot], ?_⟩
    rw [get_some_iff, h2]
    exact hf.occ i.slot _ (List.getElem?_eq_getElem h1)

end Verif.Arena
