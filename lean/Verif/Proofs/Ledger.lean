import Mathlib.Tactic.Linarith
import Verif.Proofs.BaselineInv
/-! # What the calls of a history do to the storage of a baseline -/
namespace Verif
namespace Ledger
open Arena Store Baseline

variable {α : Type}

/-- A change without insertion: as many slots, and every generation consumed is an entry removed. -/
structure Quiet (a a' : Arena α) : Prop where
  slots : a'.slots.length = a.slots.length
  sum : a'.generation + a'.len = a.generation + a.len

theorem Quiet.refl (a : Arena α) : Quiet a a := ⟨rfl, rfl⟩
theorem Quiet.trans {a b c : Arena α} (h : Quiet a b) (h' : Quiet b c) : Quiet a c :=
  ⟨h'.slots.trans h.slots, h'.sum.trans h.sum⟩

theorem quiet_modify {a a' : Arena α} {i : Idx} {f : α → α} (hm : a.modify i f = some a') : Quiet a a' := by
  cases hg : a.get i with
  | none => rw [modify_eq_none.2 hg] at hm; cases hm
  | some v => rw [modify_of_some f hg] at hm; cases hm; exact ⟨List.length_set .., rfl⟩

theorem quiet_remove {a : Arena α} (h : Arena.Inv a) (i : Idx) : Quiet a (a.remove i).1 := by
  cases hg : a.get i with
  | none => rw [remove_of_none hg]; exact .refl a
  | some v =>
    have hp : 0 < a.len := by
      rw [← iter_length h]
      exact List.length_pos_of_mem (mem_iter.2 hg)
    rw [remove_of_some hg]
    refine ⟨?_, ?_⟩
    · simp [freed]
    · simp only [freed, Arena.len] at *; omega

theorem quiet_removeList {a : Arena α} (h : Arena.Inv a) (os : List Idx) : Quiet a (removeList a os) := by
  induction os generalizing a with
  | nil => exact .refl a
  | cons o os ih => exact (quiet_remove h o).trans (ih (remove_inv h o))

/-- At most one insertion. -/
def Grow (a a' : Arena α) : Prop := Quiet a a' ∨ ∃ v : α, a' = (a.insert v).1

theorem grow_sum {a a' : Arena α} (h : Arena.Inv a) (hg : Grow a a') : a'.generation + a'.len ≤ a.generation + a.len + 1 := by
  rcases hg with hq | ⟨v, rfl⟩
  · have := hq.sum; omega
  · rw [insert_len h, (insert_spec h v).generation]; omega

theorem grow_capacity {a a' : Arena α} (h : Arena.Inv a) (hg : Grow a a') (P : Nat) (hP : a'.len ≤ P) (hc : a.capacity ≤ max 4 (2 * P)) :
    a'.capacity ≤ max 4 (2 * P) := by
  rcases hg with hq | ⟨v, rfl⟩
  · unfold Arena.capacity at *; rw [hq.slots]; exact hc
  · rw [insert_len h] at hP
    rw [insert_capacity h]
    split
    · exact hc
    · omega

theorem step_objects {evs : List Event} {b : Baseline} (hb : BInv evs b) (op : BOp) : Grow b.objects (b.step op).1.objects := by
  have hi := hb.o.inv
  cases op with
  | register C =>
    rcases registerContract_cases b C with ⟨_, hr⟩ | ⟨_, hr⟩ <;> simp only [Baseline.step, hr] <;> exact .inl (.refl _)
  | unregister C k ord =>
    have hfst : (b.step (.unregister C k ord)).1 = (b.unregisterContract C k ord).1 := rfl
    rw [hfst]
    rcases unregister_cases b C k ord with ⟨h1, _⟩ | ⟨cd, cons, done, _, _, _, _, ⟨_, h5⟩ | ⟨h5, _⟩⟩
    · rw [h1]; exact .inl (.refl _)
    · rw [h5]; exact .inl (quiet_removeList hi done)
    · rw [h5]; exact .inl (quiet_removeList hi done)
  | create C k ss cs =>
    have hfst : (b.step (.create C k ss cs)).1 = (b.objectCreate C k ss cs).1 := rfl
    rw [hfst]
    rcases objectCreate_cases b C k ss cs with ⟨⟨cd, h1⟩, h2, h3⟩ | ⟨h1, _⟩
    · obtain ⟨cons, _, h4⟩ := objectCreate_ok h1 h2 h3
      rw [h4]; exact .inr ⟨_, rfl⟩
    · rw [h1]; exact .inl (.refl _)
  | remove C o =>
    have hfst : (b.step (.remove C o)).1 = (b.objectRemove C o).1 := rfl
    rw [hfst, objectRemove_fst]; exact .inl (quiet_removeList hi [o])
  | writeState t h v =>
    simp only [Baseline.step, stateWrite]
    cases b.states.write t h v <;> exact .inl (.refl _)
  | writeChannel t h v =>
    simp only [Baseline.step, channelWrite]
    cases b.channels.write t h v <;> exact .inl (.refl _)
  | setWarp o w =>
    simp only [Baseline.step, Baseline.setWarp]
    cases hm : b.objects.modify o (fun ob => { ob with warp := w }) with
    | none => exact .inl (.refl _)
    | some a' => exact .inl (quiet_modify hm)

theorem step_contracts {evs : List Event} {b : Baseline} (hb : BInv evs b) (op : BOp) : Grow b.contracts (b.step op).1.contracts := by
  have hi := hb.c.inv
  cases op with
  | register C =>
    rcases registerContract_cases b C with ⟨_, hr⟩ | ⟨_, hr⟩
    · simp only [Baseline.step, hr]; exact .inl (.refl _)
    · simp only [Baseline.step, hr]; exact .inr ⟨_, rfl⟩
  | unregister C k ord =>
    have hfst : (b.step (.unregister C k ord)).1 = (b.unregisterContract C k ord).1 := rfl
    rw [hfst]
    rcases unregister_cases b C k ord with ⟨h1, _⟩ | ⟨cd, cons, done, _, _, hm, _, ⟨_, h5⟩ | ⟨h5, _⟩⟩
    · rw [h1]; exact .inl (.refl _)
    · rw [h5]; exact .inl ((quiet_modify hm).trans (quiet_remove (modify_inv hi hm) k))
    · rw [h5]; exact .inl (quiet_modify hm)
  | create C k ss cs =>
    have hfst : (b.step (.create C k ss cs)).1 = (b.objectCreate C k ss cs).1 := rfl
    rw [hfst]
    rcases objectCreate_cases b C k ss cs with ⟨⟨cd, h1⟩, h2, h3⟩ | ⟨h1, _⟩
    · obtain ⟨cons, hm, h4⟩ := objectCreate_ok h1 h2 h3
      rw [h4]; exact .inl (quiet_modify hm)
    · rw [h1]; exact .inl (.refl _)
  | remove C o =>
    have hfst : (b.step (.remove C o)).1 = (b.objectRemove C o).1 := rfl
    rw [hfst, objectRemove_fst]; exact .inl (.refl _)
  | writeState t h v =>
    simp only [Baseline.step, stateWrite]
    cases b.states.write t h v <;> exact .inl (.refl _)
  | writeChannel t h v =>
    simp only [Baseline.step, channelWrite]
    cases b.channels.write t h v <;> exact .inl (.refl _)
  | setWarp o w =>
    simp only [Baseline.step, Baseline.setWarp]
    cases b.objects.modify o (fun ob => { ob with warp := w }) <;> exact .inl (.refl _)

/-! ## Stores -/

variable {F : PropType → Type}

/-- How the number of entries of each type grows from `s` to `s'`; nothing is ever removed. -/
structure Adds (s s' : Store F) (n : PropType → Nat) : Prop where
  len : ∀ t : PropType, (s'.arenaOf t).len = (s.arenaOf t).len + n t
  gen : ∀ t : PropType, (s'.arenaOf t).generation = (s.arenaOf t).generation

theorem Adds.refl (s : Store F) : Adds s s (fun _ => 0) := ⟨fun _ => rfl, fun _ => rfl⟩

theorem adds_create {s : Store F} (hs : s.Inv) (t : PropType) (v : F t) :
    Adds s (s.create t v).1 (fun u => if u = t then 1 else 0) := by
  have hI := arenaOf_inv hs t
  constructor <;> intro u <;> by_cases e : u = t
  · subst e; rw [create_eq]; simp only [arenaOf_update_self, if_true]; exact insert_len hI v
  · rw [create_eq]; simp only [if_neg e, Nat.add_zero, arenaOf]; rw [Function.update_of_ne e]
  · subst e; rw [create_eq]; simp only [arenaOf_update_self]; exact (insert_spec hI v).generation
  · rw [create_eq]; simp only [arenaOf]; rw [Function.update_of_ne e]

theorem adds_createAll {s : Store F} (hs : s.Inv) (ps : List ((t : PropType) × F t)) :
    Adds s (createAll s ps).1 (fun t => (ps.map Sigma.fst).count t) := by
  induction ps generalizing s with
  | nil => exact .refl s
  | cons p ps ih =>
    have h1 := adds_create hs p.1 p.2
    have h2 := ih (create_inv hs p.1 p.2)
    constructor <;> intro t
    · show ((createAll (s.create p.1 p.2).1 ps).1.arenaOf t).len = _
      rw [h2.len t, h1.len t, List.map_cons, List.count_cons]
      by_cases e : t = p.1
      · subst e; simp; omega
      · have e' : ¬ p.1 = t := fun h => e h.symm
        simp [e, e']
    · show ((createAll (s.create p.1 p.2).1 ps).1.arenaOf t).generation = _
      rw [h2.gen t, h1.gen t]

theorem adds_write {s s' : Store F} {t : PropType} {h : Idx} {v : F t} (hw : s.write t h v = some s') :
    Adds s s' (fun _ => 0) := by
  unfold Store.write at hw
  cases hs : s t with
  | none => simp only [hs] at hw; cases hw
  | some a =>
    simp only [hs] at hw
    cases hm : a.modify h (fun _ => v) with
    | none => simp only [hm] at hw; cases hw
    | some a' =>
      simp only [hm, Option.some.injEq] at hw
      subst hw
      have ha : s.arenaOf t = a := by simp only [arenaOf, hs]
      have hq := quiet_modify hm
      have hg := modify_generation hm
      have hsum := hq.sum
      have hl : a'.len = a.len := by omega
      constructor <;> intro u <;> by_cases e : u = t
      · subst e; rw [arenaOf_update_self, ha, hl]; rfl
      · simp only [arenaOf]; rw [Function.update_of_ne e]; rfl
      · subst e; rw [arenaOf_update_self, ha, hg]
      · simp only [arenaOf]; rw [Function.update_of_ne e]

end Ledger
end Verif
