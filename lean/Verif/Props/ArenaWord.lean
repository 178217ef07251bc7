import Mathlib.Tactic.Linarith
import Verif.Model.ArenaWord
import Verif.Props.Arena
/-!
# C94: the arena with its 64-bit generation counter

C01-C04 are about an arena whose generation counter never overflows.  A real one counts to 2^64 - 1.
-/
namespace Verif.Props
open Verif Verif.Arena

variable {α : Type}

/-- The number of `remove` calls of a sequence. -/
def removals : List (ArenaOp α) → Nat
  | [] => 0
  | .remove _ :: ops => removals ops + 1
  | _ :: ops => removals ops

theorem stepW_eq (p : Profile) (a : Arena α) (op : ArenaOp α) (hg : a.generation + removals [op] < 2 ^ 64) :
    a.stepW p op = ((a.step op).1, .ok (a.step op).2) := by
  cases op with
  | insert v => rfl
  | reserve n => rfl
  | overwrite i v => simp only [stepW, step]; cases a.modify i (fun _ => v) <;> rfl
  | remove i =>
    have hg' : a.generation + 1 < 2 ^ 64 := hg
    simp only [stepW, step, removeW, remove]
    cases hs : a.slots[i.slot]? with
    | none => rfl
    | some s =>
      cases s with
      | free n => rfl
      | occ g v =>
        simp only
        by_cases e : g = i.gen
        · rw [if_pos e, if_pos hg', if_pos e]; rfl
        · rw [if_neg e, if_neg e]; rfl

theorem insert_generation (a : Arena α) (v : α) : (a.insert v).1.generation = a.generation := by
  have ht : ∀ (b : Arena α) (b' : Arena α) (i : Idx), b.tryInsert v = .done b' i → b'.generation = b.generation := by
    intro b b' i h
    unfold tryInsert at h
    cases hh : b.head with
    | none => simp only [hh] at h; cases h
    | some k =>
      simp only [hh] at h
      cases hs : b.slots[k]? with
      | none => simp only [hs] at h; cases h
      | some s =>
        cases s with
        | free n => simp only [hs] at h; cases h; rfl
        | occ g w => simp only [hs] at h; cases h
  unfold Arena.insert Arena.insert?
  cases h1 : a.tryInsert v with
  | done a' i => exact ht a a' i h1
  | corrupt => rfl
  | full =>
    simp only
    cases h2 : (a.reserve a.slots.length).tryInsert v with
    | done a' i => exact (ht _ a' i h2).trans rfl
    | corrupt => rfl
    | full => rfl

theorem step_generation (a : Arena α) (op : ArenaOp α) : (a.step op).1.generation ≤ a.generation + removals [op] := by
  cases op with
  | insert v => exact Nat.le_of_eq (insert_generation a v)
  | reserve n => exact Nat.le_refl _
  | overwrite i v =>
    simp only [step, Arena.modify]
    cases a.slots[i.slot]? with
    | none => exact Nat.le_refl _
    | some s =>
      cases s with
      | free n => exact Nat.le_refl _
      | occ g w =>
        simp only
        by_cases e : g = i.gen
        · rw [if_pos e]; exact Nat.le_refl _
        · rw [if_neg e]; exact Nat.le_refl _
  | remove i =>
    simp only [step, remove]
    cases a.slots[i.slot]? with
    | none => exact Nat.le_succ _
    | some s =>
      cases s with
      | free n => exact Nat.le_succ _
      | occ g w =>
        simp only
        by_cases e : g = i.gen
        · rw [if_pos e]; exact Nat.le_refl _
        · rw [if_neg e]; exact Nat.le_succ _

theorem removals_cons (op : ArenaOp α) (ops : List (ArenaOp α)) : removals (op :: ops) = removals [op] + removals ops := by
  cases op <;> simp only [removals] <;> omega

theorem runW_eq (p : Profile) (ops : List (ArenaOp α)) (a : Arena α) (h : a.generation + removals ops < 2 ^ 64) :
    a.runW p ops = ((a.run ops).1, (a.run ops).2.map .ok) := by
  induction ops generalizing a with
  | nil => rfl
  | cons op ops ih =>
    rw [removals_cons] at h
    have h1 : a.generation + removals [op] < 2 ^ 64 := by omega
    have h2 := step_generation a op
    have h3 := ih (a.step op).1 (by omega)
    simp only [runW, stepW_eq p a op h1, h3]
    rfl

/-- **C94.** In every history with fewer than 2^64 `remove` calls, in a debug or a release build, the arena with the 64-bit counter gives
exactly the results of the arena of C01-C04 and ends in the same state, so everything C01-C05 say holds of it; in particular no call
panics and no handle is issued twice. -/
theorem C94_word_arena_agrees (p : Profile) (c : Nat) (ops : List (ArenaOp α)) (h : removals ops < 2 ^ 64) :
    ((Arena.withCapacity c : Arena α).runW p ops).1 = history c ops ∧
    ((Arena.withCapacity c : Arena α).runW p ops).2 = ((Arena.withCapacity c : Arena α).run ops).2.map .ok ∧
    (∀ (i j : Nat) (k : Idx), ((Arena.withCapacity c : Arena α).runW p ops).2[i]? = some (.ok (.handle k)) →
      ((Arena.withCapacity c : Arena α).runW p ops).2[j]? = some (.ok (.handle k)) → i = j) := by
  have hr := runW_eq p ops (Arena.withCapacity c : Arena α) (by show 0 + removals ops < _; omega)
  refine ⟨by rw [hr]; rfl, by rw [hr], ?_⟩
  rw [hr]
  intro i j k hi hj
  have nd := C03_handles_never_reissued (α := α) c ops
  have key : ∀ (l : List (ArenaOut α)), (issuedHandles l).Nodup → ∀ i j : Nat, l[i]? = some (.handle k) → l[j]? = some (.handle k) → i = j := by
    intro l
    induction l with
    | nil => intro _ i j h; simp at h
    | cons o l ih =>
      intro hn i j h1 h2
      have mem : ∀ n : Nat, l[n]? = some (.handle k) → k ∈ issuedHandles l := fun n hn =>
        List.mem_filterMap.2 ⟨.handle k, List.mem_of_getElem? hn, rfl⟩
      have hn' : (issuedHandles l).Nodup := by
        cases o with
        | handle x => exact (List.nodup_cons.1 (show (x :: issuedHandles l).Nodup from hn)).2
        | _ => exact hn
      cases i with
      | zero =>
        cases j with
        | zero => rfl
        | succ j =>
          simp only [List.getElem?_cons_zero, Option.some.injEq] at h1
          subst h1
          exact absurd (mem j (by simpa using h2)) (List.nodup_cons.1 (show (k :: issuedHandles l).Nodup from hn)).1
      | succ i =>
        cases j with
        | zero =>
          simp only [List.getElem?_cons_zero, Option.some.injEq] at h2
          subst h2
          exact absurd (mem i (by simpa using h1)) (List.nodup_cons.1 (show (k :: issuedHandles l).Nodup from hn)).1
        | succ j => rw [ih hn' i j (by simpa using h1) (by simpa using h2)]
  have un : ∀ n : Nat, (((Arena.withCapacity c : Arena α).run ops).2.map Outcome.ok)[n]? = some (.ok (.handle k)) →
      ((Arena.withCapacity c : Arena α).run ops).2[n]? = some (.handle k) := by
    intro n h
    rw [List.getElem?_map] at h
    cases hh : ((Arena.withCapacity c : Arena α).run ops).2[n]? with
    | none => rw [hh] at h; cases h
    | some x =>
      rw [hh] at h
      simp only [Option.map_some, Option.some.injEq, Outcome.ok.injEq] at h
      rw [h]
  exact key _ nd i j (un i hi) (un j hj)

example : removals demoOps < 2 ^ 64 ∧ (history 1 demoOps).generation = 1 := by decide

/-! ## The bound is sharp -/

/-- Remove the only object, insert another, `n` times, starting at generation `k`. -/
def churn (v : α) : Nat → Nat → List (ArenaOp α)
  | _, 0 => []
  | k, n + 1 => .remove ⟨0, k⟩ :: .insert v :: churn v (k + 1) n

/-- A one-slot arena whose object was inserted at generation `k`. -/
def oneSlot (k : Nat) (v : α) : Arena α := ⟨[.occ k v], k, none, 1⟩

theorem removals_churn (v : α) (n k : Nat) : removals (churn v k n) = n := by
  induction n generalizing k with
  | zero => rfl
  | succ n ih => simp only [churn, removals, ih]

theorem runW_churn (p : Profile) (v w : α) (n k : Nat) (h : k + n < 2 ^ 64) (hn : 0 < n) :
    ((oneSlot k w).runW p (churn v k n)).1 = oneSlot (k + n) v := by
  induction n generalizing k w with
  | zero => omega
  | succ n ih =>
    have hk : k + 1 < 2 ^ 64 := by omega
    have e : ((oneSlot k w).runW p (churn v k (n + 1))).1 = ((oneSlot (k + 1) v).runW p (churn v (k + 1) n)).1 := by
      simp only [churn, runW, stepW, removeW, oneSlot, List.getElem?_cons_zero, if_true, if_pos hk]
      rfl
    rw [e]
    cases n with
    | zero => rfl
    | succ n =>
      rw [ih v (k + 1) (by omega) (by omega)]
      congr 1
      omega

theorem runW_append (p : Profile) (l l' : List (ArenaOp α)) (a : Arena α) :
    (a.runW p (l ++ l')).1 = ((a.runW p l).1.runW p l').1 ∧ (a.runW p (l ++ l')).2 = (a.runW p l).2 ++ ((a.runW p l).1.runW p l').2 := by
  induction l generalizing a with
  | nil => exact ⟨rfl, rfl⟩
  | cons op l ih =>
    obtain ⟨h1, h2⟩ := ih (a.stepW p op).1
    simp only [List.cons_append, runW]
    exact ⟨h1, by rw [h2]⟩

theorem last_release (x : Nat) (v : α) (h : ¬ x + 1 < 2 ^ 64) :
    (oneSlot x v).removeW .release ⟨0, x⟩ = (⟨[.free none], 0, some 0, 0⟩, .ok (some v)) := by
  unfold removeW oneSlot
  simp only [List.getElem?_cons_zero, if_true]
  rw [if_neg h]
  rfl

theorem last_debug (x : Nat) (v : α) (h : ¬ x + 1 < 2 ^ 64) :
    (oneSlot x v).removeW .debug ⟨0, x⟩ = (⟨[.free none], x, none, 1⟩, .panic "attempt to add with overflow") := by
  unfold removeW oneSlot
  simp only [List.getElem?_cons_zero, if_true]
  rw [if_neg h]
  rfl

/-- `C94_bound_is_sharp` for a history `ops` whose last object has generation `x`. -/
def Wrapped (w v : α) (x : Nat) (ops : List (ArenaOp α)) : Prop :=
  removals ops = x ∧
  (∃ rest : List (ArenaOp α), ops = .insert w :: .remove ⟨0, 0⟩ :: rest) ∧
  (((Arena.withCapacity 1 : Arena α).runW .release ops).2[0]? = some (.ok (.handle ⟨0, 0⟩)) ∧
    ((Arena.withCapacity 1 : Arena α).runW .release (ops ++ [.remove ⟨0, x⟩, .insert v])).1.get ⟨0, 0⟩ = some v) ∧
  ((∃ m : String, .panic m ∈ ((Arena.withCapacity 1 : Arena α).runW .debug (ops ++ [.remove ⟨0, x⟩])).2) ∧
    ((Arena.withCapacity 1 : Arena α).runW .debug (ops ++ [.remove ⟨0, x⟩])).1.iter = [] ∧
    ((Arena.withCapacity 1 : Arena α).runW .debug (ops ++ [.remove ⟨0, x⟩])).1.len = 1)

theorem wrapped_churn (w v : α) (x : Nat) (hlt : x < 2 ^ 64) (hnlt : ¬ x + 1 < 2 ^ 64) : Wrapped w v x (.insert w :: churn v 0 x) := by
  have hpos : 0 < x := by
    rcases Nat.eq_zero_or_pos x with e | e
    · exact absurd (by rw [e]; exact Nat.one_lt_two_pow (by decide)) hnlt
    · exact e
  have hfirst : ∀ p : Profile, ((Arena.withCapacity 1 : Arena α).runW p [.insert w]).1 = oneSlot 0 w := fun _ => rfl
  have hrun : ∀ p : Profile, ((Arena.withCapacity 1 : Arena α).runW p (.insert w :: churn v 0 x)).1 = oneSlot x v := by
    intro p
    have := (runW_append p [.insert w] (churn v 0 x) (Arena.withCapacity 1)).1
    rw [List.singleton_append, hfirst] at this
    rw [this, runW_churn p v w x 0 (by rwa [Nat.zero_add]) hpos, Nat.zero_add]
  refine ⟨by simp only [removals, removals_churn], ⟨.insert v :: churn v 1 (x - 1), ?_⟩, ⟨?_, ?_⟩, ?_⟩
  · obtain ⟨y, rfl⟩ : ∃ y, x = y + 1 := ⟨x - 1, (Nat.succ_pred_eq_of_pos hpos).symm⟩
    rfl
  · simp only [runW]; rfl
  · rw [(runW_append .release _ _ _).1, hrun]
    simp only [runW, stepW, last_release x v hnlt]
    rfl
  · have h2 := runW_append .debug (.insert w :: churn v 0 x) [.remove ⟨0, x⟩] (Arena.withCapacity 1)
    have h3 : (oneSlot x v).runW .debug [.remove ⟨0, x⟩] = (⟨[.free none], x, none, 1⟩, [.panic "attempt to add with overflow"]) := by
      simp only [runW, stepW, last_debug x v hnlt]
      rfl
    rw [h2.1, h2.2, hrun, h3]
    exact ⟨⟨_, List.mem_append_right _ (List.mem_cons_self ..)⟩, rfl, rfl⟩

/-- **C94, the bound.** The history `ops` has 2^64 - 1 removals, and one more is too many, whatever the values.  In a release build the
counter wraps: the handle of the first object, removed long ago, is issued again and resolves to another value.  In a debug build the
removal panics; the object is gone, yet `len` still counts it. -/
theorem C94_bound_is_sharp (w v : α) : ∃ ops : List (ArenaOp α),
    removals ops = 2 ^ 64 - 1 ∧
    (∃ rest : List (ArenaOp α), ops = .insert w :: .remove ⟨0, 0⟩ :: rest) ∧
    (((Arena.withCapacity 1 : Arena α).runW .release ops).2[0]? = some (.ok (.handle ⟨0, 0⟩)) ∧
      ((Arena.withCapacity 1 : Arena α).runW .release (ops ++ [.remove ⟨0, 2 ^ 64 - 1⟩, .insert v])).1.get ⟨0, 0⟩ = some v) ∧
    ((∃ m : String, .panic m ∈ ((Arena.withCapacity 1 : Arena α).runW .debug (ops ++ [.remove ⟨0, 2 ^ 64 - 1⟩])).2) ∧
      ((Arena.withCapacity 1 : Arena α).runW .debug (ops ++ [.remove ⟨0, 2 ^ 64 - 1⟩])).1.iter = [] ∧
      ((Arena.withCapacity 1 : Arena α).runW .debug (ops ++ [.remove ⟨0, 2 ^ 64 - 1⟩])).1.len = 1) :=
  ⟨.insert w :: churn v 0 (2 ^ 64 - 1), wrapped_churn w v (2 ^ 64 - 1) (by decide) (by decide)⟩

end Verif.Props
