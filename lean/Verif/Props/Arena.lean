import Verif.Proofs.Arena
/-!
# C01-C05: the generational arena

`History c ops` is the arena after the calls `ops` on an arena created with capacity `c`
(`Arena::new` is capacity 4, `from_iter` is a capacity and a sequence of inserts).
-/
namespace Verif.Props
open Verif Verif.Arena

variable {α : Type}

/-- The arena after a sequence of calls on a fresh one. -/
def history (c : Nat) (ops : List (ArenaOp α)) : Arena α := ((Arena.withCapacity c).run ops).1

theorem history_inv (c : Nat) (ops : List (ArenaOp α)) : Inv (history c ops) :=
  run_inv (withCapacity_inv c) ops

/-- A history used by the examples: three inserts, one removal, one reuse of the freed slot. -/
def demoOps : List (ArenaOp Nat) :=
  [.insert 10, .insert 11, .insert 12, .remove ⟨1, 0⟩, .insert 13, .overwrite ⟨0, 0⟩ 20, .reserve 2]

/-- **C01.** After any history, `insert v` does not panic, the returned handle reads back `v`, and
every other handle resolves exactly as before. -/
theorem C01_insert_get_frame (c : Nat) (ops : List (ArenaOp α)) (v : α) :
    ∃ a' i, (history c ops).insert? v = some (a', i) ∧ a'.get i = some v ∧
      (history c ops).get i = none ∧ ∀ j, j ≠ i → a'.get j = (history c ops).get j := by
  have h := history_inv c ops
  refine ⟨_, _, insert?_eq h v, get_insert_self h v, insert_fresh h v, fun j hj => get_insert_ne h v hj⟩

-- a removed slot is reused with a new generation, and the old handle stays dead
example : (history 1 demoOps).get ⟨1, 1⟩ = some 13 ∧ (history 1 demoOps).get ⟨1, 0⟩ = none ∧
    (history 1 demoOps).get ⟨0, 0⟩ = some 20 := by decide

/-- **C02.** Once a handle has been removed, no continuation of the history makes it resolve again,
be contained, or be removable a second time. -/
theorem C02_removed_handle_stays_dead (c : Nat) (before after : List (ArenaOp α)) (h : Idx) (v : α)
    (hrem : ((history c before).remove h).2 = some v) :
    let a := (((history c before).remove h).1.run after).1
    a.get h = none ∧ a.contains h = false ∧ (a.remove h).2 = none := by
  have hi := history_inv c before
  rw [remove_snd] at hrem
  have hd := run_dead (remove_inv hi h) (remove_dead hi hrem) after
  exact ⟨hd.1, by simp [contains, hd.1], by rw [remove_snd]; exact hd.1⟩

example : ((history 1 (demoOps.take 3)).remove ⟨1, 0⟩).2 = some 11 := by decide

/-- The handles answered by a sequence of calls. -/
def issuedHandles (outs : List (ArenaOut α)) : List Idx :=
  outs.filterMap fun o => match o with | .handle i => some i | _ => none

theorem steps_issued {m m' : Spec.HMap α} {ops outs} (h : Spec.Steps m ops outs m') :
    m'.issued = (issuedHandles outs).reverse ++ m.issued ∧ (m.issued.Nodup → m'.issued.Nodup) := by
  induction h with
  | nil m => simp [issuedHandles]
  | cons hs _ ih =>
    cases hs with
    | insert v i fresh =>
      simp only [issuedHandles, List.filterMap_cons, List.reverse_cons, List.append_assoc] at ih ⊢
      refine ⟨by simpa using ih.1, fun hn => ih.2 (List.nodup_cons.2 ⟨fresh, hn⟩)⟩
    | remove i => simpa [issuedHandles] using ih
    | overwrite i v old h => simpa [issuedHandles] using ih
    | overwriteDead i v h => simpa [issuedHandles] using ih
    | reserve n => simpa [issuedHandles] using ih

theorem run_refines_fresh (c : Nat) (ops : List (ArenaOp α)) :
    ∃ m, Spec.Steps .empty ops ((Arena.withCapacity c : Arena α).run ops).2 m ∧
      (∀ i, (history c ops).get i = m.find i) := by
  obtain ⟨m, h1, h2, _⟩ := run_refines (a := (Arena.withCapacity c : Arena α)) (m := .empty)
    (withCapacity_inv c) (fun i => get_withCapacity c i) (by intro i hi; cases hi) ops
  exact ⟨m, h1, h2⟩

/-- **C03.** The handles answered by the inserts of any history are pairwise different. -/
theorem C03_handles_never_reissued (c : Nat) (ops : List (ArenaOp α)) :
    (issuedHandles ((Arena.withCapacity c : Arena α).run ops).2).Nodup := by
  obtain ⟨m, h1, _⟩ := run_refines_fresh (α := α) c ops
  obtain ⟨h2, h3⟩ := steps_issued h1
  have := h3 List.nodup_nil
  rw [h2] at this
  simpa [Spec.HMap.empty, List.nodup_iff_pairwise_ne, List.pairwise_reverse, eq_comm] using this

example : issuedHandles ((Arena.withCapacity 1).run demoOps).2 = [⟨0, 0⟩, ⟨1, 0⟩, ⟨2, 0⟩, ⟨1, 1⟩] := by
  decide

/-- **C04.** Every history of calls is a history of the abstract map with fresh keys
(`Spec.Step`), lookups agree with it, and `iter`, `len`, `is_empty`, `contains` all describe that
same map. -/
theorem C04_refines_finite_map (c : Nat) (ops : List (ArenaOp α)) :
    ∃ m : Spec.HMap α, Spec.Steps .empty ops ((Arena.withCapacity c).run ops).2 m ∧
      let a := history c ops
      (∀ i, a.get i = m.find i) ∧
      (∀ i v, (i, v) ∈ a.iter ↔ m.find i = some v) ∧ (a.iter.map Prod.fst).Nodup ∧
      a.len = a.iter.length ∧ (a.isEmpty = true ↔ ∀ i, m.find i = none) ∧
      (∀ i, a.contains i = true ↔ m.find i ≠ none) ∧
      (∀ i, a.index? i = m.find i) := by
  obtain ⟨m, h1, h2⟩ := run_refines_fresh (α := α) c ops
  refine ⟨m, h1, h2, fun i v => by rw [mem_iter, h2], iter_nodup _,
    (iter_length (history_inv c ops)).symm, ?_, fun i => ?_, fun i => h2 i⟩
  · have hl := iter_length (history_inv c ops)
    simp only [isEmpty, beq_iff_eq]
    show (history c ops).len = 0 ↔ _
    rw [← hl, List.length_eq_zero_iff]
    constructor
    · intro he i
      cases hm : m.find i with
      | none => rfl
      | some v =>
        rw [← h2, ← mem_iter, he] at hm; cases hm
    · intro he
      rw [List.eq_nil_iff_forall_not_mem]
      rintro ⟨i, v⟩ hmem
      rw [mem_iter, h2, he] at hmem; cases hmem
  · rw [contains, h2]; cases m.find i <;> simp

example : (history 1 demoOps).iter = [(⟨0, 0⟩, 20), (⟨1, 1⟩, 13), (⟨2, 0⟩, 12)] ∧
    (history 1 demoOps).len = 3 := by decide

/-- **C04 (construction).** Building an arena from a sequence and consuming it gives the sequence
back, in order. -/
theorem C04_from_iter_into_iter (l : List α) : (Arena.fromIter l).intoIter = l :=
  intoIter_fromIter l

example : (Arena.fromIter [5, 6, 7]).capacity = 3 ∧ (Arena.fromIter [5, 6, 7]).get ⟨2, 0⟩ = some 7 := by
  decide

/-- **C05.** At every point of every history the capacity covers the contents; reserving changes no
lookup, length or iteration; after reserving room for `n` more, any `n` inserts leave the capacity
alone; and an insert into a full arena doubles it. -/
theorem C05_capacity (c : Nat) (ops : List (ArenaOp α)) :
    let a := history c ops
    a.len ≤ a.capacity ∧ 0 < a.capacity ∧
    (∀ n i, (a.reserve n).get i = a.get i) ∧ (∀ n, (a.reserve n).len = a.len) ∧
    (∀ n, (a.reserve n).capacity = a.capacity + n) ∧
    (∀ n (vs : List α), 0 < n → vs.length ≤ n →
      (vs.foldl (fun b v => (b.insert v).1) (a.reserve n)).capacity = (a.reserve n).capacity) ∧
    (∀ v, (a.insert v).1.capacity = if a.len < a.capacity then a.capacity else 2 * a.capacity) := by
  have h := history_inv c ops
  refine ⟨count_le h, h.nonempty, fun n i => reserve_get _ n i, fun _ => rfl,
    fun n => reserve_length _ n, ?_, fun v => insert_capacity h v⟩
  intro n vs hn hle
  apply insertMany_capacity (reserve_inv h hn)
  have h1 : ((history c ops).reserve n).len = (history c ops).len := rfl
  have h2 : ((history c ops).reserve n).capacity = (history c ops).capacity + n := reserve_length _ n
  have h3 : (history c ops).len ≤ (history c ops).capacity := count_le h
  omega

example : (history 1 demoOps).capacity = 7 ∧ (history 1 (demoOps.take 3)).capacity = 4 := by decide

/-- **C05, refuted for zero.** `reserve(0)` changes no lookup, but leaves the free list pointing past the end of the slots: the next insert
panics, after any history. -/
theorem C05_reserve_zero_negation (c : Nat) (ops : List (ArenaOp α)) (v : α) :
    ((history c ops).reserve 0).insert? v = none ∧ ∀ i, ((history c ops).reserve 0).get i = (history c ops).get i := by
  refine ⟨?_, fun i => reserve_get _ 0 i⟩
  simp [insert?, tryInsert, reserve]

end Verif.Props
