import Verif.Proofs.Contract
/-! # C40–C42: iterating and indexing the fields of a contract

The specification: the id of field number `k` of a field list `tys` on contract handle `h` is
`fieldId tys h k`; the iterator is observed only through `next`, `size_hint` and `nth`. -/
namespace Verif.Props
open Verif

/-- Specification: the id of declared field number `k`. -/
def fieldId (tys : List PropType) (h : Idx) (k : Nat) : Option DynId :=
  (tys[k]?).map fun t => ⟨t, ⟨k, h⟩⟩

/-- The iterator after `k` calls of `next`. -/
def afterNexts : Nat → PropIter → PropIter
  | 0, it => it
  | k + 1, it => afterNexts k it.next.2

theorem afterNexts_new (tys : List PropType) (h : Idx) (k j : Nat) (hj : j ≤ tys.length) :
    afterNexts k ⟨tys, h, j⟩ = ⟨tys, h, min (j + k) tys.length⟩ := by
  induction k generalizing j with
  | zero => simp [afterNexts, Nat.min_eq_left hj]
  | succ k ih =>
    by_cases hp : j < tys.length
    · have := PropIter.next_of_lt (it := ⟨tys, h, j⟩) hp
      simp only [afterNexts, this]
      rw [ih (j + 1) (by omega)]
      congr 2; omega
    · have hje : tys.length ≤ j := Nat.le_of_not_lt hp
      have := PropIter.next_of_ge (it := ⟨tys, h, j⟩) hje
      simp only [afterNexts, this]
      rw [ih j hj]
      have : j = tys.length := by omega
      subst this
      congr 1; omega

/-- C40: the `(k+1)`-th call of `next` yields the `k`-th declared field's id (`None` from the end on,
however often it is called). -/
theorem C40_kth_next_is_kth_field (tys : List PropType) (h : Idx) (k : Nat) :
    (afterNexts k (PropIter.new tys h)).next.1 = fieldId tys h k := by
  rw [PropIter.new, afterNexts_new tys h k 0 (Nat.zero_le _), Nat.zero_add]
  unfold fieldId PropIter.next
  by_cases hk : k < tys.length
  · simp [Nat.min_eq_left (Nat.le_of_lt hk), hk, DynId.new]
  · simp [Nat.min_eq_right (Nat.le_of_not_lt hk), Nat.le_of_not_lt hk]

/-- C40: at every point `size_hint` does not panic and both bounds equal the number of ids still to
come. -/
theorem C40_size_hint_exact (tys : List PropType) (h : Idx) (k : Nat) :
    (afterNexts k (PropIter.new tys h)).sizeHint =
      some ((afterNexts k (PropIter.new tys h)).drain.length,
            some (afterNexts k (PropIter.new tys h)).drain.length) ∧
    (afterNexts k (PropIter.new tys h)).drain.length = tys.length - k := by
  rw [PropIter.new, afterNexts_new tys h k 0 (Nat.zero_le _), Nat.zero_add]
  simp only [PropIter.drain_eq, PropIter.sizeHint, List.length_mapIdx, List.length_drop]
  rw [if_pos (Nat.min_le_right _ _)]
  refine ⟨rfl, ?_⟩
  simp only [Nat.min_def]; split <;> omega

/-- C40: a `for` loop over the iterator visits every field id exactly once, in declaration order, with
the declared type and the contract's handle. -/
theorem C40_collected (tys : List PropType) (h : Idx) :
    (PropIter.new tys h).drain.length = tys.length ∧
    (∀ k : Nat, (PropIter.new tys h).drain[k]? = fieldId tys h k) ∧
    (PropIter.new tys h).drain.Nodup := by
  rw [PropIter.drain_new]
  refine ⟨by simp, fun k => by simp [fieldId, DynId.new], ?_⟩
  rw [List.nodup_iff_pairwise_ne, List.pairwise_iff_getElem]
  intro i j hi hj hij hEq
  simp only [List.getElem_mapIdx, DynId.new, DynId.mk.injEq, PropId.mk.injEq] at hEq
  omega

example : (PropIter.new [.prim .bool, .vec .f32, .prim .bool] ⟨4, 2⟩).drain =
    [⟨.prim .bool, ⟨0, ⟨4, 2⟩⟩⟩, ⟨.vec .f32, ⟨1, ⟨4, 2⟩⟩⟩, ⟨.prim .bool, ⟨2, ⟨4, 2⟩⟩⟩] := by decide +kernel

/-- C40: `Contract::state_iter` goes over the declared *states* and `Contract::chan_iter` over the declared
*channels*: position `k` of what a `for` loop collects is the id of the `k`-th declared field of that kind. -/
theorem C40_contract_iterators (C : ContractTy) (h : Idx) :
    ((C.stateIds h).length = C.states.length ∧
      ∀ k : Nat, (C.stateIds h)[k]? = (C.states[k]?).map fun f => ⟨f.ty, ⟨k, h⟩⟩) ∧
    ((C.channelIds h).length = C.channels.length ∧
      ∀ k : Nat, (C.channelIds h)[k]? = (C.channels[k]?).map fun f => ⟨f.ty, ⟨k, h⟩⟩) := by
  unfold ContractTy.stateIds ContractTy.channelIds
  refine ⟨⟨?_, fun k => ?_⟩, ⟨?_, fun k => ?_⟩⟩
  · rw [(C40_collected _ h).1, ContractTy.stateTypes, List.length_map]
  · rw [(C40_collected _ h).2.1 k]
    simp [fieldId, ContractTy.stateTypes, Function.comp_def]
  · rw [(C40_collected _ h).1, ContractTy.channelTypes, List.length_map]
  · rw [(C40_collected _ h).2.1 k]
    simp [fieldId, ContractTy.channelTypes, Function.comp_def]

/-- C41, what the property asks: `nth(n)` yields what the `(n+1)`-th `next` yields and leaves the
iterator where `n+1` calls of `next` leave it. -/
def NthAgrees (it : PropIter) (n : Nat) : Prop :=
  it.nth n = (.val (afterNexts n it).next.1, afterNexts (n + 1) it)

/-- C41 (false of the code): at *every* position of *every* field list, whenever a field `n` ahead
exists, `nth(n)` disagrees with repeated `next`: the index in the id it yields or the position it leaves the
iterator at is wrong. -/
theorem C41_negation_every_hit_is_wrong (tys : List PropType) (h : Idx) (j n : Nat)
    (hlt : j + n < tys.length) : ¬ NthAgrees ⟨tys, h, j⟩ n := by
  intro hA
  have hj : j < tys.length := by omega
  unfold NthAgrees at hA
  rw [afterNexts_new tys h n j (by omega), afterNexts_new tys h (n + 1) j (by omega),
    Nat.min_eq_left (by omega), Nat.min_eq_left (by omega)] at hA
  rw [PropIter.next_of_lt (by simpa using hlt)] at hA
  simp only [PropIter.nth, ge_iff_le] at hA
  rw [if_neg (by omega)] at hA
  simp only [hj, List.getElem?_eq_getElem, DynId.new, Prod.mk.injEq, PropIter.NthOut.val.injEq,
    Option.some.injEq, DynId.mk.injEq, PropId.mk.injEq, PropIter.mk.injEq, true_and, and_true] at hA
  omega

/-- C41, partial: `nth(n)` never panics, and agrees with repeated `next` exactly when no field is left
at that distance — it answers `None` and the iterator is exhausted.  Missing (and false): agreement
when a field is there. -/
theorem C41_nth_agrees_iff_exhausted_partial (tys : List PropType) (h : Idx) (j n : Nat)
    (hj : j ≤ tys.length) :
    (NthAgrees ⟨tys, h, j⟩ n ↔ tys.length ≤ j + n) ∧
    (∃ r it', PropIter.nth ⟨tys, h, j⟩ n = (.val r, it') ∧ (r = none ↔ tys.length ≤ j + n)) := by
  by_cases hlt : j + n < tys.length
  · refine ⟨⟨fun hA => absurd hA (C41_negation_every_hit_is_wrong tys h j n hlt), fun hge => by omega⟩, ?_⟩
    have hj' : j < tys.length := by omega
    simp only [PropIter.nth, ge_iff_le]
    rw [if_neg (by omega)]
    simp only [hj', List.getElem?_eq_getElem]
    refine ⟨_, _, rfl, ?_⟩
    simp; omega
  · have hge : tys.length ≤ j + n := Nat.le_of_not_lt hlt
    refine ⟨⟨fun _ => hge, fun _ => ?_⟩, ?_⟩
    · unfold NthAgrees
      rw [afterNexts_new tys h n j hj, afterNexts_new tys h (n + 1) j hj,
        Nat.min_eq_right hge, Nat.min_eq_right (by omega),
        PropIter.next_of_ge (by simp)]
      simp only [PropIter.nth, ge_iff_le]
      rw [if_pos hge]
    · simp only [PropIter.nth, ge_iff_le]
      rw [if_pos hge]
      exact ⟨_, _, rfl, by simp [hge]⟩

example : (PropIter.new [.prim .bool, .vec .f32] ⟨4, 2⟩).nth 1 =
    (.val (some ⟨.prim .bool, ⟨1, ⟨4, 2⟩⟩⟩), ⟨[.prim .bool, .vec .f32], ⟨4, 2⟩, 1⟩) := by decide +kernel

/-- C42: `state_id(i)` is `Some` exactly below the number of declared states, and is then the `i`-th
id of the iteration: index `i`, the declared type, the contract's handle. -/
theorem C42_state_id (C : ContractTy) (h : Idx) (i : Nat) :
    ((C.stateId h i).isSome = true ↔ i < C.states.length) ∧
    C.stateId h i = (C.stateIds h)[i]? ∧
    (∀ f : Field, C.states[i]? = some f → C.stateId h i = some ⟨f.ty, ⟨i, h⟩⟩) := by
  refine ⟨by simp [ContractTy.stateId, ContractTy.stateTypes], ?_, ?_⟩
  · simp [ContractTy.stateIds_eq, ContractTy.stateId, ContractTy.stateTypes]
  · intro f hf; simp [ContractTy.stateId, ContractTy.stateTypes, hf, DynId.new]

/-- C42: the same for `chan_id`. -/
theorem C42_chan_id (C : ContractTy) (h : Idx) (i : Nat) :
    ((C.chanId h i).isSome = true ↔ i < C.channels.length) ∧
    C.chanId h i = (C.channelIds h)[i]? ∧
    (∀ f : Field, C.channels[i]? = some f → C.chanId h i = some ⟨f.ty, ⟨i, h⟩⟩) := by
  refine ⟨by simp [ContractTy.chanId, ContractTy.channelTypes], ?_, ?_⟩
  · simp [ContractTy.channelIds_eq, ContractTy.chanId, ContractTy.channelTypes]
  · intro f hf; simp [ContractTy.chanId, ContractTy.channelTypes, hf, DynId.new]

example : (ContractTy.stateId ⟨⟨"c", 0, 1, 0⟩, [⟨"a", .prim .u8⟩, ⟨"b", .vec .string⟩], []⟩ ⟨0, 1⟩ 1) =
    some ⟨.vec .string, ⟨1, ⟨0, 1⟩⟩⟩ := by decide +kernel

end Verif.Props
