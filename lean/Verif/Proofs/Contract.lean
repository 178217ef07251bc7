import Verif.Model.Contract
/-! # Lemmas about the field iterators -/
namespace Verif
namespace PropIter

theorem next_of_lt {it : PropIter} (h : it.pos < it.types.length) :
    it.next = (some (DynId.new it.contract it.pos it.types[it.pos]), { it with pos := it.pos + 1 }) := by
  simp [next, h]

theorem next_of_ge {it : PropIter} (h : it.types.length ≤ it.pos) : it.next = (none, it) := by
  simp [next, h]

theorem drainFuel_eq (fuel : Nat) (it : PropIter) (h : it.types.length - it.pos < fuel) :
    drainFuel fuel it = (it.types.drop it.pos).mapIdx (fun k t => DynId.new it.contract (it.pos + k) t) := by
  induction fuel generalizing it with
  | zero => omega
  | succ fuel ih =>
    by_cases hp : it.pos < it.types.length
    · simp only [drainFuel, next_of_lt hp]
      rw [ih _ (by simp; omega), List.drop_eq_getElem_cons hp, List.mapIdx_cons]
      simp only [Nat.add_zero, List.cons.injEq, true_and]
      congr 1; funext k t; congr 1; omega
    · simp only [drainFuel, next_of_ge (Nat.le_of_not_lt hp)]
      rw [List.drop_eq_nil_of_le (Nat.le_of_not_lt hp)]
      rfl

theorem drain_eq (it : PropIter) :
    it.drain = (it.types.drop it.pos).mapIdx (fun k t => DynId.new it.contract (it.pos + k) t) :=
  drainFuel_eq _ it (by omega)

theorem drain_new (types : List PropType) (h : Idx) :
    (new types h).drain = types.mapIdx (fun k t => DynId.new h k t) := by
  rw [drain_eq]; simp [new]

end PropIter

theorem ContractTy.stateIds_eq (C : ContractTy) (h : Idx) :
    C.stateIds h = C.stateTypes.mapIdx (fun k t => DynId.new h k t) := PropIter.drain_new _ _
theorem ContractTy.channelIds_eq (C : ContractTy) (h : Idx) :
    C.channelIds h = C.channelTypes.mapIdx (fun k t => DynId.new h k t) := PropIter.drain_new _ _

theorem ContractTy.stateIds_nil (C : ContractTy) (h : Idx) : C.stateIds h = [] ↔ C.states = [] := by
  rw [stateIds_eq]; simp [stateTypes, List.mapIdx_eq_nil_iff]
theorem ContractTy.channelIds_nil (C : ContractTy) (h : Idx) : C.channelIds h = [] ↔ C.channels = [] := by
  rw [channelIds_eq]; simp [channelTypes, List.mapIdx_eq_nil_iff]

end Verif
