import Verif.Proofs.Store
import Verif.Proofs.Contract
/-! # Effects of the baseline calls, and the invariant of reachable baselines -/
namespace Verif
open Arena Store Baseline

/-! ## Effects -/

/-- The handles of all entries. -/
theorem any_id_iff {b : Baseline} {cid : ContractId} :
    b.contracts.iter.any (fun e => e.2.id = cid) = true ↔
      ∃ h cd, b.contracts.get h = some cd ∧ cd.id = cid := by
  rw [List.any_eq_true]
  constructor
  · rintro ⟨⟨h, cd⟩, hm, he⟩
    exact ⟨h, cd, mem_iter.1 hm, by simpa using he⟩
  · rintro ⟨h, cd, hg, he⟩
    exact ⟨(h, cd), mem_iter.2 hg, by simpa using he⟩

/-- The contract declares no field. -/
def ContractTy.NoFields (C : ContractTy) : Prop := C.states = [] ∧ C.channels = []

instance (C : ContractTy) : Decidable C.NoFields := by unfold ContractTy.NoFields; infer_instance

theorem removeStates_dead {b : Baseline} {o : Idx} (hd : b.objects.get o = none) (ds : List DynId) :
    removeStates o ds b =
      (b, if ds = [] then .ok () else .err "the given ObjectHandle doesn't exist in the arena") := by
  cases ds with
  | nil => simp [removeStates]
  | cons d ds => simp [removeStates, bindState, hd]

theorem removeChannels_dead {b : Baseline} {o : Idx} (hd : b.objects.get o = none) (ds : List DynId) :
    removeChannels o ds b =
      (b, if ds = [] then .ok () else .err "the given ObjectHandle doesn't exist in the arena") := by
  cases ds with
  | nil => simp [removeChannels]
  | cons d ds => simp [removeChannels, bindChannel, hd]

theorem objectRemove_none {b : Baseline} {o : Idx} (h : b.objects.get o = none) (C : ContractTy) :
    b.objectRemove C o = (b, .err "object did not exist") := by
  simp [objectRemove, remove_of_none h]

theorem objectRemove_some {b : Baseline} {o : Idx} {ob : ObjectD} (h : b.objects.get o = some ob)
    (C : ContractTy) :
    b.objectRemove C o = ({ b with objects := (b.objects.remove o).1 },
      if C.NoFields then .ok () else .err "the given ObjectHandle doesn't exist in the arena") := by
  have h1 : b.objects.remove o = (b.objects.freed o, some ob) := remove_of_some h
  have hd : (b.objects.freed o).get o = none := by
    have := get_remove b.objects o o; rw [h1] at this; simpa using this
  have hd' : ({ b with objects := b.objects.freed o } : Baseline).objects.get o = none := hd
  simp only [objectRemove, h1, removeStates_dead hd']
  by_cases h2 : C.states = []
  · have h2' := (C.stateIds_nil ob.contract).2 h2
    simp only [h2', if_true, removeChannels_dead hd']
    by_cases h3 : C.channels = []
    · have h3' := (C.channelIds_nil ob.contract).2 h3
      simp [h3', ContractTy.NoFields, h2, h3]
    · have h3' : C.channelIds ob.contract ≠ [] := fun e => h3 ((C.channelIds_nil _).1 e)
      simp [h3', ContractTy.NoFields, h3]
  · have h2' : C.stateIds ob.contract ≠ [] := fun e => h2 ((C.stateIds_nil _).1 e)
    simp [h2', ContractTy.NoFields, h2]

/-- Removing several handles from an arena. -/
def removeList {α : Type} (a : Arena α) (os : List Idx) : Arena α := os.foldl (fun a o => (a.remove o).1) a

theorem removeList_inv {α : Type} {a : Arena α} (h : Arena.Inv a) (os : List Idx) :
    Arena.Inv (removeList a os) := by
  induction os generalizing a with
  | nil => exact h
  | cons o os ih => exact ih (remove_inv h o)

theorem get_removeList {α : Type} (a : Arena α) (os : List Idx) (j : Idx) :
    (removeList a os).get j = if j ∈ os then none else a.get j := by
  induction os generalizing a with
  | nil => simp [removeList]
  | cons o os ih =>
    have := ih (a.remove o).1
    simp only [removeList, List.foldl_cons] at this ⊢
    rw [this, get_remove]
    by_cases h1 : j ∈ os <;> by_cases h2 : j = o <;> simp [h1, h2]

theorem removeList_dead {α : Type} {a : Arena α} {i : Idx} (hd : Dead a i) (os : List Idx) :
    Dead (removeList a os) i := by
  induction os generalizing a with
  | nil => exact hd
  | cons o os ih => exact ih (remove_dead_of_dead hd o)

theorem removeList_dead_of_live {α : Type} {a : Arena α} (h : Arena.Inv a) {i : Idx} {v : α}
    (hg : a.get i = some v) {os : List Idx} (hi : i ∈ os) : Dead (removeList a os) i := by
  induction os generalizing a with
  | nil => cases hi
  | cons o os ih =>
    by_cases e : i = o
    · subst e; exact removeList_dead (remove_dead h hg) os
    · refine ih (remove_inv h o) (by rw [get_remove, if_neg e, hg]) ?_
      rcases List.mem_cons.1 hi with h' | h'
      · exact absurd h' e
      · exact h'

/-- The loop of `unregister_contract` only removes objects; it succeeds iff there is nothing to remove
or the contract has no fields and every handle is live when its turn comes. -/
theorem removeObjects_spec (C : ContractTy) (os : List Idx) (b : Baseline) :
    ∃ done, done <+: os ∧ (removeObjects C os b).1 = { b with objects := removeList b.objects done } ∧
      (((removeObjects C os b).2 = .ok () ∧ done = os) ∨ (removeObjects C os b).2.isPanic = true) := by
  induction os generalizing b with
  | nil => exact ⟨[], List.nil_prefix, rfl, .inl ⟨rfl, rfl⟩⟩
  | cons o os ih =>
    cases hg : b.objects.get o with
    | none =>
      exact ⟨[], List.nil_prefix, by simp [removeObjects, objectRemove_none hg, removeList],
        .inr (by simp [removeObjects, objectRemove_none hg, Outcome.isPanic])⟩
    | some ob =>
      by_cases hn : C.NoFields
      · obtain ⟨done, h1, h2, h3⟩ := ih { b with objects := (b.objects.remove o).1 }
        refine ⟨o :: done, by simpa using h1, ?_, ?_⟩
        · simp only [removeObjects, objectRemove_some hg, hn, if_true]
          rw [h2]; rfl
        · simp only [removeObjects, objectRemove_some hg, hn, if_true]
          rcases h3 with ⟨h3, h4⟩ | h3
          · exact .inl ⟨h3, by rw [h4]⟩
          · exact .inr h3
      · exact ⟨[o], by simp, by simp [removeObjects, objectRemove_some hg, hn, removeList],
          .inr (by simp [removeObjects, objectRemove_some hg, hn, Outcome.isPanic])⟩

theorem removeObjects_ok_iff (C : ContractTy) (os : List Idx) (b : Baseline) (hnd : os.Nodup) :
    (removeObjects C os b).2 = .ok () ↔
      os = [] ∨ (C.NoFields ∧ ∀ o ∈ os, ∃ ob, b.objects.get o = some ob) := by
  induction os generalizing b with
  | nil => simp [removeObjects]
  | cons o os ih =>
    obtain ⟨hno, hnd⟩ := List.nodup_cons.1 hnd
    cases hg : b.objects.get o with
    | none =>
      simp [removeObjects, objectRemove_none hg, hg]
    | some ob =>
      by_cases hn : C.NoFields
      · simp only [removeObjects, objectRemove_some hg, hn, if_true]
        rw [ih _ hnd]
        have hx : ∀ o' ∈ os, ({ b with objects := (b.objects.remove o).1 } : Baseline).objects.get o' =
            b.objects.get o' := by
          intro o' ho'
          show (b.objects.remove o).1.get o' = _
          rw [get_remove, if_neg]
          intro e; subst e; exact hno ho'
        constructor
        · rintro (rfl | ⟨_, h⟩)
          · exact .inr ⟨trivial, by simp [hg]⟩
          · refine .inr ⟨trivial, fun o' ho' => ?_⟩
            rcases List.mem_cons.1 ho' with rfl | ho'
            · exact ⟨ob, hg⟩
            · rw [← hx o' ho']; exact h o' ho'
        · rintro (h | ⟨_, h⟩)
          · cases h
          · exact .inr ⟨hn, fun o' ho' => by rw [hx o' ho']; exact h o' (by simp [ho'])⟩
      · simp [removeObjects, objectRemove_some hg, hn]

/-- The contracts arena with one object set emptied. -/
theorem modify_isSome {α : Type} {a : Arena α} {h : Idx} {v : α} (hg : a.get h = some v) (f : α → α) :
    ∃ a', a.modify h f = some a' := by
  cases hm : a.modify h f with
  | some a' => exact ⟨a', rfl⟩
  | none => rw [modify_eq_none.1 hm] at hg; cases hg

theorem checkTypes_ok_iff {α : Type} (ty : α → PropType) (ps : List α) (ts : List PropType) :
    (∃ r, checkTypes ty ps ts = .ok r) ↔ ps.map ty = ts := by
  induction ps generalizing ts with
  | nil => cases ts <;> simp [checkTypes]
  | cons p ps ih =>
    cases ts with
    | nil => simp [checkTypes]
    | cons t ts =>
      simp only [checkTypes, List.map_cons, List.cons.injEq]
      by_cases e : ty p = t
      · simp only [e, ne_eq, not_true, if_false, true_and]
        rw [← ih ts]
        cases checkTypes ty ps ts <;> simp [Outcome.map, Outcome.bind]
      · simp [e]

theorem checkTypes_val {α : Type} (ty : α → PropType) {ps r : List α} {ts : List PropType}
    (h : checkTypes ty ps ts = .ok r) : r = ps := by
  induction ps generalizing ts r with
  | nil => cases ts <;> simp [checkTypes] at h; exact h
  | cons p ps ih =>
    cases ts with
    | nil => simp [checkTypes] at h
    | cons t ts =>
      simp only [checkTypes] at h
      split at h
      · cases h
      · cases hc : checkTypes ty ps ts with
        | ok r' =>
          simp [hc, Outcome.map, Outcome.bind] at h
          rw [← h, ih hc]
        | err m => simp [hc, Outcome.map, Outcome.bind] at h
        | panic m => simp [hc, Outcome.map, Outcome.bind] at h

theorem checkTypes_no_panic {α : Type} (ty : α → PropType) (ps : List α) (ts : List PropType) (m : String) :
    checkTypes ty ps ts ≠ .panic m := by
  induction ps generalizing ts with
  | nil => cases ts <;> simp [checkTypes]
  | cons p ps ih =>
    cases ts with
    | nil => simp [checkTypes]
    | cons t ts =>
      simp only [checkTypes]
      split
      · simp
      · have := ih ts
        cases hc : checkTypes ty ps ts <;> simp_all [Outcome.map, Outcome.bind]

theorem checkTypes_eq_ok {α : Type} (ty : α → PropType) {ps : List α} {ts : List PropType}
    (h : ps.map ty = ts) : checkTypes ty ps ts = .ok ps := by
  obtain ⟨r, hr⟩ := (checkTypes_ok_iff ty ps ts).2 h
  rw [hr, checkTypes_val ty hr]

/-- `object_create` is rejected without effect, or its arguments are well typed. -/
theorem objectCreate_cases (b : Baseline) (C : ContractTy) (h : Idx) (ss : List DynProp)
    (cs : List DynChannel) :
    (((∃ cd, b.contracts.get h = some cd) ∧ ss.map DynProp.propType = C.stateTypes ∧
      cs.map Sigma.fst = C.channelTypes)) ∨
    ((b.objectCreate C h ss cs).1 = b ∧ (b.objectCreate C h ss cs).2.isErr = true ∧
      ¬((∃ cd, b.contracts.get h = some cd) ∧ ss.map DynProp.propType = C.stateTypes ∧
      cs.map Sigma.fst = C.channelTypes)) := by
  by_cases h1 : ∃ cd, b.contracts.get h = some cd
  · have h1' : b.contracts.contains h = true := contains_iff.2 h1
    by_cases h2 : ss.map DynProp.propType = C.stateTypes
    · by_cases h3 : cs.map Sigma.fst = C.channelTypes
      · exact .inl ⟨h1, h2, h3⟩
      · right
        refine ⟨?_, ?_, fun h => h3 h.2.2⟩ <;>
        · simp only [objectCreate, h1', checkTypes_eq_ok _ h2]
          cases hc : checkTypes Sigma.fst cs C.channelTypes with
          | ok r => exact absurd ((checkTypes_ok_iff _ _ _).1 ⟨r, hc⟩) h3
          | err m => rfl
          | panic m => exact absurd hc (checkTypes_no_panic _ _ _ _)
    · right
      refine ⟨?_, ?_, fun h => h2 h.2.1⟩ <;>
      · simp only [objectCreate, h1']
        cases hc : checkTypes DynProp.propType ss C.stateTypes with
        | ok r => exact absurd ((checkTypes_ok_iff _ _ _).1 ⟨r, hc⟩) h2
        | err m => rfl
        | panic m => exact absurd hc (checkTypes_no_panic _ _ _ _)
  · right
    have h1' : b.contracts.contains h = false := by
      cases hc : b.contracts.contains h with
      | false => rfl
      | true => exact absurd (contains_iff.1 hc) h1
    refine ⟨?_, ?_, fun h => h1 h.1⟩ <;> simp [objectCreate, h1', Outcome.isErr]

/-- The object stored by a well-typed `object_create`. -/
def createdObj (b : Baseline) (h : Idx) (ss : List DynProp) (cs : List DynChannel) : ObjectD :=
  ⟨(createAll b.states (ss.map DynProp.typed)).2, (createAll b.channels cs).2, h, TimeWarp.default⟩

/-- Record an object in the contract's set. -/
def addObj (o : Idx) (cd : ContractData) : ContractData := { cd with objects := cd.objects.insert o }

/-- The effect of a well-typed `object_create`. -/
theorem objectCreate_ok {b : Baseline} {C : ContractTy} {h : Idx} {ss : List DynProp}
    {cs : List DynChannel} {cd : ContractData} (hc : b.contracts.get h = some cd)
    (hs : ss.map DynProp.propType = C.stateTypes) (hcs : cs.map Sigma.fst = C.channelTypes) :
    ∃ contracts,
      b.contracts.modify h (addObj (b.objects.insert (createdObj b h ss cs)).2) = some contracts ∧
      b.objectCreate C h ss cs =
        (⟨b.kind, (b.objects.insert (createdObj b h ss cs)).1, contracts,
            (createAll b.states (ss.map DynProp.typed)).1, (createAll b.channels cs).1⟩,
          .ok (b.objects.insert (createdObj b h ss cs)).2) := by
  obtain ⟨contracts, hm⟩ := modify_isSome hc (addObj (b.objects.insert (createdObj b h ss cs)).2)
  refine ⟨contracts, hm, ?_⟩
  have h1' : b.contracts.contains h = true := contains_iff.2 ⟨cd, hc⟩
  unfold createdObj addObj at hm
  simp [objectCreate, h1', checkTypes_eq_ok _ hs, checkTypes_eq_ok _ hcs, hm, createdObj]

theorem DynProp.typed_fst (d : DynProp) : d.typed.1 = d.propType := by
  rcases d with p | v
  · cases p <;> rfl
  · cases v <;> rfl

end Verif
