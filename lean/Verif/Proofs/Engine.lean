import Verif.Model.Engine
import Verif.Proofs.Types
import Verif.Proofs.BaselineApi
import Verif.Proofs.Time
/-! # Lemmas about realms and the engine -/
namespace Verif
open Arena

/-! ## Realm -/

theorem Baseline.step_kind (b : Baseline) (op : BOp) : (Baseline.step b op).1.kind = b.kind := by
  cases op with
  | register C =>
    rcases registerContract_cases b C with ⟨_, h⟩ | ⟨_, h⟩ <;> simp [Baseline.step, h]
  | unregister C h ord =>
    rcases unregister_cases b C h ord with ⟨h1, _, _⟩ | ⟨cd, cons, done, _, _, _, _, ⟨_, h1⟩ | ⟨h1, _⟩⟩ <;>
      simp [Baseline.step, h1]
  | create C h ss cs =>
    simp only [Baseline.step, Baseline.objectCreate]
    repeat' split
    all_goals rfl
  | remove C o => simp [Baseline.step, objectRemove_fst]
  | writeState t h v =>
    simp only [Baseline.step, Baseline.stateWrite]; split <;> rfl
  | writeChannel t h v =>
    simp only [Baseline.step, Baseline.channelWrite]; split <;> rfl
  | setWarp o w =>
    simp only [Baseline.step, Baseline.setWarp]; split <;> rfl

/-! ## Actions -/
namespace Engine

/-- The outcome of applying one action depends on the fork only. -/
def actionOut (b : Baseline) : Action → Outcome Unit
  | .state (.assert h d) =>
    match b.dynState h with
    | .err m => .err m
    | .panic m => .panic m
    | .ok v => if v.beq d then .ok () else .err "Assert failed!"
  | .state (.write h d) =>
    match b.dynState h with
    | .err m => .err m
    | .panic m => .panic m
    | .ok v =>
      if v.propType ≠ d.propType then .panic "assertion failed"
      else .panic "not yet implemented: Figure out how to swap"
  | .channel _ => .ok ()

theorem applyAction_eq (r : Realm) (a : Action) : applyAction r a = (r, a, actionOut r.fork a) := by
  rcases a with a | a
  · cases a with
    | assert h d =>
      simp only [applyAction, actionOut, DynProp.borrow_eq, Realm.baseline]
      cases r.fork.dynState h <;> simp only []
      split <;> simp_all
    | write h d =>
      simp only [applyAction, actionOut, Realm.baseline]
      cases r.fork.dynState h <;> simp only []
      split <;> simp_all
  · rfl

theorem dynState_ok {b : Baseline} {h : DynHandle} {d : DynProp} :
    b.dynState h = .ok d ↔ ∃ v, b.state h.ty h.idx = .ok v ∧ d = DynProp.ofTyped h.ty v := by
  unfold Baseline.dynState
  cases b.state h.ty h.idx with
  | ok v =>
    simp only [Outcome.map, Outcome.bind, Outcome.ok.injEq]
    exact ⟨fun e => ⟨v, rfl, e.symm⟩, fun ⟨_, e, e'⟩ => by rw [e', e]⟩
  | err m => simp [Outcome.map, Outcome.bind]
  | panic m => simp [Outcome.map, Outcome.bind]

theorem dynState_not_panic (b : Baseline) (h : DynHandle) (m : String) : b.dynState h ≠ .panic m := by
  unfold Baseline.dynState Baseline.state
  split <;> simp_all [Outcome.map, Outcome.bind]

theorem reverseAction_of_not_write (r : Realm) (a : Action) (h : a.kind ≠ .stateWrite) :
    reverseAction r a = (r, a, .ok ()) := by
  unfold reverseAction
  cases hk : a.kind <;> simp_all

theorem reverseActions_of_no_write (r : Realm) (as : List Action)
    (h : ∀ a ∈ as, a.kind ≠ .stateWrite) : reverseActions r as = (r, as, .ok ()) := by
  induction as with
  | nil => rfl
  | cons a as ih =>
    simp only [reverseActions, reverseAction_of_not_write r a (h a (by simp)),
      ih (fun a ha => h a (by simp [ha]))]

theorem actionOut_write_ne_ok (b : Baseline) (h : DynHandle) (d : DynProp) :
    actionOut b (.state (.write h d)) ≠ .ok () := by
  simp only [actionOut]
  cases b.dynState h with
  | err m => simp
  | panic m => simp
  | ok v => simp only []; split <;> simp

theorem kind_write {a : Action} (h : a.kind = .stateWrite) : ∃ hd d, a = .state (.write hd d) := by
  rcases a with a | a <;> cases a <;> simp [Action.kind] at h <;> exact ⟨_, _, rfl⟩

theorem reverseAction_write (r : Realm) (h : DynHandle) (d : DynProp) :
    ∃ m, reverseAction r (.state (.write h d)) = (r, .state (.write h d), .panic m) := by
  simp only [reverseAction, Action.kind, applyAction_eq]
  cases ho : actionOut r.fork (.state (.write h d)) with
  | ok u => exact absurd ho (actionOut_write_ne_ok _ _ _)
  | err m => exact ⟨_, rfl⟩
  | panic m => exact ⟨_, rfl⟩

/-- The complete behaviour of the collaction loop. -/
theorem applyLoop_spec (r : Realm) (done rest : List Action)
    (hd : ∀ a ∈ done, a.kind ≠ .stateWrite) :
    (∃ m, applyLoop r done rest = (r, .panicked m) ∧
      ∃ pre h d post, rest = pre ++ .state (.write h d) :: post ∧
        ∀ a ∈ pre, actionOut r.fork a = .ok ()) ∨
    (applyLoop r done rest = (r, .rejected (done.reverse ++ rest)) ∧
      ∃ pre a post, rest = pre ++ a :: post ∧ a.kind ≠ .stateWrite ∧
        (∀ x ∈ pre, actionOut r.fork x = .ok ()) ∧ (actionOut r.fork a).isErr = true) ∨
    (applyLoop r done rest = (r, .accepted (done.reverse ++ rest)) ∧
      ∀ a ∈ rest, actionOut r.fork a = .ok ()) := by
  induction rest generalizing done with
  | nil => exact .inr (.inr ⟨by simp [applyLoop], by simp⟩)
  | cons a rest ih =>
    simp only [applyLoop, applyAction_eq]
    by_cases hw : a.kind = .stateWrite
    · obtain ⟨hh, dd, rfl⟩ := kind_write hw
      left
      cases ho : actionOut r.fork (.state (.write hh dd)) with
      | ok u => exact absurd ho (actionOut_write_ne_ok _ _ _)
      | panic m => exact ⟨m, rfl, [], hh, dd, rest, rfl, by simp⟩
      | err m =>
        obtain ⟨m', hm⟩ := reverseAction_write r hh dd
        simp only [reverseActions, hm]
        exact ⟨m', rfl, [], hh, dd, rest, rfl, by simp⟩
    · cases ho : actionOut r.fork a with
      | panic m =>
        exfalso
        rcases a with a | a
        · cases a with
          | assert h d =>
            simp only [actionOut] at ho
            cases hv : r.fork.dynState h with
            | panic m => exact dynState_not_panic _ _ _ hv
            | err m => rw [hv] at ho; simp at ho
            | ok v => rw [hv] at ho; simp only at ho; split at ho <;> simp at ho
          | write h d => exact hw rfl
        · simp [actionOut] at ho
      | err m =>
        right; left
        have : ∀ x ∈ a :: done, x.kind ≠ .stateWrite := by
          intro x hx; rcases List.mem_cons.1 hx with rfl | hx
          · exact hw
          · exact hd x hx
        simp only [reverseActions_of_no_write r _ this]
        exact ⟨by simp, [], a, rest, rfl, hw, by simp, by rw [ho]; rfl⟩
      | ok u =>
        have : ∀ x ∈ a :: done, x.kind ≠ .stateWrite := by
          intro x hx; rcases List.mem_cons.1 hx with rfl | hx
          · exact hw
          · exact hd x hx
        rcases ih (a :: done) this with ⟨m, h1, pre, hh, dd, post, h2, h3⟩ | ⟨h1, pre, x, post, h2, h3, h4, h5⟩ | ⟨h1, h2⟩
        · refine .inl ⟨m, h1, a :: pre, hh, dd, post, by simp [h2], fun x hx => ?_⟩
          rcases List.mem_cons.1 hx with rfl | hx
          · exact ho
          · exact h3 x hx
        · refine .inr (.inl ⟨by simp [h1], a :: pre, x, post, by simp [h2], h3, fun y hy => ?_, h5⟩)
          rcases List.mem_cons.1 hy with rfl | hy
          · exact ho
          · exact h4 y hy
        · refine .inr (.inr ⟨by simp [h1], fun y hy => ?_⟩)
          rcases List.mem_cons.1 hy with rfl | hy
          · exact ho
          · exact h2 y hy

/-- Whatever happens, the realm is not changed by applying a collaction. -/
theorem applyCollaction_fst (r : Realm) (c : Collaction) : (applyCollaction r c).1 = r := by
  rcases applyLoop_spec r [] c (by simp) with ⟨m, h, _⟩ | ⟨h, _⟩ | ⟨h, _⟩ <;>
    simp [applyCollaction, h]

end Engine
end Verif
