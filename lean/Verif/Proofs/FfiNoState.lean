import Verif.Proofs.FfiRun
import Verif.Proofs.Builder
/-!
# Baselines owned by a C# program never hold objects
-/
namespace Verif.Ffi

/-- There are no objects in it. -/
def objectless (b : Baseline) : Prop := ∀ o, b.objects.get o = none

theorem objectless_new (k : Kind) : objectless (Baseline.new k) := fun o => Arena.get_new o

theorem objectless_register {b : Baseline} (h : objectless b) (C : ContractTy) : objectless (b.registerContract C).1 := by
  unfold Baseline.registerContract
  split
  · exact h
  · exact h

theorem objectless_remove {b : Baseline} (h : objectless b) (C : ContractTy) (o : Idx) :
    b.objectRemove C o = (b, .err "object did not exist") := by
  unfold Baseline.objectRemove
  rw [Arena.remove_of_none (h o)]

theorem objectless_unregister {b b' : Baseline} (h : objectless b) (C : ContractTy) (c : Idx) (ord : HashOrder)
    (e : b.unregisterContract C c ord = (b', .ok ())) : objectless b' := by
  unfold Baseline.unregisterContract at e
  cases hg : b.contracts.get c with
  | none => simp [hg] at e
  | some cd =>
    simp only [hg] at e
    split at e
    · simp at e
    · cases hm : b.contracts.modify c (fun cd => { cd with objects := [] }) with
      | none => simp [hm] at e
      | some contracts =>
        simp only [hm] at e
        have h1 : objectless { b with contracts := contracts } := h
        cases ho : ord.order cd.objects with
        | nil =>
          simp only [ho, Baseline.removeObjects] at e
          injection e with e1 _
          subst e1
          exact h
        | cons o os =>
          simp only [ho, Baseline.removeObjects, objectless_remove h1] at e
          simp at e

theorem objectless_bind {b : Baseline} (h : objectless b) (id : PropId) (o : Idx) :
    b.bindState id o = .err "the given ObjectHandle doesn't exist in the arena" := by
  unfold Baseline.bindState
  rw [h o]

/-- One more call. -/
theorem history_step {k : Kind} {evs : List Event} {b : Baseline} (h : History k evs b) (op : BOp) : ∃ evs', History k evs' (b.step op).1 :=
  ⟨_, Trace.append h (.cons b op [] _ (.nil _))⟩

/-- An object that is no baseline with objects and no state handle; a baseline is one that the Rust API can produce. -/
def NObj.plain : NObj → Prop
  | .baseline b => objectless b ∧ ∃ k evs, History k evs b
  | .stateHandle _ _ => False
  | _ => True

/-- A step that does not lead to a state. -/
def PStep.plain : PStep → Prop
  | .state _ _ => False
  | _ => True

theorem unwrap_done {α : Type} {r : Outcome α} {k : α → Exec} {wr : Option NObj} {ret : RetV} (h : Exec.unwrap r k = .done wr ret) :
    ∃ x, r = .ok x ∧ k x = .done wr ret := by
  cases r with
  | ok x => exact ⟨x, rfl, h⟩
  | err m => cases h
  | panic m => cases h

/-- The native functions, given such objects, leave and return such objects. -/
theorem exec_plain (a : Api) (d : a.Data) (os : List NObj) (ho : ∀ o ∈ os, o.plain) (wr : Option NObj) (ret : RetV)
    (h : exec a d os = .done wr ret) :
    (∀ n, wr = some n → n.plain) ∧ (∀ o, ret = .box o → o.plain) ∧ (∀ st, ret = .borrow st → st.plain) := by
  revert h
  fun_cases exec a d os <;> intro h <;>
    first
    | (injection h with h1 h2; subst h1; subst h2; simp [NObj.plain, PStep.plain]; done)
    | (injection h with h1 h2; subst h1; subst h2
       simp only [RetV.box.injEq, forall_eq', reduceCtorEq, false_imp_iff, implies_true, and_true, true_and, NObj.plain]
       exact ⟨objectless_new _, _, [], .nil _⟩)
    | (exact Exec.noConfusion h)
    | skip
  · obtain ⟨x, _, h2⟩ := unwrap_done h
    injection h2 with h1 h2; subst h1; subst h2; simp [PStep.plain]
  · rename_i b t i _; exact False.elim (ho (.stateHandle t i) (by simp))
  · rename_i b t i _; exact False.elim (ho (.stateHandle t i) (by simp))
  · rename_i b d v o _ _ _
    obtain ⟨hb1, k, evs, hist⟩ : objectless b ∧ ∃ k evs, History k evs b := ho (.baseline b) (by simp)
    obtain ⟨x, h1, h2⟩ := unwrap_done h
    simp [Baseline.cBindState, objectless_bind hb1, Baseline.expect] at h1
  · rename_i b _
    obtain ⟨hb1, k, evs, hist⟩ : objectless b ∧ ∃ k evs, History k evs b := ho (.baseline b) (by simp)
    obtain ⟨x, h1, h2⟩ := unwrap_done h
    injection h2 with h1 h2; subst h1; subst h2
    simp only [Option.some.injEq, forall_eq', RetV.box.injEq, reduceCtorEq, false_imp_iff, implies_true, and_true]
    exact ⟨⟨objectless_register hb1 Example.C, k, history_step hist (.register Example.C)⟩, trivial⟩
  · rename_i b _
    obtain ⟨hb1, k, evs, hist⟩ : objectless b ∧ ∃ k evs, History k evs b := ho (.baseline b) (by simp)
    obtain ⟨x, h1, h2⟩ := unwrap_done h
    injection h2 with h1 h2; subst h1; subst h2
    simp only [Option.some.injEq, forall_eq', RetV.box.injEq, reduceCtorEq, false_imp_iff, implies_true, and_true]
    exact ⟨⟨objectless_register hb1 Ball.C, k, history_step hist (.register Ball.C)⟩, trivial⟩
  · rename_i ord b v c hc
    obtain ⟨hb1, k, evs, hist⟩ : objectless b ∧ ∃ k evs, History k evs b := ho (.baseline b) (by simp)
    obtain ⟨x, h1, h2⟩ := unwrap_done h
    injection h2 with h3 h2; subst h3; subst h2
    simp only [Option.some.injEq, forall_eq', reduceCtorEq, false_imp_iff, implies_true, and_true]
    unfold NObj.plain
    have h4 : (b.unregisterContract Ball.C c ord).2 = .ok () := by
      simp only [Ball.unregister] at h1
      cases hu : (b.unregisterContract Ball.C c ord).2 with
      | ok => rfl
      | err m => simp [hu, Baseline.expect] at h1
      | panic m => simp [hu, Baseline.expect] at h1
    exact ⟨objectless_unregister hb1 Ball.C c ord (Prod.ext rfl h4), k, history_step hist (.unregister Ball.C c ord)⟩

theorem get_plain {o x : NObj} {st : PStep} (hs : st.get o = some x) : x.plain := by
  revert hs
  unfold PStep.get
  intro hs
  split at hs
  · cases hs; trivial
  · cases hs; trivial
  · rename_i ks
    cases hk : ks[‹Nat›]? with
    | none => rw [hk] at hs; cases hs
    | some k => rw [hk] at hs; cases hs; trivial
  · split at hs
    · cases hs; trivial
    · cases hs
  · cases hs; trivial
  · cases hs; trivial
  · cases hs; trivial
  · split at hs
    · cases hs; trivial
    · cases hs
  · cases hs

theorem pathGet_plain (path : List PStep) : ∀ (o x : NObj), o.plain → pathGet path o = some x → x.plain := by
  induction path with
  | nil => intro o x ho h; simp only [pathGet, Option.some.injEq] at h; subst h; exact ho
  | cons st path ih =>
    intro o x ho h
    simp only [pathGet] at h
    cases hg : st.get o with
    | none => simp [hg] at h
    | some y => simp only [hg] at h; exact ih y x (get_plain hg) h

theorem pathPut_plain {path : List PStep} (hp : ∀ st ∈ path, st.plain) {o n o' : NObj} (h : pathPut path o n = some o') : o' = n := by
  cases path with
  | nil => simp only [pathPut, Option.some.injEq] at h; exact h.symm
  | cons st path =>
    simp only [pathPut] at h
    cases hg : st.get o with
    | none => simp [hg] at h
    | some x =>
      cases hpp : pathPut path x n with
      | none => simp [hg, hpp] at h
      | some y =>
        simp only [hg, hpp] at h
        have := hp st (by simp)
        cases st <;> first | exact this.elim | (simp [PStep.put] at h)

/-- No wrapper stands for anything but such objects. -/
structure Plain (cells : List Cell) : Prop where
  own : ∀ (i : Nat) (o : NObj), cells[i]? = some (.own o) → o.plain
  view : ∀ (i r : Nat) (path : List PStep), cells[i]? = some (.view r path) → ∀ st ∈ path, st.plain
  ne : ∀ (i r : Nat) (path : List PStep), cells[i]? = some (.view r path) → path ≠ []

theorem plain_read {cells : List Cell} (h : Plain cells) {i : Nat} {o : NObj} (hr : Cell.read cells i = some o) : o.plain := by
  unfold Cell.read at hr
  split at hr
  · rename_i o1 hc; simp only [Option.some.injEq] at hr; subst hr; exact h.own i _ hc
  · split at hr
    · rename_i o1 hc; exact pathGet_plain _ _ _ (h.own _ _ hc) hr
    · cases hr
  · cases hr

theorem plain_reads {cells : List Cell} (h : Plain cells) (is : List Nat) : ∀ (os : List NObj), Cell.reads cells is = some os → ∀ o ∈ os, o.plain := by
  induction is with
  | nil => intro os hr; simp only [Cell.reads, Option.some.injEq] at hr; subst hr; simp
  | cons i is ih =>
    intro os hr
    simp only [Cell.reads] at hr
    cases h1 : Cell.read cells i with
    | none => simp [h1] at hr
    | some o =>
      cases h2 : Cell.reads cells is with
      | none => simp [h1, h2] at hr
      | some os' =>
        simp only [h1, h2, Option.some.injEq] at hr
        subst hr
        intro x hx
        rcases List.mem_cons.1 hx with rfl | hx
        · exact plain_read h h1
        · exact ih os' h2 x hx

theorem plain_set {cells : List Cell} (h : Plain cells) (i : Nat) {n : NObj} (hn : n.plain) : Plain (cells.set i (.own n)) := by
  constructor
  · intro j o hj
    rw [List.getElem?_set] at hj
    split at hj
    · split at hj
      · simp only [Option.some.injEq, Cell.own.injEq] at hj; subst hj; exact hn
      · cases hj
    · exact h.own j o hj
  · intro j r path hj
    rw [List.getElem?_set] at hj
    split at hj
    · split at hj
      · cases hj
      · cases hj
    · exact h.view j r path hj
  · intro j r path hj
    rw [List.getElem?_set] at hj
    split at hj
    · split at hj
      · cases hj
      · cases hj
    · exact h.ne j r path hj

theorem plain_write {cells cells' : List Cell} (h : Plain cells) {i : Nat} {n : NObj} (hn : n.plain)
    (hw : Cell.write cells i n = some cells') : Plain cells' := by
  unfold Cell.write at hw
  split at hw
  · simp only [Option.some.injEq] at hw; subst hw; exact plain_set h i hn
  · rename_i r path hv
    split at hw
    · rename_i o hc
      split at hw
      · cases hw
      · rename_i o' hp
        simp only [Option.some.injEq] at hw; subst hw
        rw [pathPut_plain (h.view i r path hv) hp]
        exact plain_set h r hn
    · cases hw
  · cases hw

theorem plain_append {cells : List Cell} (h : Plain cells) {c : Cell} (ho : ∀ o, c = .own o → o.plain)
    (hv : ∀ r path, c = .view r path → path ≠ [] ∧ ∀ st ∈ path, st.plain) : Plain (cells ++ [c]) := by
  constructor
  · intro j o hj
    rcases get_append_cases hj with ⟨hj, _⟩ | ⟨_, hj⟩
    · exact h.own j o hj
    · exact ho o hj.symm
  · intro j r path hj
    rcases get_append_cases hj with ⟨hj, _⟩ | ⟨_, hj⟩
    · exact h.view j r path hj
    · exact (hv r path hj.symm).2
  · intro j r path hj
    rcases get_append_cases hj with ⟨hj, _⟩ | ⟨_, hj⟩
    · exact h.ne j r path hj
    · exact (hv r path hj.symm).1

/-- The invariant is kept. -/
theorem plain_step {cells : List Cell} (h : Plain cells) (c : VCall) : Plain (Cell.step cells c).1 := by
  cases c with
  | dispose => exact h
  | method a d args =>
    unfold Cell.step
    simp only
    cases hr : Cell.reads cells args with
    | none => exact h
    | some os =>
      simp only
      cases hex : exec a d os with
      | stuck => exact h
      | panic => exact h
      | done wr ret =>
        obtain ⟨e1, e2, e3⟩ := exec_plain a d os (plain_reads h args os hr) wr ret hex
        simp only
        cases hw : Cell.written cells args wr with
        | none => exact h
        | some cells1 =>
          have h1 : Plain cells1 := by
            cases wr with
            | none => simp only [Cell.written, Option.some.injEq] at hw; subst hw; exact h
            | some n =>
              cases args with
              | nil => simp [Cell.written] at hw
              | cons i rest => exact plain_write h (e1 n rfl) hw
          cases ret with
          | nothing => exact h1
          | val o => exact h1
          | box o => exact plain_append h1 (fun o' e => by cases e; exact e2 o rfl) (fun r p e => by cases e)
          | borrow st =>
            refine plain_append h1 (fun o' e => ?_) (fun r p e => ?_)
            · unfold Cell.part at e; split at e <;> cases e
            · unfold Cell.part at e
              split at e
              · rename_i r0 p0 hc
                cases e
                refine ⟨by simp, ?_⟩
                intro x hx
                rcases List.mem_append.1 hx with hx | hx
                · exact h.view _ _ _ hc x hx
                · simp only [List.mem_singleton] at hx; rw [hx]; exact e3 _ rfl
              · cases e
                refine ⟨by simp, ?_⟩
                intro x hx
                simp only [List.mem_singleton] at hx; rw [hx]; exact e3 _ rfl

theorem plain_after (cs : List VCall) : ∀ (cells : List Cell), Plain cells → Plain (Cell.after cells cs) := by
  induction cs with
  | nil => intro cells h; exact h
  | cons c cs ih => intro cells h; exact ih _ (plain_step h c)

theorem plain_init : Plain [] := ⟨by simp, by simp, by simp⟩

theorem exec_bind (a : Api) (d : a.Data) (os : List NObj) (t : PrimType) (ha : a = .baselineBindState t) (ho : ∀ o ∈ os, o.plain)
    (wr : Option NObj) (ret : RetV) : exec a d os ≠ .done wr ret := by
  intro h
  revert h
  fun_cases exec a d os <;> intro h <;> first | (cases ha; done) | (exact Exec.noConfusion h) | skip
  rename_i b d v o _ _ _
  obtain ⟨hb1, k, evs, hist⟩ : objectless b ∧ ∃ k evs, History k evs b := ho (.baseline b) (by simp)
  obtain ⟨x, h1, h2⟩ := unwrap_done h
  simp [Baseline.cBindState, objectless_bind hb1, Baseline.expect] at h1

theorem exec_state (a : Api) (d : a.Data) (os : List NObj) (t : PrimType) (ha : a = .baselineState t ∨ a = .baselineStateMut t)
    (ho : ∀ o ∈ os, o.plain) : exec a d os = .stuck := by
  fun_cases exec a d os <;> first | rfl | (rcases ha with ha | ha <;> cases ha; done) | skip
  · rename_i b t i _; exact False.elim (ho (.stateHandle t i) (by simp))
  · rename_i b t i _; exact False.elim (ho (.stateHandle t i) (by simp))

end Verif.Ffi
