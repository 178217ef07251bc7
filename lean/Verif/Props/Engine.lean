import Verif.Proofs.Engine
import Verif.Props.Baseline
/-! # C21, C24–C31: realms and the engine -/
namespace Verif.Props
open Verif Spec

/-! ## C21 -/

/-- Specification: the calls addressed to one baseline, in order. -/
def callsOn (k : Kind) (ops : List (Kind × BOp)) : List BOp :=
  (ops.filter (fun e => e.1 = k)).map Prod.snd

theorem onBaseline_same (r : Realm) (k : Kind) (op : BOp) :
    (r.onBaseline k op).1.baseline k = (Baseline.step (r.baseline k) op).1 := by
  cases k <;> rfl

theorem onBaseline_other (r : Realm) (k k' : Kind) (op : BOp) (h : k' ≠ k) :
    (r.onBaseline k op).1.baseline k' = r.baseline k' := by
  cases k <;> cases k' <;> first | rfl | exact absurd rfl h

/-- **C21.** After any interleaving of calls on the two baselines of a realm each baseline is exactly
what the calls addressed to it alone produce; in particular calls on one leave the other unchanged.
Realm time is untouched. -/
theorem C21_baselines_isolated (r : Realm) (ops : List (Kind × BOp)) (k : Kind) :
    (r.run ops).baseline k = ((r.baseline k).runOps (callsOn k ops)).2 ∧ (r.run ops).time = r.time ∧
    ((∀ e ∈ ops, e.1 ≠ k) → (r.run ops).baseline k = r.baseline k) := by
  have main : ∀ (r : Realm), (r.run ops).baseline k = ((r.baseline k).runOps (callsOn k ops)).2 ∧
      (r.run ops).time = r.time := by
    induction ops with
    | nil => intro r; exact ⟨rfl, rfl⟩
    | cons e ops ih =>
      intro r
      obtain ⟨k', op⟩ := e
      obtain ⟨h1, h2⟩ := ih (r.onBaseline k' op).1
      refine ⟨?_, by rw [Realm.run, h2]; cases k' <;> rfl⟩
      rw [Realm.run, h1]
      by_cases hk : k' = k
      · subst hk
        simp [callsOn, Baseline.runOps, onBaseline_same]
      · rw [onBaseline_other r k' k op (fun e => hk e.symm)]
        simp [callsOn, hk]
  refine ⟨(main r).1, (main r).2, fun h => ?_⟩
  rw [(main r).1]
  have : callsOn k ops = [] := by
    simp only [callsOn, List.map_eq_nil_iff, List.filter_eq_nil_iff, decide_eq_true_eq]
    exact h
  rw [this]; rfl

/-- **C21.** Each baseline of a realm reports its own kind forever. -/
theorem C21_kind_constant (ops : List (Kind × BOp)) (k : Kind) :
    ((Realm.new.run ops).baseline k).kind = k := by
  have key : ∀ (ops : List BOp) (b : Baseline), (b.runOps ops).2.kind = b.kind := by
    intro ops
    induction ops with
    | nil => intro b; rfl
    | cons op ops ih => intro b; simp [Baseline.runOps, ih, Baseline.step_kind]
  rw [(C21_baselines_isolated Realm.new ops k).1, key]
  cases k <;> rfl

/-- A realm whose fork holds two objects and whose main baseline is still empty. -/
def demoRealm : Realm := Realm.new.run (demoBOps.map fun op => (.fork, op))

example : demoRealm.baseline .main = Baseline.new .main ∧
    (demoRealm.fork.state (.prim .u8) h1) = .ok 8 := by
  refine ⟨?_, by decide +kernel⟩
  rw [demoRealm, (C21_baselines_isolated _ _ .main).2.2 (by simp)]; rfl

/-! ## C24–C27, C31: applying a collaction -/

/-- Specification: the assertion "state `h` equals `d`" holds of a baseline: the handle names a live
state, the data has the state's type and the two values are equal. -/
def AssertHolds (b : Baseline) (h : DynHandle) (d : DynProp) : Prop :=
  ∃ v w : h.ty.Carrier, b.state h.ty h.idx = .ok v ∧ d = DynProp.ofTyped h.ty w ∧ PropSame h.ty v w

/-- Specification: nothing is wrong with this action (channel actions are ignored). -/
def Passes (b : Baseline) : Action → Prop
  | .state (.assert h d) => AssertHolds b h d
  | .state (.write _ _) => False
  | .channel _ => True

/-- The action is a state write. -/
def IsStateWrite (a : Action) : Prop := ∃ h d, a = .state (.write h d)

theorem actionOut_assert_ok (b : Baseline) (h : DynHandle) (d : DynProp) :
    Engine.actionOut b (.state (.assert h d)) = .ok () ↔ AssertHolds b h d := by
  simp only [Engine.actionOut]
  cases hv : b.dynState h with
  | err m =>
    simp only [reduceCtorEq, false_iff]
    rintro ⟨v, w, h1, _, _⟩
    have := Engine.dynState_ok.2 ⟨v, h1, rfl⟩
    rw [hv] at this; cases this
  | panic m => exact absurd hv (Engine.dynState_not_panic _ _ _)
  | ok v =>
    obtain ⟨x, hx, rfl⟩ := Engine.dynState_ok.1 hv
    have : (if (DynProp.ofTyped h.ty x).beq d = true then (Outcome.ok () : Outcome Unit)
        else Outcome.err "Assert failed!") = .ok () ↔ (DynProp.ofTyped h.ty x).beq d = true := by
      split <;> simp_all
    simp only [this]
    constructor
    · intro hb
      have ht : (DynProp.ofTyped h.ty x).propType = d.propType := by
        by_cases ht : (DynProp.ofTyped h.ty x).propType = d.propType
        · exact ht
        · rw [DynProp.beq_ne _ _ ht] at hb; cases hb
      rw [DynProp.propType_ofTyped] at ht
      obtain ⟨w, hw⟩ := d.exists_typed
      revert w; rw [← ht]; intro w hw
      rw [hw, DynProp.beq_ofTyped, PropType.eqv_iff] at hb
      exact ⟨x, w, hx, hw, hb⟩
    · rintro ⟨v, w, h1, rfl, h3⟩
      rw [hx] at h1; cases h1
      rw [DynProp.beq_ofTyped, PropType.eqv_iff]; exact h3

theorem actionOut_ok (b : Baseline) (a : Action) :
    Engine.actionOut b a = .ok () ↔ Passes b a := by
  rcases a with a | a
  · cases a with
    | assert h d => exact actionOut_assert_ok b h d
    | write h d => exact ⟨fun e => absurd e (Engine.actionOut_write_ne_ok _ _ _), fun e => e.elim⟩
  · simp [Engine.actionOut, Passes]

theorem not_write_of_kind {a : Action} (h : a.kind ≠ .stateWrite) : ¬ IsStateWrite a := by
  rintro ⟨x, y, rfl⟩; exact h rfl

/-- **C24.** A collaction without state writes is accepted exactly when every assertion in it holds of
the fork, and rejected otherwise; it never panics, the same actions come back, and the realm is
unchanged. -/
theorem C24_assertions (r : Realm) (c : Collaction) (hc : ∀ a ∈ c, ¬ IsStateWrite a) :
    ((∀ a ∈ c, Passes (r.baseline .fork) a) ∧ Engine.applyCollaction r c = (r, .accepted c)) ∨
    ((¬ ∀ a ∈ c, Passes (r.baseline .fork) a) ∧ Engine.applyCollaction r c = (r, .rejected c)) := by
  rcases Engine.applyLoop_spec r [] c (by simp) with ⟨m, h1, pre, h, d, post, h2, _⟩ |
    ⟨h1, pre, a, post, h2, _, _, h5⟩ | ⟨h1, h2⟩
  · exact absurd ⟨h, d, rfl⟩ (hc (.state (.write h d)) (by rw [h2]; simp))
  · refine .inr ⟨fun hall => ?_, by simpa [Engine.applyCollaction] using h1⟩
    have := (actionOut_ok r.fork a).2 (hall a (by rw [h2]; simp))
    rw [this] at h5; exact absurd h5 (by decide)
  · exact .inl ⟨fun a ha => (actionOut_ok r.fork a).1 (h2 a ha), by simpa [Engine.applyCollaction] using h1⟩

example : Engine.applyCollaction demoRealm
      [.state (.assert ⟨.prim .u8, h1⟩ (.primitive (.u8 8))), .channel (.write ⟨.prim .f32, h0⟩ (.primitive (.f32 0))),
       .state (.assert ⟨.prim .u16, h0⟩ (.primitive (.u16 300)))] |>.2
    |> (· matches .accepted _) := by decide +kernel

example : Engine.applyCollaction demoRealm
      [.state (.assert ⟨.prim .u8, h1⟩ (.primitive (.u8 8))), .state (.assert ⟨.prim .u16, h0⟩ (.primitive (.u16 9)))] |>.2
    |> (· matches .rejected _) := by decide +kernel

/-- **C25.** Whatever the collaction and whatever the outcome (accepted, rejected, even a panic), both
baselines and the time of the realm are exactly as before, and a rejected collaction comes back with
its actions intact.  (Accepted collactions change nothing either, because state writes are not
implemented: see C26.) -/
theorem C25_rejected_is_atomic (r : Realm) (c : Collaction) :
    (Engine.applyCollaction r c).1 = r ∧
    (∀ c' : Collaction, (Engine.applyCollaction r c).2 = .rejected c' → c' = c) := by
  refine ⟨Engine.applyCollaction_fst r c, fun c' h => ?_⟩
  rcases Engine.applyLoop_spec r [] c (by simp) with ⟨m, h1, _⟩ | ⟨h1, _⟩ | ⟨h1, _⟩ <;>
    simp [Engine.applyCollaction, h1] at h
  exact h.symm

/-- **C25**, on the engine: applying the next pending collaction removes it from the queue and touches
nothing else, whatever its outcome. -/
theorem C25_engine_frame (e : EngineS) (c : Collaction) (q : List Collaction) (hq : e.queue = c :: q) :
    (e.step .tryApply).1 = { e with queue := q } ∧ (e.step .applyTimeout).1 = { e with queue := q } := by
  have := Engine.applyCollaction_fst e.realm c
  constructor <;> simp only [EngineS.step, hq, this]

/-- **C26** (false of the code): a collaction consisting of one state write to a live state, with data
of the right type, *always* panics. -/
theorem C26_negation_every_write_panics (r : Realm) (h : DynHandle) (d : DynProp)
    (v : h.ty.Carrier) (_hlive : (r.baseline .fork).state h.ty h.idx = .ok v) (_hty : d.propType = h.ty) :
    ∃ m, Engine.applyCollaction r [.state (.write h d)] = (r, .panicked m) := by
  rcases Engine.applyLoop_spec r [] [.state (.write h d)] (by simp) with ⟨m, h1, _⟩ |
    ⟨_, pre, a, post, h2, h3, _⟩ | ⟨_, h2⟩
  · exact ⟨m, h1⟩
  · exfalso
    have ha : a ∈ [Action.state (.write h d)] := by rw [h2]; simp
    rw [List.mem_singleton.1 ha] at h3
    exact h3 rfl
  · exact absurd (h2 (.state (.write h d)) (by simp)) (Engine.actionOut_write_ne_ok _ _ _)

/-- **C26** (false of the code), a concrete reachable instance of the failure: the property as stated
does not hold. -/
theorem C26_negation_witness :
    (¬ ∀ (ops : List (Kind × BOp)) (h : DynHandle) (v w : h.ty.Carrier),
      (Realm.new.run ops).fork.state h.ty h.idx = .ok v →
      ∃ r' c', Engine.applyCollaction (Realm.new.run ops) [.state (.write h (DynProp.ofTyped h.ty w))] =
        (r', .accepted c') ∧ r'.fork.state h.ty h.idx = .ok w) ∧
    demoRealm.fork.state (.prim .u8) h1 = .ok 8 ∧
    (Engine.applyCollaction demoRealm [.state (.write ⟨.prim .u8, h1⟩ (.primitive (.u8 9)))]).2 =
      .panicked "not yet implemented: Figure out how to swap" := by
  refine ⟨fun hall => ?_, by decide +kernel⟩
  have hlive : demoRealm.fork.state (.prim .u8) h1 = .ok 8 := by decide +kernel
  obtain ⟨r', c', h1', _⟩ := hall (demoBOps.map fun op => (.fork, op)) ⟨.prim .u8, h1⟩ 8 9 hlive
  obtain ⟨m, h2'⟩ := C26_negation_every_write_panics demoRealm ⟨.prim .u8, h1⟩
    (DynProp.ofTyped (.prim .u8) 9) 8 hlive rfl
  have : Realm.new.run (demoBOps.map fun op => (Kind.fork, op)) = demoRealm := rfl
  rw [this, h2'] at h1'
  exact absurd (congrArg Prod.snd h1') (by simp)

/-- **C27** (false of the code): a collaction that names a dead handle in a write panics instead of being
rejected. -/
theorem C27_negation_dead_write_panics (r : Realm) (h : DynHandle) (d : DynProp)
    (_hdead : ((r.baseline .fork).state h.ty h.idx).isErr = true) :
    ∃ m, Engine.applyCollaction r [.state (.write h d)] = (r, .panicked m) := by
  rcases Engine.applyLoop_spec r [] [.state (.write h d)] (by simp) with ⟨m, h1, _⟩ |
    ⟨_, pre, a, post, h2, h3, _⟩ | ⟨_, h2⟩
  · exact ⟨m, h1⟩
  · exfalso
    have ha : a ∈ [Action.state (.write h d)] := by rw [h2]; simp
    rw [List.mem_singleton.1 ha] at h3
    exact h3 rfl
  · exact absurd (h2 (.state (.write h d)) (by simp)) (Engine.actionOut_write_ne_ok _ _ _)

example : (demoRealm.fork.state (.prim .u8) ⟨7, 7⟩).isErr = true ∧
    (Engine.applyCollaction demoRealm [.state (.write ⟨.prim .u8, ⟨7, 7⟩⟩ (.primitive (.u8 9)))]).2 =
      .panicked "TODO: How do we handle failure" := by decide +kernel

/-- **C27, partial.** Exactly which collactions crash: those with a state write such that everything
before it passes.  Every other collaction returns — `Ok` if all actions pass, `Err` otherwise; in
particular an *assertion* on a dead handle is rejected.  Missing (and false): writes never crash. -/
theorem C27_outcomes_partial (r : Realm) (c : Collaction) :
    ((∃ m, (Engine.applyCollaction r c).2 = .panicked m) ↔
      ∃ pre w post, c = pre ++ w :: post ∧ IsStateWrite w ∧ ∀ a ∈ pre, Passes (r.baseline .fork) a) ∧
    ((Engine.applyCollaction r c).2 = .accepted c ↔ ∀ a ∈ c, Passes (r.baseline .fork) a) ∧
    ((Engine.applyCollaction r c).2 = .rejected c ↔
      ∃ pre a post, c = pre ++ a :: post ∧ ¬ IsStateWrite a ∧ ¬ Passes (r.baseline .fork) a ∧
        ∀ x ∈ pre, Passes (r.baseline .fork) x) := by
  -- the three right-hand sides exclude each other
  have uniq : ∀ (pre pre' : List Action) (a a' : Action) (post post' : List Action),
      pre ++ a :: post = pre' ++ a' :: post' → (∀ x ∈ pre, Passes (r.baseline .fork) x) →
      (∀ x ∈ pre', Passes (r.baseline .fork) x) → ¬ Passes (r.baseline .fork) a →
      ¬ Passes (r.baseline .fork) a' → a = a' := by
    intro pre
    induction pre with
    | nil =>
      intro pre' a a' post post' e _ hp' ha _
      cases pre' with
      | nil => exact (List.cons.inj e).1
      | cons y ys =>
        have := (List.cons.inj e).1; subst this
        exact absurd (hp' a (by simp)) ha
    | cons x xs ih =>
      intro pre' a a' post post' e hp hp' ha ha'
      cases pre' with
      | nil =>
        have := (List.cons.inj e).1; subst this
        exact absurd (hp x (by simp)) ha'
      | cons y ys =>
        exact ih ys a a' post post' (List.cons.inj e).2 (fun z hz => hp z (by simp [hz]))
          (fun z hz => hp' z (by simp [hz])) ha ha'
  have wnp : ∀ w, IsStateWrite w → ¬ Passes (r.baseline .fork) w := by
    rintro w ⟨h, d, rfl⟩ hp; exact hp
  rcases Engine.applyLoop_spec r [] c (by simp) with ⟨m, h1, pre, h, d, post, h2, h3⟩ |
    ⟨h1, pre, a, post, h2, h3, h4, h5⟩ | ⟨h1, h2⟩
  · have h3' : ∀ a ∈ pre, Passes (r.baseline .fork) a := fun a ha => (actionOut_ok r.fork a).1 (h3 a ha)
    simp only [Engine.applyCollaction, h1]
    refine ⟨⟨fun _ => ⟨pre, _, post, h2, ⟨h, d, rfl⟩, h3'⟩, fun _ => ⟨m, rfl⟩⟩,
      ⟨fun e => by simp at e, fun hall => absurd (hall (.state (.write h d)) (by rw [h2]; simp)) id⟩,
      ⟨fun e => by simp at e, ?_⟩⟩
    rintro ⟨pre', a, post', e, hw, hp, hpre⟩
    have := uniq pre pre' _ a post post' (h2 ▸ e) h3' hpre (wnp _ ⟨h, d, rfl⟩) hp
    exact absurd ⟨h, d, this.symm⟩ hw
  · have h4' : ∀ a ∈ pre, Passes (r.baseline .fork) a := fun a ha => (actionOut_ok r.fork a).1 (h4 a ha)
    have hnp : ¬ Passes (r.baseline .fork) a := by
      intro hp; have := (actionOut_ok r.fork a).2 hp; rw [this] at h5; exact absurd h5 (by decide)
    simp only [Engine.applyCollaction, h1]
    refine ⟨⟨fun ⟨m, e⟩ => by simp at e, ?_⟩, ⟨fun e => by simp at e, fun hall =>
      absurd (hall a (by rw [h2]; simp)) hnp⟩,
      ⟨fun _ => ⟨pre, a, post, h2, not_write_of_kind h3, hnp, h4'⟩, fun _ => by simp⟩⟩
    rintro ⟨pre', w, post', e, hw, hpre⟩
    have := uniq pre pre' a w post post' (h2 ▸ e) h4' hpre hnp (wnp _ hw)
    subst this
    exact absurd hw (not_write_of_kind h3)
  · have hall : ∀ a ∈ c, Passes (r.baseline .fork) a := fun a ha => (actionOut_ok r.fork a).1 (h2 a ha)
    simp only [Engine.applyCollaction, h1]
    refine ⟨⟨fun ⟨m, e⟩ => by simp at e, ?_⟩, ⟨fun _ => hall, fun _ => by simp⟩,
      ⟨fun e => by simp at e, ?_⟩⟩
    · rintro ⟨pre, w, post, e, hw, _⟩
      exact absurd (hall w (by rw [e]; simp)) (wnp w hw)
    · rintro ⟨pre, a, post, e, _, hp, _⟩
      exact absurd (hall a (by rw [e]; simp)) hp

/-- **C27, partial.** Applying a collaction without state writes never panics; naming a dead handle in
an assertion makes it rejected. -/
theorem C27_dead_assert_rejected_partial (r : Realm) (c : Collaction) (hc : ∀ a ∈ c, ¬ IsStateWrite a)
    (h : DynHandle) (d : DynProp) (hmem : Action.state (.assert h d) ∈ c)
    (hdead : ((r.baseline .fork).state h.ty h.idx).isErr = true) :
    Engine.applyCollaction r c = (r, .rejected c) := by
  rcases C24_assertions r c hc with ⟨hall, _⟩ | ⟨_, h2⟩
  · obtain ⟨v, w, h1, _, _⟩ := hall _ hmem
    rw [h1] at hdead; exact absurd hdead (by simp [Outcome.isErr])
  · exact h2

/-! ## C28, C29 -/

/-- Specification: the collactions a schedule's sends handed over (accepted `send`s, and rendezvous). -/
def acceptedOf : List (EOp × EOut) → List Collaction
  | [] => []
  | (.send c, .sent) :: evs => c :: acceptedOf evs
  | (.handoff c, .applied _ _) :: evs => c :: acceptedOf evs
  | _ :: evs => acceptedOf evs

/-- Specification: the collactions applied, in order. -/
def appliedOf : List (EOp × EOut) → List Collaction
  | [] => []
  | (_, .applied c _) :: evs => c :: appliedOf evs
  | _ :: evs => appliedOf evs

theorem acceptedOf_cons (ev : EOp × EOut) (evs : List (EOp × EOut)) :
    acceptedOf (ev :: evs) = acceptedOf [ev] ++ acceptedOf evs := by
  rcases ev with ⟨op, o⟩
  cases op <;> cases o <;> rfl

theorem appliedOf_cons (ev : EOp × EOut) (evs : List (EOp × EOut)) :
    appliedOf (ev :: evs) = appliedOf [ev] ++ appliedOf evs := by
  rcases ev with ⟨op, o⟩
  cases o <;> rfl

/-- The queue never exceeds its capacity. -/
def WithinCap (e : EngineS) : Prop := ∀ n : Nat, e.cap = some n → e.queue.length ≤ n

theorem step_queue (e : EngineS) (op : EOp) (hw : WithinCap e) :
    e.queue ++ acceptedOf [(op, (e.step op).2)] =
      appliedOf [(op, (e.step op).2)] ++ (e.step op).1.queue ∧
    WithinCap (e.step op).1 ∧ (e.step op).1.cap = e.cap := by
  cases op with
  | send c =>
    simp only [EngineS.step]
    split
    · simp [acceptedOf, appliedOf, hw]
    · split
      · rename_i h1 h2
        refine ⟨by simp [acceptedOf, appliedOf], fun n hn => ?_, rfl⟩
        simp only at hn
        simp only [EngineS.hasRoom, hn, decide_eq_true_eq] at h2
        simp; omega
      · simp [acceptedOf, appliedOf, hw]
  | handoff c =>
    simp only [EngineS.step]
    split
    · simp [acceptedOf, appliedOf, hw]
    · split
      · rename_i h1 h2
        have := hw 0 h2
        have hq : e.queue = [] := List.eq_nil_of_length_eq_zero (by omega)
        refine ⟨by simp [acceptedOf, appliedOf, hq], hw, rfl⟩
      · simp [acceptedOf, appliedOf, hw]
  | cloneSender => simp only [EngineS.step]; split <;> simp [acceptedOf, appliedOf, hw] <;> exact hw
  | dropSender => simp only [EngineS.step]; split <;> simp [acceptedOf, appliedOf, hw] <;> exact hw
  | tryApply =>
    simp only [EngineS.step]
    cases hq : e.queue with
    | nil => simp only []; refine ⟨?_, hw, trivial⟩; split <;> simp [acceptedOf, appliedOf, hq]
    | cons c q =>
      refine ⟨by simp [acceptedOf, appliedOf], fun n hn => ?_, rfl⟩
      have := hw n hn; rw [hq] at this; simp at this ⊢; omega
  | applyTimeout =>
    simp only [EngineS.step]
    cases hq : e.queue with
    | nil => simp only []; refine ⟨?_, hw, trivial⟩; split <;> simp [acceptedOf, appliedOf, hq]
    | cons c q =>
      refine ⟨by simp [acceptedOf, appliedOf], fun n hn => ?_, rfl⟩
      have := hw n hn; rw [hq] at this; simp at this ⊢; omega
  | tick d => exact ⟨by simp [EngineS.step, acceptedOf, appliedOf], hw, rfl⟩
  | edit k op => exact ⟨by simp [EngineS.step, acceptedOf, appliedOf], hw, rfl⟩

/-- **C28.** For every schedule of sends, applications, ticks and edits on a fresh engine: the
collactions handed over are exactly the ones applied followed by the ones still queued, in order —
nothing lost, duplicated or reordered — and a bounded queue never exceeds its capacity. -/
theorem C28_fifo (r : Realm) (cap : Option Nat) (ops : List EOp) :
    acceptedOf ((EngineS.new r cap).run ops).2 =
      appliedOf ((EngineS.new r cap).run ops).2 ++ ((EngineS.new r cap).run ops).1.queue ∧
    (∀ n : Nat, cap = some n → ((EngineS.new r cap).run ops).1.queue.length ≤ n) := by
  have key : ∀ (ops : List EOp) (e : EngineS), WithinCap e →
      e.queue ++ acceptedOf (e.run ops).2 = appliedOf (e.run ops).2 ++ (e.run ops).1.queue ∧
      WithinCap (e.run ops).1 ∧ (e.run ops).1.cap = e.cap := by
    intro ops
    induction ops with
    | nil => intro e hw; exact ⟨by simp [EngineS.run, acceptedOf, appliedOf], hw, rfl⟩
    | cons op ops ih =>
      intro e hw
      obtain ⟨h1, h2, h3⟩ := step_queue e op hw
      obtain ⟨g1, g2, g3⟩ := ih (e.step op).1 h2
      simp only [EngineS.run]
      refine ⟨?_, g2, g3.trans h3⟩
      rw [acceptedOf_cons, appliedOf_cons, ← List.append_assoc, h1, List.append_assoc, g1,
        List.append_assoc]
  obtain ⟨h1, h2, h3⟩ := key ops (EngineS.new r cap) (by intro n _; simp [EngineS.new])
  exact ⟨by simpa [EngineS.new] using h1, fun n hn => h2 n (by rw [h3]; exact hn)⟩

/-- **C28.** A send is accepted exactly when the queue has room; it then goes to the end and changes
nothing else. -/
theorem C28_send (e : EngineS) (c : Collaction) (hs : e.senders ≠ 0) :
    ((∃ n, e.cap = some n ∧ n ≤ e.queue.length) → e.step (.send c) = (e, .full)) ∧
    ((∀ n : Nat, e.cap = some n → e.queue.length < n) →
      e.step (.send c) = ({ e with queue := e.queue ++ [c] }, .sent)) := by
  constructor
  · rintro ⟨n, hn, hl⟩
    simp [EngineS.step, hs, EngineS.hasRoom, hn]; omega
  · intro h
    cases hc : e.cap with
    | none => simp [EngineS.step, hs, EngineS.hasRoom, hc]
    | some n =>
      have := h n hc
      simp [EngineS.step, hs, EngineS.hasRoom, hc, this]

example : ((EngineS.new demoRealm (some 1)).run
      [.send [.channel (.write ⟨.prim .f32, h0⟩ (.primitive (.f32 0)))], .send [], .tryApply, .send [], .tryApply, .tryApply]).2.map Prod.snd
    = [.sent, .full, .applied [.channel (.write ⟨.prim .f32, h0⟩ (.primitive (.f32 0)))] (.accepted [.channel (.write ⟨.prim .f32, h0⟩ (.primitive (.f32 0)))]),
       .sent, .applied [] (.accepted []), .empty] := by decide +kernel

/-- **C29.** With nothing pending, `try_apply` and `apply_timeout` change nothing at all and report an
error: `Disconnected` iff no sender is left. -/
theorem C29_empty (e : EngineS) (hq : e.queue = []) :
    (e.step .tryApply).1 = e ∧ (e.step .applyTimeout).1 = e ∧
    (e.step .tryApply).2 = (if e.senders = 0 then .disconnected else .empty) ∧
    (e.step .applyTimeout).2 = (if e.senders = 0 then .disconnected else .timeout) := by
  simp [EngineS.step, hq]

/-- **C29.** `Disconnected` is reported only when all senders are gone *and* the queue is drained: as
long as something is pending it is applied, senders or not. -/
theorem C29_pending_wins (e : EngineS) (op : EOp) (hop : op = .tryApply ∨ op = .applyTimeout) :
    ((e.step op).2 = .disconnected ↔ e.queue = [] ∧ e.senders = 0) ∧
    (∀ (c : Collaction) (q : List Collaction), e.queue = c :: q →
      ∃ res, (e.step op).2 = .applied c res ∧ (e.step op).1.queue = q) := by
  rcases hop with rfl | rfl <;> simp only [EngineS.step] <;> cases hq : e.queue <;>
    simp only [] <;> (try split) <;> simp_all

example : ((EngineS.new demoRealm none).run [.send [], .dropSender, .tryApply, .tryApply]).2.map Prod.snd
    = [.sent, .done, .applied [] (.accepted []), .disconnected] := by decide +kernel

/-- Specification: the number of senders after a schedule.  There is one at first; a sender that does not exist can be neither
cloned nor dropped. -/
def sendersAfter (n : Nat) : List EOp → Nat
  | [] => n
  | .cloneSender :: ops => sendersAfter (if n = 0 then 0 else n + 1) ops
  | .dropSender :: ops => sendersAfter (n - 1) ops
  | _ :: ops => sendersAfter n ops

theorem senders_run (ops : List EOp) : ∀ e : EngineS, (e.run ops).1.senders = sendersAfter e.senders ops := by
  induction ops with
  | nil => intro e; rfl
  | cons op ops ih =>
    intro e
    simp only [EngineS.run, ih]
    cases op <;> simp only [EngineS.step, sendersAfter]
    case send => split <;> (try split) <;> rfl
    case handoff => split <;> (try split) <;> rfl
    case cloneSender => split <;> simp_all
    case dropSender => split <;> simp_all
    case tryApply => split <;> rfl
    case applyTimeout => split <;> rfl

/-- **C29.** After every schedule: an engine whose queue is empty reports `Disconnected` exactly when every clone of the sender
has been dropped, and only then is a sender refused. -/
theorem C29_disconnected (r : Realm) (cap : Option Nat) (ops : List EOp) (c : Collaction)
    (hq : ((EngineS.new r cap).run ops).1.queue = []) :
    ((((EngineS.new r cap).run ops).1.step .tryApply).2 = .disconnected ↔ sendersAfter 1 ops = 0) ∧
    ((((EngineS.new r cap).run ops).1.step .applyTimeout).2 = .disconnected ↔ sendersAfter 1 ops = 0) ∧
    ((((EngineS.new r cap).run ops).1.step (.send c)).2 = .disconnected ↔ sendersAfter 1 ops = 0) := by
  have hs : ((EngineS.new r cap).run ops).1.senders = sendersAfter 1 ops := senders_run ops _
  generalize ((EngineS.new r cap).run ops).1 = e at *
  rw [← hs]
  refine ⟨((C29_pending_wins e _ (.inl rfl)).1).trans ?_, ((C29_pending_wins e _ (.inr rfl)).1).trans ?_, ?_⟩
  · simp [hq]
  · simp [hq]
  · simp only [EngineS.step]
    by_cases h0 : e.senders = 0
    · simp [h0]
    · simp only [h0, if_false, iff_false]
      split <;> simp

example : sendersAfter 1 [.cloneSender, .send [], .dropSender, .tryApply, .dropSender] = 0 := by rfl
example : sendersAfter 1 [.cloneSender, .dropSender] = 1 := by rfl
example : ((EngineS.new demoRealm none).run [.cloneSender, .send [], .dropSender, .tryApply, .dropSender]).1.queue = [] := by decide +kernel

/-! ## C30 -/

/-- Specification: total of the ticks of a schedule. -/
def tickTotal : List Ticks → Int
  | [] => 0
  | d :: ds => d.toInt + tickTotal ds

/-- **C30.** Realm time is always in the i32 range, and a tick saturates instead of wrapping; a
non-negative tick never decreases time, a non-positive one never increases it.  Only ticks change
time. -/
theorem C30_tick (e : EngineS) (d : Ticks) :
    ((e.step (.tick d)).1.realm.time.toInt =
      max (-2147483648) (min 2147483647 (e.realm.time.toInt + d.toInt))) ∧
    (0 ≤ d.toInt → e.realm.time.toInt ≤ (e.step (.tick d)).1.realm.time.toInt) ∧
    (d.toInt ≤ 0 → (e.step (.tick d)).1.realm.time.toInt ≤ e.realm.time.toInt) ∧
    (e.step (.tick d)).1.realm.main = e.realm.main ∧ (e.step (.tick d)).1.realm.fork = e.realm.fork ∧
    (e.step (.tick d)).1.queue = e.queue := by
  have h : (e.step (.tick d)).1.realm.time.toInt = clamp32 (e.realm.time.toInt + d.toInt) :=
    Ticks.toInt_add _ _
  have hb := i32_bounds e.realm.time
  rw [h]
  unfold clamp32
  simp only [i32Min, i32Max] at *
  refine ⟨?_, ?_, ?_, rfl, rfl, rfl⟩ <;> (repeat' split) <;> omega

/-- **C30.** No other operation changes realm time. -/
theorem C30_only_tick_changes_time (e : EngineS) (op : EOp) (h : ∀ d : Ticks, op ≠ .tick d) :
    (e.step op).1.realm.time = e.realm.time := by
  cases op with
  | tick d => exact absurd rfl (h d)
  | send c => simp only [EngineS.step]; repeat' split
              all_goals rfl
  | handoff c =>
    simp only [EngineS.step, Engine.applyCollaction_fst]; repeat' split
    all_goals rfl
  | cloneSender => simp only [EngineS.step]; split <;> rfl
  | dropSender => simp only [EngineS.step]; split <;> rfl
  | tryApply => simp only [EngineS.step]; split <;> simp [Engine.applyCollaction_fst]
  | applyTimeout => simp only [EngineS.step]; split <;> simp [Engine.applyCollaction_fst]
  | edit k op => cases k <;> rfl

/-- **C30.** A sequence of non-negative ticks from time `t` ends at `min (t + total) i32::MAX`. -/
theorem C30_total (e : EngineS) (ds : List Ticks) (h : ∀ d ∈ ds, 0 ≤ d.toInt) :
    (e.run (ds.map EOp.tick)).1.realm.time.toInt = min (e.realm.time.toInt + tickTotal ds) 2147483647 := by
  induction ds generalizing e with
  | nil =>
    have := i32_bounds e.realm.time
    simp only [i32Max] at this
    simp [EngineS.run, tickTotal]; omega
  | cons d ds ih =>
    have hd := h d (by simp)
    have ht : 0 ≤ tickTotal ds := by
      have : ∀ l : List Ticks, (∀ d ∈ l, 0 ≤ d.toInt) → 0 ≤ tickTotal l := by
        intro l; induction l with
        | nil => intro _; simp [tickTotal]
        | cons x xs ihx =>
          intro hx
          have := hx x (by simp); have := ihx (fun d hd => hx d (by simp [hd])); simp only [tickTotal]; omega
      exact this ds (fun d hd => h d (by simp [hd]))
    simp only [List.map_cons, EngineS.run]
    rw [ih (e.step (.tick d)).1 (fun x hx => h x (by simp [hx])), (C30_tick e d).1]
    have := i32_bounds e.realm.time
    simp only [i32Min] at this
    simp only [tickTotal]; omega

example : ((EngineS.new demoRealm none).run [.tick 2147483000#32, .tick 1000#32, .tick 5#32]).1.realm.time
    = 0x7fffffff#32 := by decide +kernel

/-! ## C31 -/

/-- **C31.** An assertion on a live float state succeeds iff neither side is a NaN and the two are the
same number: identical bits, or both a zero (of either sign).  Here for f32; f64 below. -/
theorem C31_f32 (r : Realm) (i : Idx) (x y : BitVec 32) (hx : (r.baseline .fork).state (.prim .f32) i = .ok x) :
    ((Engine.applyCollaction r [.state (.assert ⟨.prim .f32, i⟩ (.primitive (.f32 y)))]).2 =
      .accepted [.state (.assert ⟨.prim .f32, i⟩ (.primitive (.f32 y)))]) ↔
    (¬ F32NaN x ∧ ¬ F32NaN y ∧ (x = y ∨ F32Zero x ∧ F32Zero y)) := by
  rw [(C27_outcomes_partial r _).2.1]
  simp only [List.mem_singleton, forall_eq, Passes]
  constructor
  · rintro ⟨v, w, h1, h2, h3⟩
    rw [hx] at h1; cases h1
    have : y = w := DynProp.ofTyped_inj (t := .prim .f32) h2
    subst this; exact h3
  · intro h; exact ⟨x, y, hx, rfl, h⟩

/-- **C31** for f64. -/
theorem C31_f64 (r : Realm) (i : Idx) (x y : BitVec 64) (hx : (r.baseline .fork).state (.prim .f64) i = .ok x) :
    ((Engine.applyCollaction r [.state (.assert ⟨.prim .f64, i⟩ (.primitive (.f64 y)))]).2 =
      .accepted [.state (.assert ⟨.prim .f64, i⟩ (.primitive (.f64 y)))]) ↔
    (¬ F64NaN x ∧ ¬ F64NaN y ∧ (x = y ∨ F64Zero x ∧ F64Zero y)) := by
  rw [(C27_outcomes_partial r _).2.1]
  simp only [List.mem_singleton, forall_eq, Passes]
  constructor
  · rintro ⟨v, w, h1, h2, h3⟩
    rw [hx] at h1; cases h1
    have : y = w := DynProp.ofTyped_inj (t := .prim .f64) h2
    subst this; exact h3
  · intro h; exact ⟨x, y, hx, rfl, h⟩

/-- **C31**, for every type: asserting the value a state currently holds succeeds iff that value holds no
NaN. -/
theorem C31_assert_current (r : Realm) (h : DynHandle) (v : h.ty.Carrier)
    (hv : (r.baseline .fork).state h.ty h.idx = .ok v) :
    ((Engine.applyCollaction r [.state (.assert h (DynProp.ofTyped h.ty v))]).2 =
      .accepted [.state (.assert h (DynProp.ofTyped h.ty v))]) ↔ ¬ PropNaN h.ty v := by
  rw [(C27_outcomes_partial r _).2.1]
  simp only [List.mem_singleton, forall_eq, Passes]
  rw [← PropSame_refl]
  constructor
  · rintro ⟨v', w, h1, h2, h3⟩
    rw [hv] at h1; cases h1
    rw [← DynProp.ofTyped_inj h2] at h3; exact h3
  · intro h'; exact ⟨v, v, hv, rfl, h'⟩

/-- A realm whose fork has one object with a float state holding NaN and one holding -0.0. -/
def floatC : ContractTy := ⟨⟨"float", 1, 0, 0⟩, [⟨"a", .prim .f32⟩, ⟨"b", .prim .f32⟩], []⟩
def floatRealm : Realm :=
  Realm.new.run [(.fork, .register floatC),
    (.fork, .create floatC h0 [.primitive (.f32 0x7fc00000), .primitive (.f32 0x80000000)] [])]

example : floatRealm.fork.state (.prim .f32) h0 = .ok 0x7fc00000#32 ∧
    floatRealm.fork.state (.prim .f32) h1 = .ok 0x80000000#32 ∧
    (Engine.applyCollaction floatRealm [.state (.assert ⟨.prim .f32, h0⟩ (.primitive (.f32 0x7fc00000)))]).2
      matches .rejected _ ∧
    (Engine.applyCollaction floatRealm [.state (.assert ⟨.prim .f32, h1⟩ (.primitive (.f32 0)))]).2
      matches .accepted _ := by decide +kernel

end Verif.Props
