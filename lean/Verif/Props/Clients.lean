import Verif.Proofs.Clients
import Verif.Props.Engine
/-!
# C95–C97: several threads share one engine
-/
namespace Verif.Props
open Verif Clients

/-! ## Specification -/

/-- What the threads handed over successfully, in the order in which it happened: who sent, and what. -/
def handedOver : List Out → List (Nat × Collaction)
  | [] => []
  | .sent i c :: os => (i, c) :: handedOver os
  | .handed i c _ :: os => (i, c) :: handedOver os
  | _ :: os => handedOver os

/-- What the engine applied, in order: whose, and what. -/
def appliedBy : List Out → List (Nat × Collaction)
  | [] => []
  | .applied i c _ :: os => (i, c) :: appliedBy os
  | .handed i c _ :: os => (i, c) :: appliedBy os
  | _ :: os => appliedBy os

/-- What thread `i` got an answer for (sent, full or refused), in order. -/
def answersTo (i : Nat) : List Out → List Collaction
  | [] => []
  | .sent j c :: os => (if j = i then [c] else []) ++ answersTo i os
  | .handed j c _ :: os => (if j = i then [c] else []) ++ answersTo i os
  | .full j c :: os => (if j = i then [c] else []) ++ answersTo i os
  | .refused j c :: os => (if j = i then [c] else []) ++ answersTo i os
  | _ :: os => answersTo i os

/-- The part of thread `i`. -/
def only (i : Nat) (l : List (Nat × Collaction)) : List Collaction := (l.filter (fun p => decide (p.1 = i))).map Prod.snd

/-- What thread `i` has not been answered yet. -/
def unanswered (s : Sys) (i : Nat) : List Collaction := (s.clients[i]?.map (fun cl => cl.prog.map SOp.coll)).getD []

/-! ## Lemmas -/

theorem handedOver_cons (o : Out) (os : List Out) : handedOver (o :: os) = handedOver [o] ++ handedOver os := by cases o <;> rfl
theorem appliedBy_cons (o : Out) (os : List Out) : appliedBy (o :: os) = appliedBy [o] ++ appliedBy os := by cases o <;> rfl
theorem answersTo_cons (i : Nat) (o : Out) (os : List Out) : answersTo i (o :: os) = answersTo i [o] ++ answersTo i os := by
  cases o <;> simp [answersTo]

theorem quiet_none (o : Out) (h : o.quiet = true) : handedOver [o] = [] ∧ appliedBy [o] = [] ∧ ∀ i : Nat, answersTo i [o] = [] := by
  cases o <;> first | exact ⟨rfl, rfl, fun _ => rfl⟩ | simp [Out.quiet] at h

/-- One event and the queue: what is handed over is applied or queued; the engine applies nothing after its end. -/
theorem queue_step (s : Sys) (e : Ev) :
    (s.alive = true → (s.step e).1.alive = true →
      s.queue ++ handedOver [(s.step e).2] = appliedBy [(s.step e).2] ++ (s.step e).1.queue) ∧
    (s.alive = true → (s.step e).1.alive = false → (s.step e).1.queue = [] ∧
      ∃ lost, s.queue ++ handedOver [(s.step e).2] = appliedBy [(s.step e).2] ++ lost) ∧
    (s.alive = false → (s.step e).1.alive = false ∧ (s.step e).1.queue = s.queue ∧
      handedOver [(s.step e).2] = [] ∧ appliedBy [(s.step e).2] = []) := by
  have H := shape s e
  generalize (s.step e).1 = s' at *
  generalize (s.step e).2 = o at *
  cases H with
  | quiet r o ho =>
    obtain ⟨h1, h2, _⟩ := quiet_none o ho
    refine ⟨fun _ _ => by rw [h1, h2]; simp, fun h h' => absurd (h.symm.trans h') (by simp), fun h => ⟨h, rfl, h1, h2⟩⟩
  | drops i h => exact ⟨fun _ _ => by simp [handedOver, appliedBy], fun h h' => absurd (h.symm.trans h') (by simp), fun h => ⟨h, rfl, rfl, rfl⟩⟩
  | sent i op rest l h ha hr =>
    exact ⟨fun _ _ => by simp [handedOver, appliedBy], fun h h' => absurd (h.symm.trans h') (by simp),
      fun h' => absurd (ha.symm.trans h') (by simp)⟩
  | full i c rest l h ha hr =>
    exact ⟨fun _ _ => by simp [handedOver, appliedBy, Sys.advance], fun h h' => absurd (h.symm.trans h') (by simp),
      fun h' => absurd (ha.symm.trans h') (by simp)⟩
  | refused i op rest l h ha =>
    exact ⟨fun h' => absurd (h'.symm.trans ha) (by simp), fun h' => absurd (h'.symm.trans ha) (by simp), fun _ => ⟨ha, rfl, rfl, rfl⟩⟩
  | parks i c rest l h ha hr hp =>
    exact ⟨fun _ _ => by simp [handedOver, appliedBy], fun h h' => absurd (h.symm.trans h') (by simp),
      fun h' => absurd (ha.symm.trans h') (by simp)⟩
  | applied i c q s' ha hq hs =>
    refine ⟨fun _ h' => ?_, fun _ h' => ?_, fun h' => absurd (ha.symm.trans h') (by simp)⟩
    · cases hs with
      | on r => simp [handedOver, appliedBy, hq]
      | dead r => simp [Sys.kill] at h'
    · cases hs with
      | on r => simp only at h'; exact absurd (ha.symm.trans h') (by simp)
      | dead r => exact ⟨rfl, q, by simp [handedOver, appliedBy, hq]⟩
  | handed i op rest l s' ha hq hc h hs =>
    refine ⟨fun _ h' => ?_, fun _ h' => ?_, fun h' => absurd (ha.symm.trans h') (by simp)⟩
    · cases hs with
      | on r => simp [handedOver, appliedBy, hq, Sys.advance]
      | dead r => simp [Sys.kill] at h'
    · cases hs with
      | on r => simp only [Sys.advance] at h'; exact absurd (ha.symm.trans h') (by simp)
      | dead r => exact ⟨rfl, [], by simp [handedOver, appliedBy, hq]⟩
  | kill ha =>
    exact ⟨fun _ h' => by simp [Sys.kill] at h', fun _ _ => ⟨rfl, s.queue, by simp [handedOver, appliedBy]⟩,
      fun h' => absurd (ha.symm.trans h') (by simp)⟩

/-- Whole schedules. -/
theorem queue_run (es : List Ev) : ∀ s : Sys,
    (s.alive = true → (s.run es).1.alive = true →
      s.queue ++ handedOver (s.run es).2 = appliedBy (s.run es).2 ++ (s.run es).1.queue) ∧
    (s.alive = true → (s.run es).1.alive = false → (s.run es).1.queue = [] ∧
      ∃ lost, s.queue ++ handedOver (s.run es).2 = appliedBy (s.run es).2 ++ lost) ∧
    (s.alive = false → (s.run es).1.alive = false ∧ (s.run es).1.queue = s.queue ∧
      handedOver (s.run es).2 = [] ∧ appliedBy (s.run es).2 = []) := by
  induction es with
  | nil =>
    intro s
    exact ⟨fun _ _ => by simp [Sys.run, handedOver, appliedBy], fun h h' => absurd (h.symm.trans h') (by simp),
      fun h => ⟨h, rfl, rfl, rfl⟩⟩
  | cons e es ih =>
    intro s
    obtain ⟨a1, a2, a3⟩ := queue_step s e
    obtain ⟨b1, b2, b3⟩ := ih (s.step e).1
    simp only [Sys.run]
    rw [handedOver_cons, appliedBy_cons]
    cases hm : (s.step e).1.alive with
    | true =>
      refine ⟨fun h h' => ?_, fun h h' => ?_, fun h => absurd (hm.symm.trans (a3 h).1) (by simp)⟩
      · rw [← List.append_assoc, a1 h hm, List.append_assoc, b1 hm h', List.append_assoc]
      · obtain ⟨c1, lost, c2⟩ := b2 hm h'
        exact ⟨c1, lost, by rw [← List.append_assoc, a1 h hm, List.append_assoc, c2, List.append_assoc]⟩
    | false =>
      obtain ⟨c1, c2, c3, c4⟩ := b3 hm
      refine ⟨fun _ h' => absurd (h'.symm.trans c1) (by simp), fun h _ => ?_, fun h => ?_⟩
      · obtain ⟨d1, lost, d2⟩ := a2 h hm
        exact ⟨c2.trans d1, lost, by rw [c3, c4]; simpa using d2⟩
      · obtain ⟨_, d2, d3, d4⟩ := a3 h
        exact ⟨c1, c2.trans d2, by rw [c3, d3]; rfl, by rw [c4, d4]; rfl⟩

theorem unanswered_set (s : Sys) (i : Nat) (op : SOp) (rest : List SOp) (l : Bool) (h : s.clients[i]? = some ⟨op :: rest, l⟩)
    (s' : Sys) (hs : s'.clients = s.clients.set i ⟨rest, true⟩) (j : Nat) :
    unanswered s j = (if i = j then [op.coll] else []) ++ unanswered s' j := by
  unfold unanswered
  rw [hs]
  by_cases hj : i = j
  · subst hj
    rw [List.getElem?_set_self (lt_of_get h), h]
    simp
  · rw [List.getElem?_set_ne hj]
    simp [hj]

/-- One event and the program of thread `j`. -/
theorem answers_step (s : Sys) (e : Ev) (j : Nat) :
    unanswered s j = answersTo j [(s.step e).2] ++ unanswered (s.step e).1 j := by
  have H := shape s e
  generalize (s.step e).1 = s' at *
  generalize (s.step e).2 = o at *
  cases H with
  | quiet r o ho => rw [(quiet_none o ho).2.2]; rfl
  | drops i h =>
    simp only [answersTo, List.nil_append, unanswered]
    by_cases hj : i = j
    · subst hj; rw [List.getElem?_set_self (lt_of_get h), h]; rfl
    · rw [List.getElem?_set_ne hj]
  | sent i op rest l h ha hr => simpa [answersTo] using unanswered_set s i op rest l h { s.advance i rest with queue := s.queue ++ [(i, op.coll)] } rfl j
  | full i c rest l h ha hr => simpa [answersTo, SOp.coll] using unanswered_set s i _ rest l h (s.advance i rest) rfl j
  | refused i op rest l h ha => simpa [answersTo] using unanswered_set s i _ rest l h (s.advance i rest) rfl j
  | parks i c rest l h ha hr hp => rfl
  | applied i c q s' ha hq hs => cases hs <;> rfl
  | handed i op rest l s' ha hq hc h hs =>
    have : s'.clients = s.clients.set i ⟨rest, true⟩ := by cases hs <;> rfl
    simpa [answersTo] using unanswered_set s i op rest l h s' this j
  | kill ha => rfl

theorem answers_run (es : List Ev) (j : Nat) : ∀ s : Sys,
    unanswered s j = answersTo j (s.run es).2 ++ unanswered (s.run es).1 j := by
  induction es with
  | nil => intro s; rfl
  | cons e es ih =>
    intro s
    simp only [Sys.run]
    rw [answersTo_cons, answers_step s e j, ih (s.step e).1, List.append_assoc]

/-! ## C95 -/

/-- **C95.** Every thread gets exactly one answer for each of its sends, in the order of its program. -/
theorem C95_each_send_answered_once (r : Realm) (cap : Option Nat) (catches : Bool) (progs : List (List SOp)) (es : List Ev) (i : Nat)
    (p : List SOp) (hp : progs[i]? = some p) :
    p.map SOp.coll = answersTo i ((Sys.start r cap catches progs).run es).2 ++ unanswered ((Sys.start r cap catches progs).run es).1 i := by
  have e := answers_run es i (Sys.start r cap catches progs)
  rw [← e]
  simp [unanswered, Sys.start, hp]

/-- **C95.** For every schedule: what the threads handed over successfully is, in order, what was applied followed by what is still
queued, as long as the engine exists; and the same thread by thread.  So no collaction is lost, duplicated or overtaken by a later
one of the same thread.  When the engine is gone, what was applied is a beginning of what was handed over, and nothing is queued. -/
theorem C95_order (r : Realm) (cap : Option Nat) (catches : Bool) (progs : List (List SOp)) (es : List Ev)
    (s : Sys) (os : List Out) (h : (Sys.start r cap catches progs).run es = (s, os)) :
    (s.alive = true → handedOver os = appliedBy os ++ s.queue ∧ ∀ i : Nat, only i (handedOver os) = only i (appliedBy os) ++ only i s.queue) ∧
    (s.alive = false → s.queue = [] ∧ appliedBy os <+: handedOver os ∧ ∀ i : Nat, only i (appliedBy os) <+: only i (handedOver os)) := by
  obtain ⟨h1, h2, _⟩ := queue_run es (Sys.start r cap catches progs)
  rw [h] at h1 h2
  have only_append : ∀ (i : Nat) (a b : List (Nat × Collaction)), only i (a ++ b) = only i a ++ only i b := by
    intro i a b; simp [only]
  constructor
  · intro ha
    have e := h1 rfl ha
    simp only [Sys.start, List.nil_append] at e
    exact ⟨e, fun i => by rw [e, only_append]⟩
  · intro ha
    obtain ⟨e1, lost, e2⟩ := h2 rfl ha
    simp only [Sys.start, List.nil_append] at e2
    exact ⟨e1, ⟨lost, e2.symm⟩, fun i => ⟨only i lost, by rw [e2, only_append]⟩⟩

/-- Specification: a stretch of a schedule in which every thread, and the engine, gets a turn. -/
def EveryoneMoves (n : Nat) (σ : List Ev) : Prop := .tryApply ∈ σ ∧ ∀ i : Nat, i < n → .client i ∈ σ

theorem dead_queue (es : List Ev) : ∀ s : Sys, (s.alive = false → s.queue = []) → ((s.run es).1.alive = false → (s.run es).1.queue = []) := by
  intro s h
  obtain ⟨_, h2, h3⟩ := queue_run es s
  cases ha : s.alive with
  | true => exact fun h' => (h2 ha h').1
  | false => exact fun _ => (h3 ha).2.1.trans (h ha)

theorem clients_length_step (s : Sys) (e : Ev) : (s.step e).1.clients.length = s.clients.length := by
  have H := shape s e
  generalize (s.step e).1 = s' at *
  generalize (s.step e).2 = o at *
  cases H with
  | applied i c q s' ha hq hs => cases hs <;> rfl
  | handed i op rest l s' ha hq hc h hs => cases hs <;> simp [Sys.advance, Sys.kill]
  | _ => simp [Sys.advance, Sys.kill]

theorem clients_length (es : List Ev) : ∀ s : Sys, (s.run es).1.clients.length = s.clients.length := by
  induction es with
  | nil => intro s; rfl
  | cons e es ih => intro s; simp only [Sys.run]; rw [ih, clients_length_step]

/-- What is over stays over. -/
def Over (s : Sys) : Prop := s.queue = [] ∧ ∀ cl ∈ s.clients, cl = ⟨[], false⟩

theorem over_step {s : Sys} (h : Over s) (e : Ev) : Over (s.step e).1 := by
  have hno : ∀ (i : Nat) (op : SOp) (rest : List SOp) (l : Bool), s.clients[i]? ≠ some ⟨op :: rest, l⟩ := by
    intro i op rest l hc
    have := h.2 _ (List.mem_of_getElem? hc)
    simp at this
  have H := shape s e
  generalize (s.step e).1 = s' at *
  generalize (s.step e).2 = o at *
  cases H with
  | quiet r o ho => exact h
  | drops i hc => exact absurd (h.2 _ (List.mem_of_getElem? hc)) (by simp)
  | sent i op rest l hc ha hr => exact absurd hc (hno _ _ _ _)
  | full i c rest l hc ha hr => exact absurd hc (hno _ _ _ _)
  | refused i op rest l hc ha => exact absurd hc (hno _ _ _ _)
  | parks i c rest l hc ha hr hp => exact absurd hc (hno _ _ _ _)
  | applied i c q s' ha hq hs => exact absurd (h.1.symm.trans hq) (by simp)
  | handed i op rest l s' ha hq hc hcl hs => exact absurd hcl (hno _ _ _ _)
  | kill ha => exact ⟨rfl, h.2⟩

theorem over_run (es : List Ev) : ∀ s : Sys, Over s → Over (s.run es).1 := by
  induction es with
  | nil => intro s h; exact h
  | cons e es ih => intro s h; simp only [Sys.run]; exact ih _ (over_step h e)

theorem segments_over (segs : List (List Ev)) : ∀ s : Sys, s.Waiting → (s.alive = false → s.queue = []) →
    (∀ σ ∈ segs, EveryoneMoves s.clients.length σ) → s.work < segs.length → Over (s.run segs.flatten).1 := by
  induction segs with
  | nil => intro s _ _ _ h; simp at h
  | cons σ segs ih =>
    intro s hw hd hf hl
    simp only [List.flatten_cons]
    rw [(run_append σ segs.flatten s).1]
    have hσ := hf σ (by simp)
    rcases run_work σ s with ⟨_, g⟩ | g
    · refine over_run _ _ (over_run _ _ ?_)
      exact stuck_done hw (g _ hσ.1 (.inl rfl)) (fun i hi => g _ (hσ.2 i hi) (.inr ⟨i, rfl⟩)) hd
    · refine ih (s.run σ).1 (run_waiting σ hw) (dead_queue σ s hd) (fun σ' h' => ?_) (by simp at hl; omega)
      rw [clients_length]
      exact hf σ' (by simp [h'])

/-- Specification: how many sends the programs contain. -/
def totalSends (progs : List (List SOp)) : Nat := (progs.map List.length).sum

theorem sum_range_get (progs : List (List SOp)) (f : Nat → Nat)
    (hf : ∀ (i : Nat) (p : List SOp), progs[i]? = some p → f i = 4 * p.length + 2) :
    ((List.range progs.length).map f).sum = 4 * totalSends progs + 2 * progs.length := by
  induction progs generalizing f with
  | nil => rfl
  | cons p progs ih =>
    rw [List.length_cons, List.range_succ_eq_map, List.map_cons, List.map_map, List.sum_cons, hf 0 p rfl,
      ih (f ∘ Nat.succ) (fun i q hq => hf (i + 1) q (by simpa using hq))]
    simp only [totalSends, List.map_cons, List.sum_cons]
    omega

theorem start_work (r : Realm) (cap : Option Nat) (catches : Bool) (progs : List (List SOp)) :
    (Sys.start r cap catches progs).work = 4 * totalSends progs + 2 * progs.length + 1 := by
  unfold Sys.work
  have := sum_range_get progs (Sys.start r cap catches progs).weight (fun i p hp => by
    simp [Sys.weight, Sys.start, hp])
  have hl : (Sys.start r cap catches progs).clients.length = progs.length := by simp [Sys.start]
  rw [hl, this]
  simp [Sys.start]

/-- **C95.** No thread waits for ever: in every schedule that gives the threads and the engine a turn again and again (whatever else
happens in between, including the loss of the engine), after enough rounds every send of every thread has been answered, all
senders are dropped and nothing is queued; if the engine still exists then everything that was handed over has been applied. -/
theorem C95_everything_is_delivered (r : Realm) (cap : Option Nat) (catches : Bool) (progs : List (List SOp)) (rounds : List (List Ev))
    (hf : ∀ σ ∈ rounds, EveryoneMoves progs.length σ) (hn : 4 * totalSends progs + 2 * progs.length + 1 < rounds.length)
    (s : Sys) (os : List Out) (h : (Sys.start r cap catches progs).run rounds.flatten = (s, os)) :
    s.queue = [] ∧ (∀ (i : Nat) (p : List SOp), progs[i]? = some p → answersTo i os = p.map SOp.coll) ∧
    (∀ cl ∈ s.clients, cl.live = false) ∧ (s.alive = true → appliedBy os = handedOver os) := by
  have ov := segments_over rounds (Sys.start r cap catches progs) (by intro i hi; simp [Sys.start] at hi) (by simp [Sys.start])
    (by simpa [Sys.start] using hf) (by rw [start_work]; exact hn)
  rw [h] at ov
  have ha := (C95_order r cap catches progs rounds.flatten s os h).1
  refine ⟨ov.1, fun i p hp => ?_, fun cl hcl => by rw [ov.2 cl hcl], fun hal => ?_⟩
  · have e := C95_each_send_answered_once r cap catches progs rounds.flatten i p hp
    rw [h] at e
    simp only at e
    have u : unanswered s i = [] := by
      unfold unanswered
      cases hc : s.clients[i]? with
      | none => rfl
      | some cl => rw [ov.2 cl (List.mem_of_getElem? hc)]; rfl
    rw [u, List.append_nil] at e
    exact e.symm
  · have e := (ha hal).1
    rw [ov.1, List.append_nil] at e
    exact e.symm

/-- **C95.** A bounded queue never holds more than its capacity, and whoever waits is in the middle of a `send`. -/
theorem C95_bounded (r : Realm) (n : Nat) (catches : Bool) (progs : List (List SOp)) (es : List Ev) (s : Sys) (os : List Out)
    (h : (Sys.start r (some n) catches progs).run es = (s, os)) :
    s.queue.length ≤ n ∧ ∀ i ∈ s.parked, ∃ c : Collaction, (unanswered s i).head? = some c := by
  have key : ∀ (es : List Ev) (s : Sys), s.cap = some n → s.queue.length ≤ n →
      (s.run es).1.cap = some n ∧ (s.run es).1.queue.length ≤ n := by
    intro es
    induction es with
    | nil => intro s h1 h2; exact ⟨h1, h2⟩
    | cons e es ih =>
      intro s h1 h2
      simp only [Sys.run]
      refine ih _ ?_ ?_
      · have H := shape s e
        generalize (s.step e).1 = s' at *
        generalize (s.step e).2 = o at *
        cases H with
        | applied i c q s' ha hq hs => cases hs <;> exact h1
        | handed i op rest l s' ha hq hc hcl hs => cases hs <;> exact h1
        | _ => exact h1
      · have H := shape s e
        generalize (s.step e).1 = s' at *
        generalize (s.step e).2 = o at *
        cases H with
        | sent i op rest l hc ha hr =>
          simp only [Sys.hasRoom, h1, decide_eq_true_eq] at hr
          simp; omega
        | applied i c q s' ha hq hs =>
          rw [hq, List.length_cons] at h2
          cases hs
          · simp only; omega
          · simp [Sys.kill]
        | handed i op rest l s' ha hq hc hcl hs =>
          cases hs
          · simpa [Sys.advance] using h2
          · simp [Sys.kill]
        | kill ha => simp [Sys.kill]
        | _ => exact h2
  have k := key es (Sys.start r (some n) catches progs) rfl (by simp [Sys.start])
  have w := run_waiting es (s := Sys.start r (some n) catches progs) (by intro i hi; simp [Sys.start] at hi)
  rw [h] at k w
  refine ⟨k.2, fun i hi => ?_⟩
  obtain ⟨c, rest, l, e⟩ := w i hi
  exact ⟨c, by simp [unanswered, e, SOp.coll]⟩

/-- The engine of `Verif.Model.Engine` that the shared engine looks like: the clients forgotten, their senders counted. -/
def asEngine (s : Sys) : EngineS := ⟨s.realm, s.queue.map Prod.snd, s.cap, (s.clients.filter (·.live)).length⟩

/-- Specification: what an event, with what was seen, is to the engine of C24–C30; none if it is nothing (somebody waits or is
finished). -/
def engineEvent : Ev → Out → Option (EOp × EOut)
  | .client _, .sent _ c => some (.send c, .sent)
  | .client _, .full _ c => some (.send c, .full)
  | .client _, .dropped _ => some (.dropSender, .done)
  | .tryApply, .applied _ c r => some (.tryApply, .applied c r)
  | .tryApply, .empty => some (.tryApply, .empty)
  | .tryApply, .disconnected => some (.tryApply, .disconnected)
  | .tryApply, .handed _ c r => some (.handoff c, .applied c r)
  | .applyTimeout _, .applied _ c r => some (.applyTimeout, .applied c r)
  | .applyTimeout _, .timeout => some (.applyTimeout, .timeout)
  | .applyTimeout _, .disconnected => some (.applyTimeout, .disconnected)
  | .applyTimeout _, .handed _ c r => some (.handoff c, .applied c r)
  | .tick d, .done => some (.tick d, .done)
  | .edit k op, .edited o => some (.edit k op, .edited o)
  | _, _ => none

/-- Whoever has something to send has its sender. -/
def Owning (s : Sys) : Prop := ∀ cl ∈ s.clients, cl.prog ≠ [] → cl.live = true

theorem owning_step {s : Sys} (h : Owning s) (e : Ev) : Owning (s.step e).1 := by
  have set : ∀ (i : Nat) (cl' : Client), (cl'.prog ≠ [] → cl'.live = true) → ∀ cl ∈ s.clients.set i cl', cl.prog ≠ [] → cl.live = true := by
    intro i cl' h' cl hcl
    rcases List.mem_or_eq_of_mem_set hcl with hcl | rfl
    · exact h cl hcl
    · exact h'
  have H := shape s e
  generalize (s.step e).1 = s' at *
  generalize (s.step e).2 = o at *
  cases H with
  | quiet r o ho => exact h
  | drops i hc => exact set i ⟨[], false⟩ (by simp)
  | sent i op rest l hc ha hr => exact set i ⟨rest, true⟩ (by simp)
  | full i c rest l hc ha hr => exact set i ⟨rest, true⟩ (by simp)
  | refused i op rest l hc ha => exact set i ⟨rest, true⟩ (by simp)
  | parks i c rest l hc ha hr hp => exact h
  | applied i c q s' ha hq hs => cases hs <;> exact h
  | handed i op rest l s' ha hq hc hcl hs => cases hs <;> exact set i ⟨rest, true⟩ (by simp)
  | kill ha => exact h

theorem live_set_same (l : List Client) (i : Nat) (cl cl' : Client) (h : l[i]? = some cl) (hl : cl.live = cl'.live) :
    ((l.set i cl').filter (·.live)).length = (l.filter (·.live)).length := by
  induction l generalizing i with
  | nil => simp at h
  | cons x l ih =>
    cases i with
    | zero =>
      simp only [List.getElem?_cons_zero, Option.some.injEq] at h
      subst h
      simp only [List.set_cons_zero, List.filter_cons]
      rw [hl]
      split <;> simp
    | succ i =>
      simp only [List.getElem?_cons_succ] at h
      simp only [List.set_cons_succ, List.filter_cons]
      split <;> simp [ih i h]

theorem live_set_drop (l : List Client) (i : Nat) (cl cl' : Client) (h : l[i]? = some cl) (hl : cl.live = true) (hl' : cl'.live = false) :
    ((l.set i cl').filter (·.live)).length + 1 = (l.filter (·.live)).length := by
  induction l generalizing i with
  | nil => simp at h
  | cons x l ih =>
    cases i with
    | zero =>
      simp only [List.getElem?_cons_zero, Option.some.injEq] at h
      subst h
      simp [hl, hl']
    | succ i =>
      simp only [List.getElem?_cons_succ] at h
      simp only [List.set_cons_succ, List.filter_cons]
      split <;> simp [← ih i h]

theorem live_pos {l : List Client} {i : Nat} {cl : Client} (h : l[i]? = some cl) (hl : cl.live = true) : (l.filter (·.live)).length ≠ 0 := by
  intro h0
  have := List.mem_filter.2 ⟨List.mem_of_getElem? h, hl⟩
  rw [List.eq_nil_of_length_eq_zero h0] at this
  simp at this

theorem any_live (l : List Client) : l.any (·.live) = !decide ((l.filter (·.live)).length = 0) := by
  induction l with
  | nil => rfl
  | cons x l ih =>
    simp only [List.any_cons, List.filter_cons, ih]
    cases x.live <;> simp

/-- `apply` that does not lose the engine is the application of the other model. -/
theorem apply_alive (s : Sys) (c : Collaction) (h : (s.apply c).1.alive = true) :
    (s.apply c).1 = { s with realm := (Engine.applyCollaction s.realm c).1 } := by
  unfold Sys.apply at h ⊢
  revert h
  generalize Engine.applyCollaction s.realm c = p
  rcases p with ⟨r, res⟩
  cases res with
  | accepted c => intro _; rfl
  | rejected c => intro _; rfl
  | panicked m =>
    intro h
    by_cases hc : s.catches = true
    · simp only; rw [if_pos hc]
    · simp only at h; rw [if_neg hc] at h; simp [Sys.kill] at h

theorem hasRoom_asEngine (s : Sys) : (asEngine s).hasRoom = s.hasRoom := by
  unfold EngineS.hasRoom Sys.hasRoom asEngine
  simp only
  cases s.cap <;> simp

/-- One event of the shared engine, as long as the engine lives, is the corresponding event of the engine of C24–C30. -/
theorem step_asEngine (s : Sys) (ho : Owning s) (ha : s.alive = true) (e : Ev) (ha' : (s.step e).1.alive = true) :
    match engineEvent e (s.step e).2 with
    | none => asEngine (s.step e).1 = asEngine s
    | some (op, out) => (asEngine s).step op = (asEngine (s.step e).1, out) := by
  have happ : ∀ (s0 : Sys) (c : Collaction), (s0.apply c).1.alive = true →
      asEngine (s0.apply c).1 = { asEngine s0 with realm := (Engine.applyCollaction s0.realm c).1 } := by
    intro s0 c h; rw [apply_alive s0 c h]; rfl
  have hadv : ∀ (i : Nat) (op : SOp) (rest : List SOp) (l : Bool), s.clients[i]? = some ⟨op :: rest, l⟩ →
      asEngine (s.advance i rest) = asEngine s ∧ (asEngine s).senders ≠ 0 := by
    intro i op rest l hc
    have hl : l = true := ho _ (List.mem_of_getElem? hc) (by simp)
    subst hl
    refine ⟨?_, live_pos hc rfl⟩
    simp only [asEngine, Sys.advance]
    rw [live_set_same _ _ _ ⟨rest, true⟩ hc rfl]
  have hrecv : ∀ (m : Option Nat) (none' : Out) (eop : EOp) (eout : EOut) (e : Ev),
      (∀ i c r, engineEvent e (.applied i c r) = some (eop, .applied c r)) →
      (∀ i c r, engineEvent e (.handed i c r) = some (.handoff c, .applied c r)) →
      engineEvent e none' = some (eop, eout) → engineEvent e .disconnected = some (eop, .disconnected) →
      (∀ (s : EngineS) (c : Collaction) (q : List Collaction), s.queue = c :: q →
        s.step eop = ({ s with realm := (Engine.applyCollaction s.realm c).1, queue := q }, .applied c (Engine.applyCollaction s.realm c).2)) →
      (∀ s : EngineS, s.queue = [] → s.step eop = (s, if s.senders = 0 then .disconnected else eout)) →
      (s.recv m none').1.alive = true →
      match engineEvent e (s.recv m none').2 with
      | none => asEngine (s.recv m none').1 = asEngine s
      | some (op, out) => (asEngine s).step op = (asEngine (s.recv m none').1, out) := by
    intro m none' eop eout e h1 h2 h3 h4 h5 h6 hal
    have hno : s.queue = [] →
        match engineEvent e (if s.clients.any (·.live) then none' else .disconnected) with
        | none => asEngine s = asEngine s
        | some (op, out) => (asEngine s).step op = (asEngine s, out) := by
      intro hq
      have h := h6 (asEngine s) (by simp [asEngine, hq])
      rw [any_live]
      by_cases h0 : (s.clients.filter (·.live)).length = 0
      · have h0' : (asEngine s).senders = 0 := h0
        rw [if_pos h0'] at h
        simp only [h0, decide_true, Bool.not_true, Bool.false_eq_true, if_false, h4, h]
      · have h0' : (asEngine s).senders ≠ 0 := h0
        rw [if_neg h0'] at h
        simp only [h0, decide_false, Bool.not_false, if_true, h3, h]
    have hhand : ∀ (i : Nat) (b : Bool) (c : Collaction) (s1 : Sys), s.takeFrom i b = some (c, s1) → s.cap = some 0 →
        s.queue = [] → (s1.apply c).1.alive = true →
        (asEngine s).step (.handoff c) = (asEngine (s1.apply c).1, .applied c (s1.apply c).2) := by
      intro i b c s1 ht hcap hq hal
      obtain ⟨op, rest, l, g1, rfl, rfl⟩ := takeFrom_some ht
      obtain ⟨k1, k2⟩ := hadv i op rest l g1
      rw [happ _ _ hal, k1, apply_out, advance_realm]
      have hc0 : (asEngine s).cap = some 0 := hcap
      simp only [EngineS.step, k2, if_false, hc0, if_true]
      rfl
    unfold Sys.recv at hal ⊢
    cases hq : s.queue with
    | cons p q =>
      rcases p with ⟨i, c⟩
      simp only [hq] at hal
      simp only [h1]
      rw [h5 (asEngine s) c (q.map Prod.snd) (by simp [asEngine, hq]), apply_out]
      rw [happ _ _ hal]
      rfl
    | nil =>
      simp only [hq] at hal
      simp only
      by_cases hcap : s.cap = some 0
      · simp only [hcap, if_true] at hal ⊢
        cases hp : s.parked with
        | cons i ps =>
          simp only [hp] at hal
          simp only
          cases ht : s.takeFrom i true with
          | none => exact hno hq
          | some x =>
            rcases x with ⟨c, s1⟩
            simp only [ht] at hal
            simp only [h2]
            exact hhand i true c s1 ht hcap hq hal
        | nil =>
          simp only [hp] at hal
          simp only
          cases m with
          | none => exact hno hq
          | some i =>
            simp only at hal ⊢
            cases ht : s.takeFrom i false with
            | none => exact hno hq
            | some x =>
              rcases x with ⟨c, s1⟩
              simp only [ht] at hal
              simp only [h2]
              exact hhand i false c s1 ht hcap hq hal
      · rw [if_neg hcap]
        exact hno hq
  cases e with
  | tryApply =>
    simp only [Sys.step, ha, if_true] at ha' ⊢
    refine hrecv none .empty .tryApply .empty .tryApply (fun _ _ _ => rfl) (fun _ _ _ => rfl) rfl rfl ?_ ?_ ha'
    · intro s c q hq; simp only [EngineS.step, hq]
    · intro s hq; simp only [EngineS.step, hq]
  | applyTimeout m =>
    simp only [Sys.step, ha, if_true] at ha' ⊢
    refine hrecv m .timeout .applyTimeout .timeout (.applyTimeout m) (fun _ _ _ => rfl) (fun _ _ _ => rfl) rfl rfl ?_ ?_ ha'
    · intro s c q hq; simp only [EngineS.step, hq]
    · intro s hq; simp only [EngineS.step, hq]
  | tick d => simp only [Sys.step, ha, if_true, engineEvent]; rfl
  | edit k op => simp only [Sys.step, ha, if_true, engineEvent]; rfl
  | dropEngine => simp only [Sys.step, ha, if_true, Sys.kill] at ha'; simp at ha'
  | client i =>
    simp only [Sys.step, Sys.clientStep] at ha' ⊢
    cases hc : s.clients[i]? with
    | none => rfl
    | some cl =>
      rcases cl with ⟨prog, l⟩
      cases prog with
      | nil =>
        cases l with
        | false => rfl
        | true =>
          simp only [if_true, engineEvent]
          have hp := live_pos hc rfl
          have hd := live_set_drop _ _ _ ⟨[], false⟩ hc rfl rfl
          have hs0 : (asEngine s).senders ≠ 0 := hp
          simp only [EngineS.step, hs0, if_false]
          simp only [asEngine, ← hd, Nat.add_sub_cancel]
      | cons op rest =>
        obtain ⟨k1, k2⟩ := hadv i op rest l hc
        simp only
        rw [if_pos ha]
        by_cases hr : s.hasRoom = true
        · rw [if_pos hr]
          simp only [engineEvent]
          have hr' : (asEngine s).hasRoom = true := by rw [hasRoom_asEngine]; exact hr
          simp only [EngineS.step, k2, if_false, hr', if_true]
          have e1 : asEngine { s.advance i rest with queue := (s.advance i rest).queue ++ [(i, op.coll)] } =
              { asEngine (s.advance i rest) with queue := (asEngine (s.advance i rest)).queue ++ [op.coll] } := by
            simp [asEngine]
          rw [e1, k1]
        · rw [if_neg hr]
          have hr' : ¬ (asEngine s).hasRoom = true := by rw [hasRoom_asEngine]; exact hr
          cases op with
          | trySend c =>
            simp only [engineEvent]
            rw [k1]
            simp only [EngineS.step, k2, if_false, hr']
            rfl
          | send c =>
            simp only
            by_cases hp : s.parked.contains i = true
            · rw [if_pos hp]; rfl
            · rw [if_neg hp]; rfl

/-- Specification: the events of a schedule as events of the engine of C24–C30. -/
def engineEvents : List Ev → List Out → List (EOp × EOut)
  | e :: es, o :: os =>
    match engineEvent e o with
    | none => engineEvents es os
    | some x => x :: engineEvents es os
  | _, _ => []

/-- **C95.** As long as the engine lives, a schedule of the threads is a schedule of the engine of C24–C30 (with one sender per
thread): the same events with the same results lead to the same realm, queue and number of senders.  So those properties hold of the
shared engine too; in particular `Disconnected` is reported exactly when all threads have dropped their senders and the queue is
drained (C29), and time moves by the ticks only (C30). -/
theorem C95_shared_engine_is_the_engine (r : Realm) (cap : Option Nat) (catches : Bool) (progs : List (List SOp)) (es : List Ev)
    (s : Sys) (os : List Out) (h : (Sys.start r cap catches progs).run es = (s, os)) (ha : s.alive = true) :
    ∃ e0 : EngineS, e0.realm = r ∧ e0.queue = [] ∧ e0.cap = cap ∧ e0.senders = progs.length ∧
      e0.run ((engineEvents es os).map Prod.fst) = (asEngine s, engineEvents es os) ∧
      s.realm = (asEngine s).realm ∧ s.queue.map Prod.snd = (asEngine s).queue := by
  have key : ∀ (es : List Ev) (s : Sys), Owning s → s.alive = true → (s.run es).1.alive = true →
      (asEngine s).run ((engineEvents es (s.run es).2).map Prod.fst) = (asEngine (s.run es).1, engineEvents es (s.run es).2) := by
    intro es
    induction es with
    | nil => intro s _ _ _; rfl
    | cons e es ih =>
      intro s ho ha h'
      simp only [Sys.run] at h' ⊢
      have ha1 : (s.step e).1.alive = true := by
        cases h1 : (s.step e).1.alive with
        | true => rfl
        | false => have := ((queue_run es (s.step e).1).2.2 h1).1; rw [this] at h'; simp at h'
      have hs := step_asEngine s ho ha e ha1
      have hi := ih (s.step e).1 (owning_step ho e) ha1 h'
      simp only [engineEvents]
      cases hev : engineEvent e (s.step e).2 with
      | none =>
        rw [hev] at hs
        simp only at hs ⊢
        rw [← hs]
        exact hi
      | some x =>
        rcases x with ⟨op, out⟩
        rw [hev] at hs
        simp only at hs
        simp only [List.map_cons, EngineS.run, hs, hi]
  have k := key es (Sys.start r cap catches progs) (by
    intro cl hcl _
    simp only [Sys.start, List.mem_map] at hcl
    obtain ⟨p, _, rfl⟩ := hcl
    rfl) rfl (by rw [h]; exact ha)
  rw [h] at k
  refine ⟨asEngine (Sys.start r cap catches progs), rfl, rfl, rfl, ?_, k, rfl, rfl⟩
  have : (progs.map fun p => (⟨p, true⟩ : Client)).filter (·.live) = progs.map fun p => (⟨p, true⟩ : Client) :=
    List.filter_eq_self.2 (by intro a ha; obtain ⟨p, _, rfl⟩ := List.mem_map.1 ha; rfl)
  simp only [asEngine, Sys.start, this, List.length_map]

/-- **C95.** When the engine is dropped by its owner, what was queued is discarded; from then on nothing is applied, and every send is
refused, with its collaction given back. -/
theorem C95_after_the_engine (s : Sys) (ha : s.alive = true) (es : List Ev) :
    (s.step .dropEngine).1.queue = [] ∧ handedOver ((s.step .dropEngine).1.run es).2 = [] ∧
    appliedBy ((s.step .dropEngine).1.run es).2 = [] ∧
    ∀ (i : Nat) (c : Collaction) (cs : List Collaction), unanswered ((s.step .dropEngine).1.run es).1 i = c :: cs →
      (((s.step .dropEngine).1.run es).1.step (.client i)).2 = .refused i c := by
  have e0 : s.step .dropEngine = (s.kill, .done) := by simp only [Sys.step, ha, if_true]
  obtain ⟨_, _, h3⟩ := queue_run es s.kill
  obtain ⟨k1, k2, k3, k4⟩ := h3 rfl
  rw [e0]
  refine ⟨rfl, k3, k4, fun i c cs hu => ?_⟩
  simp only at hu ⊢
  generalize (s.kill.run es).1 = s' at *
  unfold unanswered at hu
  cases hc : s'.clients[i]? with
  | none => simp [hc] at hu
  | some cl =>
    rcases cl with ⟨prog, l⟩
    cases prog with
    | nil => simp [hc] at hu
    | cons op rest =>
      simp only [hc, Option.map_some, Option.getD_some, List.map_cons, List.cons.injEq] at hu
      simp only [Sys.step, Sys.clientStep, hc]
      rw [if_neg (by rw [k1]; simp)]
      rw [hu.1]

/-! ## C95: an example -/

/-- Two threads and a queue with one place: the second thread has to wait, and everything arrives. -/
def oneWrite : Collaction := [.channel (.write ⟨.prim .f32, h0⟩ (.primitive (.f32 0)))]

example : ((Sys.start demoRealm (some 1) false [[.send oneWrite, .send []], [.send [], .trySend oneWrite]]).run
      [.client 0, .client 1, .tryApply, .client 1, .client 0, .client 1, .tryApply, .client 0, .tryApply]).2
    = [.sent 0 oneWrite, .waits 1, .applied 0 oneWrite (.accepted oneWrite), .sent 1 [], .waits 0, .full 1 oneWrite,
       .applied 1 [] (.accepted []), .sent 0 [], .applied 0 [] (.accepted [])] := by decide +kernel

/-- Without a buffer the engine takes the collactions from the waiting threads directly, the longest-waiting first. -/
example : ((Sys.start demoRealm (some 0) false [[.send oneWrite], [.send []], [.trySend []]]).run
      [.tryApply, .client 1, .client 0, .tryApply, .tryApply, .applyTimeout (some 2), .client 0, .client 1, .client 2, .tryApply]).2
    = [.empty, .waits 1, .waits 0, .handed 1 [] (.accepted []), .handed 0 oneWrite (.accepted oneWrite), .handed 2 [] (.accepted []),
       .dropped 0, .dropped 1, .dropped 2, .disconnected] := by decide +kernel

example : EveryoneMoves 2 [.client 1, .tick (Ticks.new 1#32), .tryApply, .client 0, .applyTimeout none] := by
  refine ⟨by simp, fun i hi => ?_⟩
  have : i = 0 ∨ i = 1 := by omega
  rcases this with rfl | rfl <;> simp

/-- What the schedule of the first example is to the engine of C24–C30: the waits disappear. -/
example : engineEvents [.client 0, .client 1, .tryApply, .client 1, .client 0]
      ((Sys.start demoRealm (some 1) false [[.send oneWrite, .send []], [.send []]]).run
        [.client 0, .client 1, .tryApply, .client 1, .client 0]).2
    = [(.send oneWrite, .sent), (.tryApply, .applied oneWrite (.accepted oneWrite)), (.send [], .sent)] := rfl

/-- The engine goes away while one thread waits and another's collaction is queued. -/
example : ((Sys.start demoRealm (some 1) false [[.send oneWrite], [.send [], .send oneWrite]]).run
      [.client 0, .client 1, .dropEngine, .client 1, .client 1, .tryApply]).2
    = [.sent 0 oneWrite, .waits 1, .done, .refused 1 [], .refused 1 oneWrite, .idle] := by decide +kernel

/-! ## C96 -/

/-- Specification: a program without state writes. -/
def NoWrites (p : List SOp) : Prop := ∀ op ∈ p, ∀ a ∈ op.coll, ¬ IsStateWrite a

/-- **The full property C96:** as long as its owner keeps the engine, everything thread `i` handed over is applied or still queued,
whatever the other threads send. -/
def OthersCannotHarm : Prop :=
  ∀ (r : Realm) (cap : Option Nat) (catches : Bool) (progs : List (List SOp)) (es : List Ev) (i : Nat) (p : List SOp) (s : Sys) (os : List Out),
    progs[i]? = some p → NoWrites p → (Sys.start r cap catches progs).run es = (s, os) → .dropEngine ∉ es →
    only i (handedOver os) = only i (appliedBy os) ++ only i s.queue

/-- The collactions pending or still to be sent. -/
def InFlight (s : Sys) (c : Collaction) : Prop := (∃ i : Nat, (i, c) ∈ s.queue) ∨ ∃ cl ∈ s.clients, ∃ op ∈ cl.prog, op.coll = c

theorem inflight_advance {s s' : Sys} {i : Nat} {op : SOp} {rest : List SOp} {l : Bool} (h : s.clients[i]? = some ⟨op :: rest, l⟩)
    (hc : s'.clients = s.clients.set i ⟨rest, true⟩) (hq : ∀ x ∈ s'.queue, x ∈ s.queue ∨ x = (i, op.coll)) (c : Collaction)
    (hf : InFlight s' c) : InFlight s c := by
  have hm := List.mem_of_getElem? h
  rcases hf with ⟨j, hj⟩ | ⟨cl, hcl, op', hop, rfl⟩
  · rcases hq _ hj with hj | hj
    · exact .inl ⟨j, hj⟩
    · exact .inr ⟨_, hm, op, by simp, (congrArg Prod.snd hj).symm⟩
  · rw [hc] at hcl
    rcases List.mem_or_eq_of_mem_set hcl with hcl | rfl
    · exact .inr ⟨cl, hcl, op', hop, rfl⟩
    · exact .inr ⟨_, hm, op', List.mem_cons_of_mem _ hop, rfl⟩

theorem inflight_step (s : Sys) (e : Ev) (c : Collaction) (hf : InFlight (s.step e).1 c) : InFlight s c := by
  have H := shape s e
  generalize (s.step e).1 = s' at *
  generalize (s.step e).2 = o at *
  cases H with
  | quiet r o ho => exact hf
  | drops i h =>
    rcases hf with hf | ⟨cl, hcl, op, hop, e⟩
    · exact .inl hf
    · rcases List.mem_or_eq_of_mem_set hcl with hcl | rfl
      · exact .inr ⟨cl, hcl, op, hop, e⟩
      · simp at hop
  | sent i op rest l h ha hr =>
    exact inflight_advance (s' := { s.advance i rest with queue := s.queue ++ [(i, op.coll)] }) h rfl (fun x hx => by simpa using hx) c hf
  | full i c' rest l h ha hr => exact inflight_advance (s' := s.advance i rest) h rfl (fun x hx => .inl hx) c hf
  | refused i op rest l h ha => exact inflight_advance (s' := s.advance i rest) h rfl (fun x hx => .inl hx) c hf
  | parks i c' rest l h ha hr hp => exact hf
  | applied i c' q s' ha hq hs =>
    cases hs with
    | on r =>
      rcases hf with ⟨j, hj⟩ | hf
      · exact .inl ⟨j, by rw [hq]; exact List.mem_cons_of_mem _ hj⟩
      · exact .inr hf
    | dead r =>
      rcases hf with ⟨j, hj⟩ | hf
      · simp [Sys.kill] at hj
      · exact .inr hf
  | handed i op rest l s' ha hq hc h hs =>
    cases hs with
    | on r => exact inflight_advance (s' := { s.advance i rest with realm := r }) h rfl (fun x hx => .inl hx) c hf
    | dead r =>
      exact inflight_advance (s' := ({ s.advance i rest with realm := r } : Sys).kill) h rfl (fun x hx => by simp [Sys.kill] at hx) c hf
  | kill ha =>
    rcases hf with ⟨j, hj⟩ | hf
    · simp [Sys.kill] at hj
    · exact .inr hf

/-- Applying what does not panic, or catching the panic, keeps the engine. -/
theorem apply_keeps (s : Sys) (c : Collaction) (h : s.catches = true ∨ ∀ a ∈ c, ¬ IsStateWrite a) :
    (s.apply c).1 = s := by
  have hf := Engine.applyCollaction_fst s.realm c
  have hn : s.catches = true ∨ ∀ m : String, (Engine.applyCollaction s.realm c).2 ≠ .panicked m := by
    rcases h with h | h
    · exact .inl h
    · refine .inr fun m e => ?_
      rcases C24_assertions s.realm c h with ⟨_, h2⟩ | ⟨_, h2⟩ <;> rw [h2] at e <;> simp at e
  unfold Sys.apply
  revert hf hn
  generalize Engine.applyCollaction s.realm c = p
  rcases p with ⟨r, res⟩
  rintro rfl hn
  cases res with
  | accepted c => rfl
  | rejected c => rfl
  | panicked m =>
    rcases hn with hn | hn
    · simp only
      rw [if_pos hn]
    · exact absurd rfl (hn m)

theorem client_keeps (s : Sys) (i : Nat) : (s.step (.client i)).1.alive = s.alive ∧ (s.step (.client i)).1.realm = s.realm := by
  simp only [Sys.step, Sys.clientStep]
  cases s.clients[i]? with
  | none => exact ⟨rfl, rfl⟩
  | some cl =>
    rcases cl with ⟨prog, l⟩
    cases prog with
    | nil => cases l <;> exact ⟨rfl, rfl⟩
    | cons op rest =>
      simp only
      by_cases ha : s.alive = true
      · rw [if_pos ha]
        by_cases hr : s.hasRoom = true
        · rw [if_pos hr]; exact ⟨rfl, rfl⟩
        · rw [if_neg hr]
          cases op with
          | trySend c => exact ⟨rfl, rfl⟩
          | send c =>
            simp only
            by_cases hp : s.parked.contains i = true
            · rw [if_pos hp]; exact ⟨rfl, rfl⟩
            · rw [if_neg hp]; exact ⟨rfl, rfl⟩
      · rw [if_neg ha]; exact ⟨rfl, rfl⟩

theorem catches_step (s : Sys) (e : Ev) : (s.step e).1.catches = s.catches := by
  have H := shape s e
  generalize (s.step e).1 = s' at *
  generalize (s.step e).2 = o at *
  cases H with
  | applied i c q s' ha hq hs => cases hs <;> rfl
  | handed i op rest l s' ha hq hc h hs => cases hs <;> rfl
  | _ => rfl

/-- The engine survives an event, unless its owner drops it, if panics are caught or nobody writes. -/
theorem alive_step (s : Sys) (e : Ev) (he : e ≠ .dropEngine) (ha : s.alive = true)
    (h : s.catches = true ∨ ∀ c : Collaction, InFlight s c → ∀ a ∈ c, ¬ IsStateWrite a) : (s.step e).1.alive = true := by
  have hrecv : ∀ (m : Option Nat) (o : Out), (s.recv m o).1.alive = true := by
    intro m o
    unfold Sys.recv
    cases hq : s.queue with
    | cons p q =>
      rcases p with ⟨i, c⟩
      have k := apply_keeps { s with queue := q } c (h.imp id fun h => h c (.inl ⟨i, by rw [hq]; simp⟩))
      have e : (Sys.apply { s with queue := q } c).1.alive = true := by rw [k]; exact ha
      exact e
    | nil =>
      have ht : ∀ (i : Nat) (b : Bool) (c : Collaction) (s1 : Sys), s.takeFrom i b = some (c, s1) → (s1.apply c).1.alive = true := by
        intro i b c s1 ht
        obtain ⟨op, rest, l, g1, rfl, rfl⟩ := takeFrom_some ht
        have k := apply_keeps (s.advance i rest) op.coll (h.imp id fun h => h _ (.inr ⟨_, List.mem_of_getElem? g1, op, by simp, rfl⟩))
        rw [k]; exact ha
      simp only
      split
      · split
        · split
          · rename_i ht'; exact ht _ _ _ _ ht'
          · exact ha
        · split
          · split
            · rename_i ht'; exact ht _ _ _ _ ht'
            · exact ha
          · exact ha
      · exact ha
  cases e with
  | client i =>
    rw [(client_keeps s i).1]; exact ha
  | tryApply => simp only [Sys.step, ha, if_true]; exact hrecv _ _
  | applyTimeout m => simp only [Sys.step, ha, if_true]; exact hrecv _ _
  | tick d => simp only [Sys.step, ha, if_true]
  | edit k op => simp only [Sys.step, ha, if_true]
  | dropEngine => exact absurd rfl he

theorem alive_run (es : List Ev) : ∀ s : Sys, .dropEngine ∉ es → s.alive = true →
    (s.catches = true ∨ ∀ c : Collaction, InFlight s c → ∀ a ∈ c, ¬ IsStateWrite a) → (s.run es).1.alive = true := by
  induction es with
  | nil => intro s _ h _; exact h
  | cons e es ih =>
    intro s hd ha h
    simp only [Sys.run]
    refine ih _ (fun hm => hd (List.mem_cons_of_mem _ hm)) (alive_step s e (fun he => hd (by simp [he])) ha h) ?_
    rw [catches_step]
    exact h.imp id fun h c hc => h c (inflight_step s e c hc)

/-- **C96, partial.** The property holds if the thread that runs the engine catches panics, or if no thread ever sends a state
write: the engine then stays as long as its owner keeps it, and everything handed over is applied or queued, whoever sent it.
Missing, and false: the same without this condition. -/
theorem C96_isolation_partial (r : Realm) (cap : Option Nat) (catches : Bool) (progs : List (List SOp)) (es : List Ev) (s : Sys) (os : List Out)
    (h : (Sys.start r cap catches progs).run es = (s, os)) (hd : .dropEngine ∉ es)
    (hc : catches = true ∨ ∀ p ∈ progs, NoWrites p) :
    s.alive = true ∧ (∀ i : Nat, only i (handedOver os) = only i (appliedBy os) ++ only i s.queue) ∧
    ∀ (i : Nat) (c : Collaction), Out.refused i c ∉ os := by
  have hstart : (Sys.start r cap catches progs).catches = true ∨
      ∀ c : Collaction, InFlight (Sys.start r cap catches progs) c → ∀ a ∈ c, ¬ IsStateWrite a := by
    refine hc.imp id fun hc c hf => ?_
    rcases hf with ⟨i, hi⟩ | ⟨cl, hcl, op, hop, rfl⟩
    · simp [Sys.start] at hi
    · simp only [Sys.start, List.mem_map] at hcl
      obtain ⟨p, hp, rfl⟩ := hcl
      exact hc p hp op hop
  have ha := alive_run es _ hd rfl hstart
  rw [h] at ha
  refine ⟨ha, ((C95_order r cap catches progs es s os h).1 ha).2, ?_⟩
  have key : ∀ (es : List Ev) (s : Sys), (s.run es).1.alive = true → ∀ (i : Nat) (c : Collaction), Out.refused i c ∉ (s.run es).2 := by
    intro es
    induction es with
    | nil => intro s _ i c; simp [Sys.run]
    | cons e es ih =>
      intro s hs i c hm
      simp only [Sys.run] at hs hm
      rcases List.mem_cons.1 hm with hm' | hm'
      · have hal : s.alive = false := by
          have H := shape s e
          rw [← hm'] at H
          generalize (s.step e).1 = s' at *
          cases H with
          | refused _ _ _ _ _ ha => exact ha
          | quiet r o ho => simp [Out.quiet] at ho
        have h1 := ((queue_step s e).2.2 hal).1
        have h2 := ((queue_run es (s.step e).1).2.2 h1).1
        rw [h2] at hs; simp at hs
      · exact ih _ hs i c hm'
  intro i c
  have := key es (Sys.start r cap catches progs) (by rw [h]; exact ha) i c
  rw [h] at this
  exact this

/-- **C96, partial.** Nor can other threads change the verdict on a collaction: as long as nobody edits the fork directly, every
collaction without state writes that the engine applies is accepted exactly if its assertions hold of the fork the engine started
with, and rejected otherwise. -/
theorem C96_verdict_partial (r : Realm) (cap : Option Nat) (catches : Bool) (progs : List (List SOp)) (es : List Ev) (s : Sys) (os : List Out)
    (h : (Sys.start r cap catches progs).run es = (s, os)) (he : ∀ op : BOp, .edit .fork op ∉ es)
    (i : Nat) (c : Collaction) (hc : ∀ a ∈ c, ¬ IsStateWrite a) (res : CResult)
    (ho : Out.applied i c res ∈ os ∨ Out.handed i c res ∈ os) :
    ((∀ a ∈ c, Passes r.fork a) ∧ res = .accepted c) ∨ ((¬ ∀ a ∈ c, Passes r.fork a) ∧ res = .rejected c) := by
  have hap : ∀ (s : Sys) (c : Collaction), (s.apply c).1.realm = s.realm := by
    intro s c
    have hf := Engine.applyCollaction_fst s.realm c
    unfold Sys.apply
    revert hf
    generalize Engine.applyCollaction s.realm c = p
    rcases p with ⟨r, res⟩
    rintro rfl
    cases res with
    | accepted c => rfl
    | rejected c => rfl
    | panicked m => simp only; split <;> rfl
  have hrecv : ∀ (s : Sys) (m : Option Nat) (o : Out), (s.recv m o).1.realm = s.realm := by
    intro s m o
    unfold Sys.recv
    have ht : ∀ (i : Nat) (b : Bool) (c : Collaction) (s1 : Sys), s.takeFrom i b = some (c, s1) → (s1.apply c).1.realm = s.realm := by
      intro i b c s1 ht
      obtain ⟨op, rest, l, _, rfl, rfl⟩ := takeFrom_some ht
      rw [hap]; rfl
    cases hq : s.queue with
    | cons p q => rcases p with ⟨i, c⟩; exact (hap _ _)
    | nil =>
      simp only
      split
      · split
        · split
          · rename_i ht'; exact ht _ _ _ _ ht'
          · rfl
        · split
          · split
            · rename_i ht'; exact ht _ _ _ _ ht'
            · rfl
          · rfl
      · rfl
  have hfork : ∀ (s : Sys) (e : Ev), (∀ op : BOp, e ≠ .edit .fork op) → (s.step e).1.realm.fork = s.realm.fork := by
    intro s e hne
    cases e with
    | client i =>
      rw [(client_keeps s i).2]
    | tryApply => simp only [Sys.step]; split; rw [hrecv]; rfl
    | applyTimeout m => simp only [Sys.step]; split; rw [hrecv]; rfl
    | tick d => simp only [Sys.step]; split <;> rfl
    | edit k op =>
      cases k with
      | fork => exact absurd rfl (hne op)
      | main => simp only [Sys.step]; split <;> rfl
    | dropEngine => simp only [Sys.step]; split <;> rfl
  have key : ∀ (es : List Ev) (s : Sys), s.realm.fork = r.fork → (∀ op : BOp, .edit .fork op ∉ es) →
      (Out.applied i c res ∈ (s.run es).2 ∨ Out.handed i c res ∈ (s.run es).2) →
      ∃ r' : Realm, r'.fork = r.fork ∧ res = (Engine.applyCollaction r' c).2 := by
    intro es
    induction es with
    | nil => intro s _ _ h; simp [Sys.run] at h
    | cons e es ih =>
      intro s hs hn hm
      simp only [Sys.run, List.mem_cons] at hm
      have cont : (Out.applied i c res ∈ ((s.step e).1.run es).2 ∨ Out.handed i c res ∈ ((s.step e).1.run es).2) →
          ∃ r' : Realm, r'.fork = r.fork ∧ res = (Engine.applyCollaction r' c).2 :=
        ih _ ((hfork s e (fun op h => hn op (by simp [h]))).trans hs) (fun op h => hn op (by simp [h]))
      have H := shape s e
      rcases hm with (hm | hm) | (hm | hm)
      · rw [← hm] at H
        generalize (s.step e).1 = s' at *
        cases H with
        | quiet r o ho => simp [Out.quiet] at ho
        | applied i c q s' ha hq h => exact ⟨s.realm, hs, rfl⟩
      · exact cont (.inl hm)
      · rw [← hm] at H
        generalize (s.step e).1 = s' at *
        cases H with
        | quiet r o ho => simp [Out.quiet] at ho
        | handed i op rest l s' ha hq hc h hh => exact ⟨s.realm, hs, rfl⟩
      · exact cont (.inr hm)
  have hm : Out.applied i c res ∈ ((Sys.start r cap catches progs).run es).2 ∨
      Out.handed i c res ∈ ((Sys.start r cap catches progs).run es).2 := by rw [h]; exact ho
  obtain ⟨r', h1, h2⟩ := key es (Sys.start r cap catches progs) rfl he hm
  rcases C24_assertions r' c hc with ⟨g1, g2⟩ | ⟨g1, g2⟩
  · left; rw [g2] at h2; rw [← h1]; exact ⟨g1, h2⟩
  · right; rw [g2] at h2; rw [← h1]; exact ⟨g1, h2⟩

/-- A collaction that writes a state. -/
def aWrite : Collaction := [.state (.write ⟨.prim .u8, h1⟩ (.primitive (.u8 9)))]

/-- **C96** (false of the code): one thread's state write takes the engine down with it.  The other thread's collaction, whose send had
returned `Ok`, is never applied, and its next one is refused — whatever happens afterwards. -/
theorem C96_negation :
    ¬ OthersCannotHarm ∧
    ∃ (s : Sys) (os : List Out),
      (Sys.start demoRealm none false [[.send aWrite], [.send oneWrite, .send []]]).run [.client 0, .client 1, .tryApply, .client 1] = (s, os) ∧
      os = [.sent 0 aWrite, .sent 1 oneWrite, .applied 0 aWrite (.panicked "not yet implemented: Figure out how to swap"), .refused 1 []] ∧
      ∀ es : List Ev, appliedBy (s.run es).2 = [] := by
  have hos : ((Sys.start demoRealm none false [[.send aWrite], [.send oneWrite, .send []]]).run
      [.client 0, .client 1, .tryApply, .client 1]).2 =
      [.sent 0 aWrite, .sent 1 oneWrite, .applied 0 aWrite (.panicked "not yet implemented: Figure out how to swap"), .refused 1 []] := by
    decide +kernel
  have hdead : ((Sys.start demoRealm none false [[.send aWrite], [.send oneWrite, .send []]]).run
      [.client 0, .client 1, .tryApply, .client 1]).1.alive = false := by decide +kernel
  have hqueue : ((Sys.start demoRealm none false [[.send aWrite], [.send oneWrite, .send []]]).run
      [.client 0, .client 1, .tryApply, .client 1]).1.queue = [] := by decide +kernel
  refine ⟨fun hall => ?_, _, _, rfl, hos, fun es => ((queue_run es _).2.2 hdead).2.2.2⟩
  have e := hall demoRealm none false [[.send aWrite], [.send oneWrite, .send []]] [.client 0, .client 1, .tryApply, .client 1] 1
    [.send oneWrite, .send []] ((Sys.start demoRealm none false [[.send aWrite], [.send oneWrite, .send []]]).run
      [.client 0, .client 1, .tryApply, .client 1]).1 ((Sys.start demoRealm none false [[.send aWrite], [.send oneWrite, .send []]]).run
      [.client 0, .client 1, .tryApply, .client 1]).2 rfl (by
      intro op hop a ha
      simp only [List.mem_cons, List.not_mem_nil, or_false] at hop
      rcases hop with rfl | rfl
      · simp only [SOp.coll, oneWrite, List.mem_singleton] at ha
        subst ha; rintro ⟨x, y, h⟩; simp at h
      · simp [SOp.coll] at ha) rfl (by simp)
  rw [hos, hqueue] at e
  revert e
  decide +kernel

example : NoWrites [.send oneWrite, .trySend []] := by
  intro op hop a ha
  simp only [List.mem_cons, List.not_mem_nil, or_false] at hop
  rcases hop with rfl | rfl
  · simp only [SOp.coll, oneWrite, List.mem_singleton] at ha
    subst ha; rintro ⟨x, y, h⟩; simp at h
  · simp [SOp.coll] at ha

/-- With the panic caught, the other thread's collactions are applied. -/
example : ((Sys.start demoRealm none true [[.send aWrite], [.send oneWrite, .send []]]).run
      [.client 0, .client 1, .tryApply, .client 1, .tryApply, .tryApply]).2 =
    [.sent 0 aWrite, .sent 1 oneWrite, .applied 0 aWrite (.panicked "not yet implemented: Figure out how to swap"), .sent 1 [],
     .applied 1 oneWrite (.accepted oneWrite), .applied 1 [] (.accepted [])] := by decide +kernel

/-! ## C97 -/

/-- **The full property C97:** a thread that owns both the sender and the engine can send all it has to send and apply it afterwards:
if the thread gets its turns, every `send` returns. -/
def SendFirstApplyLater : Prop :=
  ∀ (r : Realm) (cap : Option Nat) (p : List SOp), ∃ k : Nat, ∀ m : Nat, k ≤ m →
    answersTo 0 ((Sys.start r cap false [p]).run (List.replicate m (.client 0))).2 = p.map SOp.coll

/-- **C97, partial.** It holds if the queue is unbounded or has room for everything: each `send` returns at once, and as many calls
of `try_apply` then apply the collactions (without state writes) in order, each with the verdict it deserves.  Missing, and false:
more `send`s than places. -/
theorem C97_enough_room_partial (r : Realm) (cap : Option Nat) (p : List SOp) (hroom : ∀ n : Nat, cap = some n → p.length ≤ n)
    (hw : NoWrites p) :
    ((Sys.start r cap false [p]).run (List.replicate p.length (.client 0) ++ List.replicate p.length .tryApply)).2 =
      p.map (fun op => .sent 0 op.coll) ++ p.map (fun op => .applied 0 op.coll (Engine.applyCollaction r op.coll).2) := by
  have sends : ∀ (p : List SOp) (s : Sys), s.alive = true → s.clients = [⟨p, true⟩] →
      (∀ n : Nat, s.cap = some n → s.queue.length + p.length ≤ n) →
      (s.run (List.replicate p.length (.client 0))).2 = p.map (fun op => .sent 0 op.coll) ∧
      (s.run (List.replicate p.length (.client 0))).1.alive = true ∧
      (s.run (List.replicate p.length (.client 0))).1.realm = s.realm ∧
      (s.run (List.replicate p.length (.client 0))).1.catches = s.catches ∧
      (s.run (List.replicate p.length (.client 0))).1.queue = s.queue ++ p.map (fun op => (0, op.coll)) := by
    intro p
    induction p with
    | nil => intro s ha _ _; exact ⟨rfl, ha, rfl, rfl, by simp [Sys.run]⟩
    | cons op p ih =>
      intro s ha hc hr
      have hroom : s.hasRoom = true := by
        unfold Sys.hasRoom
        cases hcap : s.cap with
        | none => rfl
        | some n => have := hr n hcap; simp only [List.length_cons] at this; simp; omega
      have e1 : s.step (.client 0) = ({ s.advance 0 p with queue := s.queue ++ [(0, op.coll)] }, .sent 0 op.coll) := by
        simp [Sys.step, Sys.clientStep, hc, ha, hroom, Sys.advance]
      obtain ⟨a1, a2, a3, a4, a5⟩ := ih { s.advance 0 p with queue := s.queue ++ [(0, op.coll)] } ha (by simp [Sys.advance, hc])
        (fun n hn => by have := hr n hn; simp only [List.length_cons] at this; simp; omega)
      simp only [List.length_cons, List.replicate_succ, Sys.run, e1, List.map_cons]
      exact ⟨by rw [a1], a2, a3, a4, by rw [a5]; simp⟩
  have applies : ∀ (q : List (Nat × Collaction)) (s : Sys), s.alive = true → s.queue = q →
      (∀ x ∈ q, ∀ a ∈ x.2, ¬ IsStateWrite a) →
      (s.run (List.replicate q.length .tryApply)).2 = q.map (fun x => .applied x.1 x.2 (Engine.applyCollaction s.realm x.2).2) := by
    intro q
    induction q with
    | nil => intro s _ _ _; rfl
    | cons x q ih =>
      intro s ha hq hw
      rcases x with ⟨i, c⟩
      have k := apply_keeps { s with queue := q } c (.inr (hw (i, c) (by simp)))
      have ko := apply_out { s with queue := q } c
      have e1 : s.step .tryApply = ({ s with queue := q }, .applied i c (Engine.applyCollaction s.realm c).2) := by
        simp only [Sys.step, ha, if_true, Sys.recv, hq]
        have kk : Sys.apply { s with queue := q } c = ({ s with queue := q }, (Engine.applyCollaction s.realm c).2) := Prod.ext k ko
        rw [ha] at kk
        rw [kk]
      have a1 := ih { s with queue := q } ha rfl (fun x hx => hw x (by simp [hx]))
      simp only [List.length_cons, List.replicate_succ, Sys.run, e1, List.map_cons]
      rw [a1]
  obtain ⟨a1, a2, a3, a4, a5⟩ := sends p (Sys.start r cap false [p]) rfl rfl (by simpa [Sys.start] using hroom)
  rw [(run_append _ _ _).2, a1]
  have hl : p.length = (((Sys.start r cap false [p]).run (List.replicate p.length (.client 0))).1.queue).length := by
    rw [a5]; simp [Sys.start]
  have b := applies _ ((Sys.start r cap false [p]).run (List.replicate p.length (.client 0))).1 a2 rfl (by
    rw [a5]
    intro x hx
    simp only [Sys.start, List.nil_append, List.mem_map] at hx
    obtain ⟨op, hop, rfl⟩ := hx
    exact hw op hop)
  rw [← hl] at b
  rw [b, a5, a3]
  simp [Sys.start, Function.comp_def]

/-- **C97** (false of the code), in general: with `n` places and more than `n` sends, whatever turns the thread gets, it is never
answered more than `n` times: it waits for the engine that only it could run. -/
theorem C97_negation_waits_for_ever (r : Realm) (n : Nat) (cs : List Collaction) (hn : n < cs.length) (es : List Ev)
    (he : ∀ e ∈ es, ∃ i : Nat, e = .client i) :
    (answersTo 0 ((Sys.start r (some n) false [cs.map .send]).run es).2).length ≤ n := by
  have key : ∀ (es : List Ev) (s : Sys) (cs : List Collaction), (∀ e ∈ es, ∃ i : Nat, e = .client i) → s.alive = true →
      s.cap = some n → s.clients = [⟨cs.map .send, true⟩] → s.queue.length ≤ n → n < s.queue.length + cs.length →
      s.queue.length + (answersTo 0 (s.run es).2).length ≤ n := by
    intro es
    induction es with
    | nil => intro s cs _ _ _ _ h _; simpa [Sys.run, answersTo] using h
    | cons e es ih =>
      intro s cs he ha hcap hc hq hl
      obtain ⟨i, rfl⟩ := he e (by simp)
      have he' : ∀ e ∈ es, ∃ i : Nat, e = .client i := fun e h => he e (by simp [h])
      simp only [Sys.run]
      rw [answersTo_cons]
      cases i with
      | succ i =>
        have e1 : s.step (.client (i + 1)) = (s, .idle) := by simp [Sys.step, Sys.clientStep, hc]
        rw [e1]
        simpa [answersTo] using ih s cs he' ha hcap hc hq hl
      | zero =>
        cases cs with
        | nil => simp at hl; omega
        | cons c cs =>
          by_cases hroom : s.queue.length < n
          · have hr : s.hasRoom = true := by simp [Sys.hasRoom, hcap, hroom]
            have e1 : s.step (.client 0) = ({ s.advance 0 (cs.map .send) with queue := s.queue ++ [(0, c)] }, .sent 0 c) := by
              simp [Sys.step, Sys.clientStep, hc, ha, hr, Sys.advance, SOp.coll]
            rw [e1]
            have k := ih { s.advance 0 (cs.map .send) with queue := s.queue ++ [(0, c)] } cs he' ha hcap (by simp [Sys.advance, hc])
              (by simp; omega) (by simp at hl ⊢; omega)
            simp only [List.length_append, List.length_cons, List.length_nil] at k
            simp only [answersTo, if_true, List.append_nil, List.length_append, List.length_cons, List.length_nil]
            omega
          · have hr : s.hasRoom = false := by simp [Sys.hasRoom, hcap]; omega
            by_cases hp : s.parked.contains 0 = true
            · have e1 : s.step (.client 0) = (s, .waits 0) := by
                simp only [Sys.step, Sys.clientStep, hc, List.map_cons, List.getElem?_cons_zero, ha, if_true, hr, Bool.false_eq_true, if_false, hp]
              rw [e1]
              simpa [answersTo] using ih s (c :: cs) he' ha hcap hc hq hl
            · have e1 : s.step (.client 0) = ({ s with parked := s.parked ++ [0] }, .waits 0) := by
                simp only [Sys.step, Sys.clientStep, hc, List.map_cons, List.getElem?_cons_zero, ha, if_true, hr, Bool.false_eq_true, if_false, hp]
              rw [e1]
              simpa [answersTo] using ih { s with parked := s.parked ++ [0] } (c :: cs) he' ha hcap hc hq hl
  have := key es (Sys.start r (some n) false [cs.map .send]) cs he rfl rfl rfl (by simp [Sys.start]) (by simpa [Sys.start] using hn)
  simpa [Sys.start] using this

/-- **C97** (false of the code): with `Engine::new(realm, Some(0))` the first `send` already waits for ever. -/
theorem C97_negation : ¬ SendFirstApplyLater := by
  intro hall
  obtain ⟨k, hk⟩ := hall demoRealm (some 0) [.send []]
  have h1 := hk k (Nat.le_refl k)
  have h2 := C97_negation_waits_for_ever demoRealm 0 [[]] (by simp) (List.replicate k (.client 0))
    (fun e he => ⟨0, (List.eq_of_mem_replicate he)⟩)
  simp only [List.map_cons, List.map_nil] at h2
  rw [h1] at h2
  simp at h2

example : ((Sys.start demoRealm (some 2) false [[.send oneWrite, .send []]]).run [.client 0, .client 0, .tryApply, .tryApply]).2 =
    [.sent 0 oneWrite, .sent 0 [], .applied 0 oneWrite (.accepted oneWrite), .applied 0 [] (.accepted [])] := by decide +kernel

example : ((Sys.start demoRealm (some 1) false [[.send oneWrite, .send []]]).run [.client 0, .client 0, .client 0, .client 0]).2 =
    [.sent 0 oneWrite, .waits 0, .waits 0, .waits 0] := by decide +kernel

end Verif.Props
