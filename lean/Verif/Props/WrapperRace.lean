import Verif.Model.WrapperRace
/-!
# C81: a wrapper used by several threads
-/
namespace Verif.Props
open Verif
variable {P : Type}

/-- Specification: how many calls took the native object, that is, freed it (`Dispose`) or got it to free it themselves
(`StealInner`).  It should be one. -/
def takers (rs : List (WRes P)) : Nat :=
  rs.countP fun r => match r with
    | .dropped _ => true
    | .returned _ => true
    | _ => false

/-- The thread has taken the object `p`. -/
def Took (p : P) : Pc P → Prop
  | .clearing (.dropped q) => q = p
  | .clearing (.returned q) => q = p
  | .done (.dropped q) => q = p
  | .done (.returned q) => q = p
  | _ => False

/-- Before the object has been cleared no call is over, and a call past its reading step has taken the object; afterwards
some call has. -/
def RaceInv (p : P) (own : Ownership) (s : RaceCfg P) : Prop :=
  s.w.own = own ∧
  ((s.w.inner = some p ∧ ∀ x ∈ s.threads, x.2 = .start ∨ x.2 = .checked ∨ (∃ r, x.2 = .clearing r ∧
      (r = .dropped p ∨ r = .returned p ∨ r = .nothing ∧ own ≠ .owned))) ∨
    (s.w.inner = none ∧ (own = .owned → ∃ x ∈ s.threads, Took p x.2))) ∧
  ∀ x ∈ s.threads, (∀ q, x.2 = .clearing (.dropped q) ∨ x.2 = .done (.dropped q) → q = p ∧ x.1 = .dispose ∧ own = .owned) ∧
    (∀ q, x.2 = .clearing (.returned q) ∨ x.2 = .done (.returned q) → q = p ∧ x.1 = .steal) ∧
    (x.2 = .checked → x.1 = .dispose ∧ own = .owned)

theorem raceInv_step (p : P) (own : Ownership) (s : RaceCfg P) (h : RaceInv p own s) (t : Nat) : RaceInv p own (s.step t) := by
  obtain ⟨ho, hi, hx⟩ := h
  unfold RaceCfg.step
  cases ht : s.threads[t]? with
  | none => exact ⟨ho, hi, hx⟩
  | some y =>
    obtain ⟨c, pc⟩ := y
    simp only
    have hmem := List.mem_of_getElem? ht
    have hlt : t < s.threads.length := (List.getElem?_eq_some_iff.1 ht).1
    have hme : (c, (raceStep s.w c pc).2) ∈ s.threads.set t (c, (raceStep s.w c pc).2) :=
      List.mem_of_getElem? (by rw [List.getElem?_set_self hlt])
    have hset : ∀ (z : RCall × Pc P), z ∈ s.threads.set t (c, (raceStep s.w c pc).2) → z ∈ s.threads ∨ z = (c, (raceStep s.w c pc).2) :=
      fun z hz => List.mem_or_eq_of_mem_set hz
    obtain ⟨hd, hr, hc⟩ := hx _ hmem
    refine ⟨?_, ?_, ?_⟩
    · cases pc <;> simp only [raceStep]
      · cases c <;> simp only
        · exact ho
        · cases s.w.inner <;> exact ho
      · cases s.w.inner <;> exact ho
      · exact ho
      · exact ho
    · rcases hi with ⟨hi, hall⟩ | ⟨hi, hex⟩
      · have hpc := hall _ hmem
        simp only at hpc
        cases pc with
        | start =>
          left
          cases c with
          | dispose =>
            simp only [raceStep, hi, Option.isSome_some, and_true]
            refine ⟨trivial, fun z hz => ?_⟩
            rcases List.mem_or_eq_of_mem_set hz with hz | rfl
            · exact hall z hz
            · simp only
              by_cases hw : s.w.own = .owned
              · simp [hw]
              · rw [if_neg hw]; exact .inr (.inr ⟨_, rfl, .inr (.inr ⟨rfl, by rw [← ho]; exact hw⟩)⟩)
          | steal =>
            simp only [raceStep, hi]
            refine ⟨trivial, fun z hz => ?_⟩
            rcases List.mem_or_eq_of_mem_set hz with hz | rfl
            · exact hall z hz
            · exact .inr (.inr ⟨_, rfl, .inr (.inl rfl)⟩)
        | checked =>
          left
          simp only [raceStep, hi]
          refine ⟨trivial, fun z hz => ?_⟩
          rcases List.mem_or_eq_of_mem_set hz with hz | rfl
          · exact hall z hz
          · exact .inr (.inr ⟨_, rfl, .inl rfl⟩)
        | clearing r =>
          right
          refine ⟨rfl, fun hown => ⟨_, hme, ?_⟩⟩
          simp only [raceStep]
          rcases hpc with h | h | ⟨r', h, h2⟩
          · cases h
          · cases h
          · injection h with h
            subst h
            rcases h2 with rfl | rfl | ⟨_, h2⟩
            · rfl
            · rfl
            · exact absurd hown h2
        | done r =>
          rcases hpc with h | h | ⟨r', h, _⟩ <;> cases h
      · right
        have hinner : (raceStep s.w c pc).1.inner = none := by
          cases pc with
          | start =>
            cases c with
            | dispose => simp only [raceStep]; exact hi
            | steal => simp only [raceStep, hi]
          | checked => simp only [raceStep, hi]
          | clearing r => rfl
          | done r => exact hi
        refine ⟨hinner, fun hown => ?_⟩
        obtain ⟨x, hxm, hxt⟩ := hex hown
        obtain ⟨j, hj⟩ := List.mem_iff_getElem?.1 hxm
        by_cases hjt : t = j
        · subst hjt
          rw [ht] at hj
          injection hj with hj
          subst hj
          refine ⟨_, hme, ?_⟩
          simp only at hxt
          cases pc with
          | start => cases hxt
          | checked => cases hxt
          | clearing r =>
            simp only [raceStep]
            cases r <;> first | exact hxt | cases hxt
          | done r => exact hxt
        · exact ⟨x, List.mem_of_getElem? (i := j) (by rw [List.getElem?_set_ne hjt]; exact hj), hxt⟩
    · intro z hz
      rcases hset z hz with hz | rfl
      · exact hx z hz
      · simp only
        have hin : ∀ q, s.w.inner = some q → q = p := by
          intro q hq
          rcases hi with ⟨hi, _⟩ | ⟨hi, _⟩
          · rw [hi] at hq; injection hq with hq; exact hq.symm
          · rw [hi] at hq; cases hq
        cases pc with
        | start =>
          cases c with
          | dispose =>
            simp only [raceStep]
            split
            · rename_i hw
              refine ⟨by simp, by simp, fun _ => ⟨trivial, by rw [← ho]; exact hw.1⟩⟩
            · simp
          | steal =>
            simp only [raceStep]
            cases hq : s.w.inner with
            | none => simp
            | some q =>
              simp only
              refine ⟨by simp, fun q' hq' => ?_, by simp⟩
              simp at hq'
              subst hq'
              exact ⟨hin _ hq, trivial⟩
        | checked =>
          simp only [raceStep]
          obtain ⟨h1, h2⟩ := hc rfl
          cases hq : s.w.inner with
          | none => simp
          | some q =>
            simp only
            refine ⟨fun q' hq' => ?_, by simp, by simp⟩
            simp at hq'
            subst hq'
            exact ⟨hin _ hq, h1, h2⟩
        | clearing r =>
          simp only [raceStep]
          refine ⟨fun q hq => ?_, fun q hq => ?_, by simp⟩
          · rcases hq with hq | hq
            · cases hq
            · injection hq with hq; subst hq; exact hd q (.inl rfl)
          · rcases hq with hq | hq
            · cases hq
            · injection hq with hq; subst hq; exact hr q (.inl rfl)
        | done r => exact ⟨hd, hr, hc⟩

theorem raceInv_init (p : P) (own : Ownership) (calls : List RCall) : RaceInv p own (RaceCfg.init p own calls) := by
  refine ⟨rfl, .inl ⟨rfl, ?_⟩, ?_⟩
  · intro x hx
    simp only [RaceCfg.init, List.mem_map] at hx
    obtain ⟨c, _, rfl⟩ := hx
    exact .inl rfl
  · intro x hx
    simp only [RaceCfg.init, List.mem_map] at hx
    obtain ⟨c, _, rfl⟩ := hx
    simp

theorem raceInv_run (p : P) (own : Ownership) (sched : List Nat) : ∀ (s : RaceCfg P), RaceInv p own s → RaceInv p own (s.run sched) := by
  induction sched with
  | nil => intro s h; exact h
  | cons t sched ih => intro s h; exact ih _ (raceInv_step p own s h t)

theorem race_length (sched : List Nat) : ∀ s : RaceCfg P, (s.run sched).threads.map Prod.fst = s.threads.map Prod.fst := by
  induction sched with
  | nil => intro s; rfl
  | cons t sched ih =>
    intro s
    have : (s.step t).threads.map Prod.fst = s.threads.map Prod.fst := by
      unfold RaceCfg.step
      cases ht : s.threads[t]? with
      | none => rfl
      | some y =>
        simp only
        apply List.ext_getElem?
        intro j
        rw [List.getElem?_map, List.getElem?_map]
        by_cases hj : t = j
        · subst hj
          rw [List.getElem?_set_self (List.getElem?_eq_some_iff.1 ht).1, ht]; rfl
        · rw [List.getElem?_set_ne hj]
    show ((s.step t).run sched).threads.map Prod.fst = _
    rw [ih, this]

theorem finished_get {s : RaceCfg P} {rs : List (WRes P)} (h : s.Finished rs) (j : Nat) :
    (s.threads[j]?).map Prod.snd = (rs[j]?).map Pc.done := by
  have := congrArg (fun l : List (Pc P) => l[j]?) h
  simpa only [List.getElem?_map] using this

/-! ## Schedules that reach every count -/

/-- The result of a call that takes the object. -/
def takeRes (p : P) : RCall → WRes P
  | .dispose => .dropped p
  | .steal => .returned p

/-- The result of a call that finds the wrapper empty. -/
def missRes : RCall → WRes P
  | .dispose => .nothing
  | .steal => .exception

/-- The steps of a call up to the reading of the pointer. -/
def readSteps (j : Nat) : RCall → List Nat
  | .dispose => [j, j]
  | .steal => [j]

theorem run_append (s : RaceCfg P) (a b : List Nat) : s.run (a ++ b) = (s.run a).run b := List.foldl_append

theorem set_get {α : Type} (l : List α) (t j : Nat) (x y : α) (h : l[t]? = some y) :
    (l.set t x)[j]? = if j = t then some x else l[j]? := by
  by_cases hj : j = t
  · subst hj; rw [List.getElem?_set_self (List.getElem?_eq_some_iff.1 h).1, if_pos rfl]
  · rw [List.getElem?_set_ne (fun e => hj e.symm), if_neg hj]

theorem step_get (s : RaceCfg P) (t j : Nat) (c : RCall) (pc : Pc P) (h : s.threads[t]? = some (c, pc)) :
    (s.step t).w = (raceStep s.w c pc).1 ∧
      (s.step t).threads[j]? = if j = t then some (c, (raceStep s.w c pc).2) else s.threads[j]? := by
  unfold RaceCfg.step
  rw [h]
  exact ⟨rfl, set_get _ _ _ _ _ h⟩

theorem read_one (p : P) (s : RaceCfg P) (hw : s.w = ⟨some p, .owned⟩) (c : RCall) (t : Nat) (h : s.threads[t]? = some (c, .start)) :
    (s.run (readSteps t c)).w = s.w ∧ ∀ j : Nat, (s.run (readSteps t c)).threads[j]? =
      if j = t then some (c, .clearing (takeRes p c)) else s.threads[j]? := by
  cases c with
  | steal =>
    refine ⟨?_, fun j => ?_⟩
    · show (s.step t).w = s.w
      rw [(step_get s t t _ _ h).1]; simp [raceStep, hw]
    · show (s.step t).threads[j]? = _
      rw [(step_get s t j _ _ h).2]; simp [raceStep, hw, takeRes]
  | dispose =>
    have h1w : (s.step t).w = s.w := by rw [(step_get s t t _ _ h).1]; simp [raceStep]
    have h1 : ∀ j : Nat, (s.step t).threads[j]? = if j = t then some (.dispose, .checked) else s.threads[j]? := by
      intro j; rw [(step_get s t j _ _ h).2]; simp [raceStep, hw]
    have h2 := h1 t
    rw [if_pos rfl] at h2
    refine ⟨?_, fun j => ?_⟩
    · show ((s.step t).step t).w = s.w
      rw [(step_get _ t t _ _ h2).1, h1w]; simp [raceStep, hw]
    · show ((s.step t).step t).threads[j]? = _
      rw [(step_get _ t j _ _ h2).2, h1w, h1]
      by_cases hj : j = t <;> simp [hj, raceStep, hw, takeRes]

theorem read_all (p : P) (c : Nat → RCall) (ids : List Nat) : ∀ (s : RaceCfg P), ids.Nodup → s.w = ⟨some p, .owned⟩ →
    (∀ j ∈ ids, s.threads[j]? = some (c j, .start)) →
    (s.run (ids.flatMap fun j => readSteps j (c j))).w = s.w ∧
    ∀ j : Nat, (s.run (ids.flatMap fun j => readSteps j (c j))).threads[j]? =
      if j ∈ ids then some (c j, .clearing (takeRes p (c j))) else s.threads[j]? := by
  induction ids with
  | nil => intro s _ _ _; exact ⟨rfl, fun j => by simp [RaceCfg.run]⟩
  | cons t ids ih =>
    intro s hnd hw hst
    obtain ⟨hnt, hnd⟩ := List.nodup_cons.1 hnd
    obtain ⟨h1, h2⟩ := read_one p s hw (c t) t (hst t (by simp))
    obtain ⟨h3, h4⟩ := ih (s.run (readSteps t (c t))) hnd (by rw [h1, hw]) (fun j hj => by
      rw [h2, if_neg (fun e : j = t => hnt (e ▸ hj))]; exact hst j (by simp [hj]))
    rw [List.flatMap_cons, run_append]
    refine ⟨h3.trans h1, fun j => ?_⟩
    rw [h4, h2]
    by_cases hj : j = t
    · subst hj; simp [hnt]
    · simp [hj]

theorem clear_all (c : Nat → RCall) (r : Nat → WRes P) (ids : List Nat) : ∀ (s : RaceCfg P), ids.Nodup →
    (∀ j ∈ ids, s.threads[j]? = some (c j, .clearing (r j))) →
    (s.run ids).w.own = s.w.own ∧ (s.run ids).w.inner = (if ids = [] then s.w.inner else none) ∧
    ∀ j : Nat, (s.run ids).threads[j]? = if j ∈ ids then some (c j, .done (r j)) else s.threads[j]? := by
  induction ids with
  | nil => intro s _ _; exact ⟨rfl, rfl, fun j => by simp [RaceCfg.run]⟩
  | cons t ids ih =>
    intro s hnd hst
    obtain ⟨hnt, hnd⟩ := List.nodup_cons.1 hnd
    have ht := hst t (by simp)
    obtain ⟨h1, h2, h3⟩ := ih (s.step t) hnd (fun j hj => by
      rw [(step_get s t j _ _ ht).2, if_neg (fun e : j = t => hnt (e ▸ hj))]; exact hst j (by simp [hj]))
    have hw := (step_get s t t _ _ ht).1
    refine ⟨?_, ?_, fun j => ?_⟩
    · show ((s.step t).run ids).w.own = _
      rw [h1, hw]; rfl
    · show ((s.step t).run ids).w.inner = _
      rw [h2, hw]; simp [raceStep]
    · show ((s.step t).run ids).threads[j]? = _
      rw [h3, (step_get s t j _ _ ht).2]
      by_cases hj : j = t
      · subst hj; simp [hnt, raceStep]
      · simp [hj]

theorem miss_one (s : RaceCfg P) (hw : s.w.inner = none) (c : RCall) (t : Nat) (h : s.threads[t]? = some (c, .start)) :
    (s.run [t, t, t]).w.inner = none ∧ ∀ j : Nat, (s.run [t, t, t]).threads[j]? =
      if j = t then some (c, .done (missRes c)) else s.threads[j]? := by
  have e : s.run [t, t, t] = ((s.step t).step t).step t := rfl
  rw [e]
  cases c with
  | steal =>
    have hw1 := (step_get s t t _ _ h).1
    have g1 : ∀ j : Nat, (s.step t).threads[j]? = if j = t then some (.steal, .done .exception) else s.threads[j]? := by
      intro j; rw [(step_get s t j _ _ h).2]; simp [raceStep, hw]
    have h1 := g1 t
    rw [if_pos rfl] at h1
    have hw2 := (step_get _ t t _ _ h1).1
    have g2 : ∀ j : Nat, ((s.step t).step t).threads[j]? = if j = t then some (.steal, .done .exception) else s.threads[j]? := by
      intro j; rw [(step_get _ t j _ _ h1).2, g1]; by_cases hj : j = t <;> simp [hj, raceStep]
    have h2 := g2 t
    rw [if_pos rfl] at h2
    refine ⟨?_, fun j => ?_⟩
    · rw [(step_get _ t t _ _ h2).1, hw2, hw1]; simp [raceStep, hw]
    · rw [(step_get _ t j _ _ h2).2, g2]; by_cases hj : j = t <;> simp [hj, raceStep, missRes]
  | dispose =>
    have hw1 := (step_get s t t _ _ h).1
    have g1 : ∀ j : Nat, (s.step t).threads[j]? = if j = t then some (.dispose, .clearing .nothing) else s.threads[j]? := by
      intro j; rw [(step_get s t j _ _ h).2]; simp [raceStep, hw]
    have h1 := g1 t
    rw [if_pos rfl] at h1
    have hw2 := (step_get _ t t _ _ h1).1
    have g2 : ∀ j : Nat, ((s.step t).step t).threads[j]? = if j = t then some (.dispose, .done .nothing) else s.threads[j]? := by
      intro j; rw [(step_get _ t j _ _ h1).2, g1]; by_cases hj : j = t <;> simp [hj, raceStep]
    have h2 := g2 t
    rw [if_pos rfl] at h2
    refine ⟨?_, fun j => ?_⟩
    · rw [(step_get _ t t _ _ h2).1, hw2]; simp [raceStep]
    · rw [(step_get _ t j _ _ h2).2, g2]; by_cases hj : j = t <;> simp [hj, raceStep, missRes]

theorem miss_all (c : Nat → RCall) (ids : List Nat) : ∀ (s : RaceCfg P), ids.Nodup → s.w.inner = none →
    (∀ j ∈ ids, s.threads[j]? = some (c j, .start)) →
    ∀ j : Nat, (s.run (ids.flatMap fun t => [t, t, t])).threads[j]? =
      if j ∈ ids then some (c j, .done (missRes (c j))) else s.threads[j]? := by
  induction ids with
  | nil => intro s _ _ _ j; simp [RaceCfg.run]
  | cons t ids ih =>
    intro s hnd hw hst j
    obtain ⟨hnt, hnd⟩ := List.nodup_cons.1 hnd
    obtain ⟨h1, h2⟩ := miss_one s hw (c t) t (hst t (by simp))
    rw [List.flatMap_cons, run_append, ih (s.run [t, t, t]) hnd h1 (fun j hj => by
      rw [h2, if_neg (fun e : j = t => hnt (e ▸ hj))]; exact hst j (by simp [hj])), h2]
    by_cases hj : j = t
    · subst hj; simp [hnt]
    · simp [hj]

/-- Threads `first` read one after the other, then clear; then threads `rest` run. -/
theorem race_schedule (p : P) (c : Nat → RCall) (first rest : List Nat) (s : RaceCfg P) (hnd : (first ++ rest).Nodup)
    (hne : first ≠ []) (hw : s.w = ⟨some p, .owned⟩) (hst : ∀ j ∈ first ++ rest, s.threads[j]? = some (c j, .start)) (j : Nat) :
    (s.run ((first.flatMap fun j => readSteps j (c j)) ++ first ++ rest.flatMap fun t => [t, t, t])).threads[j]? =
      if j ∈ first then some (c j, .done (takeRes p (c j))) else
        if j ∈ rest then some (c j, .done (missRes (c j))) else s.threads[j]? := by
  obtain ⟨n1, n2, n3⟩ := List.nodup_append.1 hnd
  obtain ⟨_, h2⟩ := read_all p c first s n1 hw (fun j hj => hst j (by simp [hj]))
  obtain ⟨_, h4, h5⟩ := clear_all c (fun j => takeRes p (c j)) first (s.run (first.flatMap fun j => readSteps j (c j))) n1
    (fun j hj => by rw [h2, if_pos hj])
  rw [if_neg hne] at h4
  rw [run_append, run_append, miss_all c rest _ n2 h4 (fun j hj => by
    have hjf : j ∉ first := fun hjf => n3 j hjf j hj rfl
    rw [h5, if_neg hjf, h2, if_neg hjf]; exact hst j (by simp [hj])), h5, h2]
  by_cases hj : j ∈ first
  · have : j ∉ rest := fun h => n3 j hj j h rfl
    simp [hj, this]
  · simp [hj]

/-! ## C81 -/

/-- **C81, partial.** Whatever the schedule of the threads that call `Dispose` and `StealInner` on one owning wrapper: when
all calls are over, at least one of them has taken the native object, so it does not leak; only the wrapped object is
ever taken, and only `Dispose` frees it.  That at most one takes it is missing (`C81_exact_negation`). -/
theorem C81_not_lost_partial (p : P) (calls : List RCall) (hne : calls ≠ []) (sched : List Nat) (rs : List (WRes P))
    (hf : ((RaceCfg.init p .owned calls).run sched).Finished rs) :
    1 ≤ takers rs ∧ rs.length = calls.length ∧
    (∀ q : P, WRes.dropped q ∈ rs ∨ WRes.returned q ∈ rs → q = p) ∧
    ∀ (j : Nat) (q : P), rs[j]? = some (.dropped q) → calls[j]? = some .dispose := by
  obtain ⟨_, h2, h3⟩ := raceInv_run p .owned sched _ (raceInv_init p .owned calls)
  have hfst : ((RaceCfg.init p .owned calls).run sched).threads.map Prod.fst = calls := by
    rw [race_length]; simp [RaceCfg.init, Function.comp_def]
  have hl : rs.length = calls.length := by
    have h1 := congrArg List.length hf
    have h2 := congrArg List.length hfst
    simp only [List.length_map] at h1 h2
    omega
  have hth : ∀ (j : Nat) (r : WRes P), rs[j]? = some r → ∃ c, ((RaceCfg.init p .owned calls).run sched).threads[j]? = some (c, .done r) ∧
      calls[j]? = some c := by
    intro j r hj
    have := finished_get hf j
    rw [hj] at this
    cases hx : ((RaceCfg.init p .owned calls).run sched).threads[j]? with
    | none => rw [hx] at this; cases this
    | some y =>
      rw [hx] at this
      obtain ⟨c, pc⟩ := y
      simp at this
      subst this
      refine ⟨c, rfl, ?_⟩
      have := congrArg (fun l : List RCall => l[j]?) hfst
      simp only [List.getElem?_map, hx] at this
      exact this.symm
  refine ⟨?_, hl, ?_, ?_⟩
  · have : ∃ x ∈ ((RaceCfg.init p .owned calls).run sched).threads, Took p x.2 := by
      rcases h2 with ⟨_, hall⟩ | ⟨_, h⟩
      · exfalso
        have h0 : 0 < rs.length := by rw [hl]; exact List.length_pos_iff.2 hne
        obtain ⟨c, hc, _⟩ := hth 0 rs[0] (List.getElem?_eq_getElem h0)
        rcases hall _ (List.mem_of_getElem? hc) with h | h | ⟨r, h, _⟩ <;> cases h
      · exact h rfl
    obtain ⟨x, hx, ht⟩ := this
    obtain ⟨j, hj⟩ := List.mem_iff_getElem?.1 hx
    have := finished_get hf j
    rw [hj] at this
    cases hr : rs[j]? with
    | none => rw [hr] at this; cases this
    | some r =>
      rw [hr] at this
      simp only [Option.map_some, Option.some.injEq] at this
      unfold takers
      rw [Nat.one_le_iff_ne_zero, Ne, List.countP_eq_zero]
      intro hz
      have := hz r (List.mem_of_getElem? hr)
      rename_i hpc
      rw [hpc] at ht
      cases r <;> first | exact this rfl | exact ht
  · intro q hq
    rcases hq with hq | hq
    · obtain ⟨j, hj⟩ := List.mem_iff_getElem?.1 hq
      obtain ⟨c, hc, _⟩ := hth j _ hj
      exact ((h3 _ (List.mem_of_getElem? hc)).1 q (.inr rfl)).1
    · obtain ⟨j, hj⟩ := List.mem_iff_getElem?.1 hq
      obtain ⟨c, hc, _⟩ := hth j _ hj
      exact ((h3 _ (List.mem_of_getElem? hc)).2.1 q (.inr rfl)).1
  · intro j q hj
    obtain ⟨c, hc, hcc⟩ := hth j _ hj
    have : c = .dispose := ((h3 _ (List.mem_of_getElem? hc)).1 q (.inr rfl)).2.1
    rw [hcc, this]

theorem init_get (p : P) (own : Ownership) (calls : List RCall) (j : Nat) (h : j < calls.length) :
    (RaceCfg.init p own calls).threads[j]? = some (calls.getD j .dispose, .start) := by
  simp [RaceCfg.init, List.getElem?_eq_getElem h, List.getD_eq_getElem?_getD]

theorem finished_of_get {s : RaceCfg P} {c : Nat → RCall} {f : Nat → WRes P} {n : Nat} (hl : s.threads.length = n)
    (h : ∀ j : Nat, j < n → s.threads[j]? = some (c j, .done (f j))) : s.Finished ((List.range n).map f) := by
  apply List.ext_getElem?
  intro j
  rw [List.getElem?_map, List.getElem?_map, List.getElem?_map]
  by_cases hj : j < n
  · rw [h j hj, List.getElem?_range hj]; rfl
  · rw [List.getElem?_eq_none (by omega), List.getElem?_eq_none (by simp; omega)]; rfl

theorem race_len (s : RaceCfg P) (sched : List Nat) : (s.run sched).threads.length = s.threads.length := by
  have := congrArg List.length (race_length sched s)
  simpa using this

theorem takers_range (p : P) (c : Nat → RCall) (S : Nat → Prop) [DecidablePred S] (n : Nat) :
    takers ((List.range n).map fun j => if S j then takeRes p (c j) else missRes (c j)) = (List.range n).countP (fun j => decide (S j)) := by
  unfold takers
  rw [List.countP_map]
  apply List.countP_congr
  intro j _
  simp only [Function.comp]
  by_cases h : S j
  · simp only [h, if_true, decide_true]; cases c j <;> simp [takeRes]
  · simp only [h, if_false, decide_false]; cases c j <;> simp [missRes]

theorem countP_range_lt (k n : Nat) (h : k ≤ n) : (List.range n).countP (fun j => decide (j < k)) = k := by
  induction n with
  | zero => simp; omega
  | succ n ih =>
    rw [List.range_succ, List.countP_append]
    by_cases hk : k ≤ n
    · rw [ih hk]; simp; omega
    · have hk' : k = n + 1 := by omega
      subst hk'
      have : (List.range n).countP (fun j => decide (j < n + 1)) = n := by
        rw [List.countP_eq_length.2 (fun j hj => by simp at hj ⊢; omega)]; simp
      rw [this]; simp

/-- **C81 is false of the code**, and exactly how false: `n` threads that each call `Dispose` or `StealInner` once on the same
owning wrapper can end with the object taken by any number of them from 1 to `n`. -/
theorem C81_exact_negation (p : P) (calls : List RCall) (hne : calls ≠ []) (k : Nat) :
    (∃ (sched : List Nat) (rs : List (WRes P)), ((RaceCfg.init p .owned calls).run sched).Finished rs ∧ takers rs = k) ↔
      1 ≤ k ∧ k ≤ calls.length := by
  constructor
  · rintro ⟨sched, rs, hf, rfl⟩
    obtain ⟨h1, h2, _⟩ := C81_not_lost_partial p calls hne sched rs hf
    exact ⟨h1, by rw [← h2]; exact List.countP_le_length⟩
  · rintro ⟨h1, h2⟩
    let c := fun j => calls.getD j .dispose
    let first := List.range k
    let rest := (List.range (calls.length - k)).map (k + ·)
    have hr : first ++ rest = List.range calls.length := by
      simp only [first, rest]
      rw [← List.range_add, Nat.add_sub_cancel' h2]
    have hmf : ∀ j : Nat, j ∈ first ↔ j < k := fun j => List.mem_range
    have hmr : ∀ j : Nat, j < calls.length → ¬ j < k → j ∈ rest := by
      intro j hj hk
      simp only [rest, List.mem_map, List.mem_range]
      exact ⟨j - k, by omega, by omega⟩
    have key := race_schedule p c first rest (RaceCfg.init p .owned calls) (by rw [hr]; exact List.nodup_range)
      (by simp only [first]; rw [Ne, List.range_eq_nil]; omega) rfl
      (fun j hj => init_get p .owned calls j (by rw [hr] at hj; exact List.mem_range.1 hj))
    refine ⟨(first.flatMap fun j => readSteps j (c j)) ++ first ++ rest.flatMap fun t => [t, t, t], _,
      finished_of_get (n := calls.length) (c := c) (f := fun j => if j < k then takeRes p (c j) else missRes (c j)) (by rw [race_len]; simp [RaceCfg.init])
      (fun j hj => ?_), ?_⟩
    · rw [key]
      by_cases hk : j < k
      · rw [if_pos ((hmf j).2 hk)]; simp [hk]
      · rw [if_neg (fun h => hk ((hmf j).1 h)), if_pos (hmr j hj hk)]; simp [hk]
    · rw [takers_range p c (· < k), countP_range_lt k _ h2]

/-- Two threads dispose the same wrapper: the object is freed twice; or one of them frees it and the other throws. -/
theorem C81_double_free_negation :
    ((RaceCfg.init (7 : Nat) .owned [.dispose, .dispose]).run [0, 1, 0, 1, 0, 1]).Finished [.dropped 7, .dropped 7] ∧
    ((RaceCfg.init (7 : Nat) .owned [.dispose, .dispose]).run [0, 1, 0, 0, 1]).Finished [.dropped 7, .exception] := by
  exact ⟨rfl, rfl⟩

theorem take_one (p : P) (s : RaceCfg P) (hw : s.w = ⟨some p, .owned⟩) (c : RCall) (t : Nat) (h : s.threads[t]? = some (c, .start)) :
    (s.run [t, t, t]).w.inner = none ∧ ∀ j : Nat, (s.run [t, t, t]).threads[j]? =
      if j = t then some (c, .done (takeRes p c)) else s.threads[j]? := by
  obtain ⟨_, h2⟩ := read_one p s hw c t h
  have h2t := h2 t
  rw [if_pos rfl] at h2t
  obtain ⟨_, h4, h5⟩ := clear_all (fun _ => c) (fun _ => takeRes p c) [t] (s.run (readSteps t c)) (by simp)
    (by simp [h2t])
  rw [if_neg (by simp)] at h4
  have h5' : ∀ j : Nat, ((s.run (readSteps t c)).run [t]).threads[j]? = if j = t then some (c, .done (takeRes p c)) else s.threads[j]? := by
    intro j; rw [h5, h2]; by_cases hj : j = t <;> simp [hj]
  cases c with
  | dispose => exact ⟨h4, h5'⟩
  | steal =>
    have ht := h5' t
    rw [if_pos rfl] at ht
    have e : s.run [t, t, t] = ((s.run (readSteps t .steal)).run [t]).step t := rfl
    rw [e]
    refine ⟨?_, fun j => ?_⟩
    · rw [(step_get _ t t _ _ ht).1]; exact h4
    · rw [(step_get _ t j _ _ ht).2, h5']; by_cases hj : j = t <;> simp [hj, raceStep]

/-- **C81, partial.** If the calls do not overlap, in whatever order `t :: order` the threads make them (a lock around every use
of the wrapper), then exactly one takes the object: the first. -/
theorem C81_serial_partial (p : P) (calls : List RCall) (t : Nat) (order : List Nat)
    (ho : (t :: order).Perm (List.range calls.length)) :
    ∃ rs, ((RaceCfg.init p .owned calls).run ((t :: order).flatMap fun i => [i, i, i])).Finished rs ∧ takers rs = 1 ∧
      (rs[t]? = some (.dropped p) ∨ rs[t]? = some (.returned p)) := by
  let c := fun j => calls.getD j .dispose
  have hm : ∀ j : Nat, j ∈ t :: order ↔ j < calls.length := fun j => by rw [ho.mem_iff, List.mem_range]
  have hnd : (t :: order).Nodup := ho.nodup_iff.2 List.nodup_range
  obtain ⟨hnt, hnd⟩ := List.nodup_cons.1 hnd
  have htl : t < calls.length := (hm t).1 (by simp)
  obtain ⟨h1, h2⟩ := take_one p (RaceCfg.init p .owned calls) rfl (c t) t (init_get p .owned calls t htl)
  have h3 := miss_all c order ((RaceCfg.init p .owned calls).run [t, t, t]) hnd h1 (fun j hj => by
    rw [h2, if_neg (fun e : j = t => hnt (e ▸ hj))]; exact init_get p .owned calls j ((hm j).1 (by simp [hj])))
  refine ⟨_, finished_of_get (n := calls.length) (c := c)
    (f := fun j => if j = t then takeRes p (c j) else missRes (c j)) (by rw [race_len]; simp [RaceCfg.init]) (fun j hj => ?_), ?_, ?_⟩
  · rw [List.flatMap_cons, run_append, h3, h2]
    by_cases hjt : j = t
    · subst hjt; simp [hnt]
    · have : j ∈ order := by
        have := (hm j).2 hj
        simp only [List.mem_cons] at this
        exact this.resolve_left hjt
      simp [hjt, this]
  · rw [takers_range p c (· = t)]
    have : (List.range calls.length).countP (fun j => decide (j = t)) = (List.range calls.length).count t := by
      unfold List.count; apply List.countP_congr; intro j _; simp
    rw [this, List.Nodup.count List.nodup_range, if_pos (List.mem_range.2 htl)]
  · rw [List.getElem?_map, List.getElem?_range htl]
    simp only [Option.map_some, if_true]
    cases c t
    · exact .inl rfl
    · exact .inr rfl

example : ∃ rs, ((RaceCfg.init (7 : Nat) .owned [.dispose, .steal, .dispose]).run [1, 1, 1, 2, 2, 2, 0, 0, 0]).Finished rs ∧ takers rs = 1 := by
  obtain ⟨rs, h1, h2, _⟩ := C81_serial_partial (7 : Nat) [.dispose, .steal, .dispose] 1 [2, 0] (by decide)
  exact ⟨rs, h1, h2⟩

example : ∃ (sched : List Nat) (rs : List (WRes Nat)),
    ((RaceCfg.init 7 .owned [.dispose, .steal, .dispose, .dispose]).run sched).Finished rs ∧ takers rs = 3 :=
  (C81_exact_negation 7 [.dispose, .steal, .dispose, .dispose] (by simp) 3).2 (by decide)

/-- **C81, partial.** A borrowing wrapper never frees the object, whatever the schedule. -/
theorem C81_borrower_partial (p : P) (own : Ownership) (ho : own ≠ .owned) (calls : List RCall) (sched : List Nat) (q : P)
    (rs : List (WRes P)) (hf : ((RaceCfg.init p own calls).run sched).Finished rs) : WRes.dropped q ∉ rs := by
  intro hq
  obtain ⟨_, _, h3⟩ := raceInv_run p own sched _ (raceInv_init p own calls)
  obtain ⟨j, hj⟩ := List.mem_iff_getElem?.1 hq
  have := finished_get hf j
  rw [hj] at this
  cases hx : ((RaceCfg.init p own calls).run sched).threads[j]? with
  | none => rw [hx] at this; cases this
  | some y =>
    rw [hx] at this
    obtain ⟨c, pc⟩ := y
    simp at this
    subst this
    exact ho ((h3 _ (List.mem_of_getElem? hx)).1 q (.inr rfl)).2.2

end Verif.Props
