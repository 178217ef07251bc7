import Verif.Model.Clients
/-!
# The shape of every event of the shared engine
-/
namespace Verif.Clients
open Verif

/-- What `apply` leaves behind: another realm, or the engine dropped. -/
inductive After (s : Sys) : Sys → Prop where
  | on (r : Realm) : After s { s with realm := r }
  | dead (r : Realm) : After s ({ s with realm := r } : Sys).kill

theorem apply_after (s : Sys) (c : Collaction) : After s (s.apply c).1 := by
  unfold Sys.apply
  generalize Engine.applyCollaction s.realm c = p
  rcases p with ⟨r, res⟩
  cases res with
  | accepted c => exact .on r
  | rejected c => exact .on r
  | panicked m =>
    simp only
    split
    · exact .on r
    · exact .dead r

/-- `apply` reports what `apply_collaction` reported. -/
theorem apply_out (s : Sys) (c : Collaction) : (s.apply c).2 = (Engine.applyCollaction s.realm c).2 := by
  unfold Sys.apply
  generalize Engine.applyCollaction s.realm c = p
  rcases p with ⟨r, res⟩
  cases res with
  | accepted c => rfl
  | rejected c => rfl
  | panicked m => simp only; split <;> rfl

/-- Outputs that are neither an answer to a client nor an application. -/
def Out.quiet : Out → Bool
  | .sent .. | .full .. | .refused .. | .applied .. | .handed .. => false
  | _ => true

/-- The kinds of event. -/
inductive Shape (s : Sys) : Sys → Out → Prop where
  | quiet (r : Realm) (o : Out) (ho : o.quiet = true) : Shape s { s with realm := r } o
  | drops (i : Nat) (h : s.clients[i]? = some ⟨[], true⟩) :
      Shape s { s with clients := s.clients.set i ⟨[], false⟩ } (.dropped i)
  | sent (i : Nat) (op : SOp) (rest : List SOp) (l : Bool) (h : s.clients[i]? = some ⟨op :: rest, l⟩) (ha : s.alive = true)
      (hr : s.hasRoom = true) : Shape s { s.advance i rest with queue := s.queue ++ [(i, op.coll)] } (.sent i op.coll)
  | full (i : Nat) (c : Collaction) (rest : List SOp) (l : Bool) (h : s.clients[i]? = some ⟨.trySend c :: rest, l⟩)
      (ha : s.alive = true) (hr : s.hasRoom = false) : Shape s (s.advance i rest) (.full i c)
  | refused (i : Nat) (op : SOp) (rest : List SOp) (l : Bool) (h : s.clients[i]? = some ⟨op :: rest, l⟩) (ha : s.alive = false) :
      Shape s (s.advance i rest) (.refused i op.coll)
  | parks (i : Nat) (c : Collaction) (rest : List SOp) (l : Bool) (h : s.clients[i]? = some ⟨.send c :: rest, l⟩)
      (ha : s.alive = true) (hr : s.hasRoom = false) (hp : i ∉ s.parked) :
      Shape s { s with parked := s.parked ++ [i] } (.waits i)
  | applied (i : Nat) (c : Collaction) (q : List (Nat × Collaction)) (s' : Sys) (ha : s.alive = true) (hq : s.queue = (i, c) :: q)
      (hs : After { s with queue := q } s') :
      Shape s s' (.applied i c (Engine.applyCollaction s.realm c).2)
  | handed (i : Nat) (op : SOp) (rest : List SOp) (l : Bool) (s' : Sys) (ha : s.alive = true) (hq : s.queue = [])
      (hc : s.cap = some 0) (h : s.clients[i]? = some ⟨op :: rest, l⟩) (hs : After (s.advance i rest) s') :
      Shape s s' (.handed i op.coll (Engine.applyCollaction s.realm op.coll).2)
  | kill (ha : s.alive = true) : Shape s s.kill .done

theorem takeFrom_some {s s1 : Sys} {i : Nat} {b : Bool} {c : Collaction} (h : s.takeFrom i b = some (c, s1)) :
    ∃ (op : SOp) (rest : List SOp) (l : Bool), s.clients[i]? = some ⟨op :: rest, l⟩ ∧ c = op.coll ∧ s1 = s.advance i rest := by
  unfold Sys.takeFrom at h
  cases hc : s.clients[i]? with
  | none => simp [hc] at h
  | some cl =>
    rcases cl with ⟨prog, l⟩
    cases prog with
    | nil => simp [hc] at h
    | cons op rest =>
      cases op with
      | send c0 =>
        simp only [hc, Option.some.injEq, Prod.mk.injEq] at h
        exact ⟨_, _, _, rfl, h.1.symm, h.2.symm⟩
      | trySend c0 =>
        simp only [hc] at h
        split at h
        · exact absurd h (by simp)
        · simp only [Option.some.injEq, Prod.mk.injEq] at h
          exact ⟨_, _, _, rfl, h.1.symm, h.2.symm⟩

theorem advance_realm (s : Sys) (i : Nat) (rest : List SOp) : (s.advance i rest).realm = s.realm := rfl

theorem shape_handed (s s1 : Sys) (i : Nat) (b : Bool) (c : Collaction) (h : s.takeFrom i b = some (c, s1)) (ha : s.alive = true)
    (hq : s.queue = []) (hc : s.cap = some 0) : Shape s (s1.apply c).1 (.handed i c (s1.apply c).2) := by
  obtain ⟨op, rest, l, h1, rfl, rfl⟩ := takeFrom_some h
  rw [apply_out, advance_realm]
  exact .handed i op rest l _ ha hq hc h1 (apply_after _ _)

theorem shape_recv (s : Sys) (ha : s.alive = true) (meet : Option Nat) (o : Out) (ho : o.quiet = true) :
    Shape s (s.recv meet o).1 (s.recv meet o).2 := by
  have hn : Shape s s (if s.clients.any (·.live) then o else .disconnected) := by
    refine .quiet s.realm _ ?_
    split
    · exact ho
    · rfl
  unfold Sys.recv
  cases hq : s.queue with
  | cons p q =>
    rcases p with ⟨i, c⟩
    simp only
    have e := apply_out { s with queue := q } c
    have a := apply_after { s with queue := q } c
    rw [e]
    exact .applied i c q _ ha hq a
  | nil =>
    simp only
    by_cases hc : s.cap = some 0
    · simp only [hc, if_true]
      cases hp : s.parked with
      | cons i ps =>
        simp only
        cases ht : s.takeFrom i true with
        | none => exact hn
        | some p => rcases p with ⟨c, s1⟩; exact shape_handed s s1 i true c ht ha hq hc
      | nil =>
        simp only
        cases meet with
        | none => exact hn
        | some i =>
          simp only
          cases ht : s.takeFrom i false with
          | none => exact hn
          | some p => rcases p with ⟨c, s1⟩; exact shape_handed s s1 i false c ht ha hq hc
    · simp only [hc, if_false]
      exact hn

theorem shape_client (s : Sys) (i : Nat) : Shape s (s.clientStep i).1 (s.clientStep i).2 := by
  unfold Sys.clientStep
  cases hc : s.clients[i]? with
  | none => exact .quiet s.realm _ rfl
  | some cl =>
    rcases cl with ⟨prog, l⟩
    cases prog with
    | nil =>
      cases l with
      | false => exact .quiet s.realm _ rfl
      | true => exact .drops i hc
    | cons op rest =>
      simp only
      cases ha : s.alive with
      | false => exact .refused i op rest l hc ha
      | true =>
        simp only [if_true]
        cases hr : s.hasRoom with
        | true => exact .sent i op rest l hc ha hr
        | false =>
          cases op with
          | trySend c => exact .full i c rest l hc ha hr
          | send c =>
            simp only [Bool.false_eq_true, if_false]
            by_cases hp : i ∈ s.parked
            · simp only [List.contains_iff_mem.2 hp, if_true]
              exact .quiet s.realm _ rfl
            · have hp' : s.parked.contains i = false := by
                rw [← Bool.not_eq_true, List.contains_iff_mem]; exact hp
              simp only [hp', Bool.false_eq_true, if_false]
              have e := Shape.parks i c rest l hc ha hr hp
              rw [ha] at e
              exact e

theorem shape (s : Sys) (e : Ev) : Shape s (s.step e).1 (s.step e).2 := by
  cases e with
  | client i => exact shape_client s i
  | tryApply =>
    simp only [Sys.step]
    split
    · rename_i h; exact shape_recv s h none .empty rfl
    · exact .quiet s.realm _ rfl
  | applyTimeout m =>
    simp only [Sys.step]
    split
    · rename_i h; exact shape_recv s h m .timeout rfl
    · exact .quiet s.realm _ rfl
  | tick d =>
    simp only [Sys.step]
    split
    · exact .quiet _ _ rfl
    · exact .quiet s.realm _ rfl
  | edit k op =>
    simp only [Sys.step]
    split
    · exact .quiet _ _ rfl
    · exact .quiet s.realm _ rfl
  | dropEngine =>
    simp only [Sys.step]
    split
    · rename_i h; exact .kill h
    · exact .quiet s.realm _ rfl

/-! ## A clients' work measure -/

/-- How much client `i` has to do: four for each send, one for dropping its sender, one unless it waits. -/
def Sys.weight (s : Sys) (i : Nat) : Nat :=
  match s.clients[i]? with
  | none => 0
  | some cl => 4 * cl.prog.length + (if cl.live then 1 else 0) + (if i ∈ s.parked then 0 else 1)

/-- Total work. -/
def Sys.work (s : Sys) : Nat :=
  ((List.range s.clients.length).map s.weight).sum + s.queue.length + (if s.alive then 1 else 0)

/-- Changing one summand of a sum over `range n`. -/
theorem sum_range_change (n : Nat) (f g : Nat → Nat) (i : Nat) (h : ∀ j : Nat, j ≠ i → f j = g j) (hi : i < n) :
    ((List.range n).map f).sum + g i = ((List.range n).map g).sum + f i := by
  induction n with
  | zero => omega
  | succ n ih =>
    simp only [List.range_succ, List.map_append, List.map_cons, List.map_nil, List.sum_append, List.sum_cons, List.sum_nil]
    by_cases hn : i = n
    · subst hn
      have : (List.range i).map f = (List.range i).map g :=
        List.map_congr_left (fun j hj => h j (by have := List.mem_range.1 hj; omega))
      rw [this]; omega
    · have := ih (by omega)
      have := h n (by omega)
      omega

theorem sum_range_same (n : Nat) (f g : Nat → Nat) (h : ∀ j : Nat, f j = g j) :
    ((List.range n).map f).sum = ((List.range n).map g).sum := by
  rw [List.map_congr_left (fun j _ => h j)]

theorem weight_other (s : Sys) (i j : Nat) (rest : List SOp) (hj : j ≠ i) : (s.advance i rest).weight j = s.weight j := by
  simp only [Sys.weight, Sys.advance]
  rw [List.getElem?_set_ne (fun h => hj h.symm)]
  cases s.clients[j]? with
  | none => rfl
  | some cl =>
    simp only [List.mem_filter]
    simp [hj]

theorem advance_length (s : Sys) (i : Nat) (rest : List SOp) : (s.advance i rest).clients.length = s.clients.length := by
  simp [Sys.advance]

theorem lt_of_get {s : Sys} {i : Nat} {cl : Client} (h : s.clients[i]? = some cl) : i < s.clients.length := by
  rcases Nat.lt_or_ge i s.clients.length with hl | hl
  · exact hl
  · rw [List.getElem?_eq_none hl] at h; exact absurd h (by simp)

/-- A client that finishes an operation takes at least two off the sum, the one it may queue included. -/
theorem weight_advance {s : Sys} {i : Nat} {op : SOp} {rest : List SOp} {l : Bool} (h : s.clients[i]? = some ⟨op :: rest, l⟩) :
    ((List.range (s.advance i rest).clients.length).map (s.advance i rest).weight).sum + 2 ≤
      ((List.range s.clients.length).map s.weight).sum := by
  have hi := lt_of_get h
  rw [advance_length]
  have key := sum_range_change s.clients.length (s.advance i rest).weight s.weight i (fun j hj => weight_other s i j rest hj) hi
  have e1 : (s.advance i rest).weight i ≤ 4 * rest.length + 2 := by
    simp only [Sys.weight, Sys.advance]
    rw [List.getElem?_set_self hi]
    simp only
    simp
  have e2 : 4 * rest.length + 4 ≤ s.weight i := by
    simp only [Sys.weight, h, List.length_cons]
    omega
  omega

/-- The part of the system the channel consists of. -/
def Sys.chan (s : Sys) : Option Nat × Bool × List (Nat × Collaction) × List Nat × List Client :=
  (s.cap, s.alive, s.queue, s.parked, s.clients)

theorem work_chan {s s' : Sys} (h : s'.chan = s.chan) : s'.work = s.work := by
  simp only [Sys.chan, Prod.mk.injEq] at h
  obtain ⟨h1, h2, h3, h4, h5⟩ := h
  have : s'.weight = s.weight := by funext i; simp only [Sys.weight, h4, h5]
  simp only [Sys.work, this, h2, h3, h5]

theorem work_after {s s' : Sys} (h : After s s') : s'.work ≤ s.work := by
  cases h with
  | on r => exact Nat.le_of_eq (work_chan rfl)
  | dead r =>
    have : (({ s with realm := r } : Sys).kill).weight = s.weight := by funext i; rfl
    simp only [Sys.work, this]
    simp only [Sys.kill, List.length_nil, Bool.false_eq_true, if_false]
    omega

/-- Every event leaves the channel as it is, or reduces the work. -/
theorem step_work (s : Sys) (e : Ev) : (s.step e).1.chan = s.chan ∨ (s.step e).1.work < s.work := by
  have H := shape s e
  generalize (s.step e).1 = s' at *
  generalize (s.step e).2 = o at *
  cases H with
  | quiet r o ho => exact .inl rfl
  | drops i h =>
    right
    have hi := lt_of_get h
    have key := sum_range_change s.clients.length ({ s with clients := s.clients.set i ⟨[], false⟩ } : Sys).weight s.weight i
      (fun j hj => by simp only [Sys.weight]; rw [List.getElem?_set_ne (fun h => hj h.symm)]) hi
    have e1 : ({ s with clients := s.clients.set i ⟨[], false⟩ } : Sys).weight i + 1 = s.weight i := by
      simp only [Sys.weight]
      rw [List.getElem?_set_self hi, h]
      simp only [List.length_nil, Bool.false_eq_true, if_false, if_true]
      omega
    simp only [Sys.work, List.length_set] at *
    omega
  | sent i op rest l h ha hr =>
    right
    have := weight_advance h
    have e : ({ s.advance i rest with queue := s.queue ++ [(i, op.coll)] } : Sys).weight = (s.advance i rest).weight := rfl
    simp only [Sys.work, e]
    simp only [Sys.advance, List.length_append, List.length_cons, List.length_nil, ha, if_true] at *
    omega
  | full i c rest l h ha hr =>
    right
    have := weight_advance h
    simp only [Sys.work]
    simp only [Sys.advance, ha, if_true] at *
    omega
  | refused i op rest l h ha =>
    right
    have := weight_advance h
    simp only [Sys.work]
    simp only [Sys.advance, ha, Bool.false_eq_true, if_false] at *
    omega
  | parks i c rest l h ha hr hp =>
    right
    have hi := lt_of_get h
    have key := sum_range_change s.clients.length ({ s with parked := s.parked ++ [i] } : Sys).weight s.weight i
      (fun j hj => by simp only [Sys.weight, List.mem_append, List.mem_singleton, hj, or_false]) hi
    have e1 : ({ s with parked := s.parked ++ [i] } : Sys).weight i + 1 = s.weight i := by
      simp only [Sys.weight, h, List.mem_append, List.mem_singleton, or_true, if_true, hp, if_false]
    simp only [Sys.work] at *
    omega
  | applied i c q s' ha hq hs =>
    right
    have := work_after hs
    have e : ({ s with queue := q } : Sys).weight = s.weight := rfl
    simp only [Sys.work, e, hq, List.length_cons] at *
    omega
  | handed i op rest l s' ha hq hc h hs =>
    right
    have := work_after hs
    have := weight_advance h
    simp only [Sys.work] at *
    simp only [Sys.advance, ha, if_true] at *
    omega
  | kill ha =>
    right
    have e : s.kill.weight = s.weight := rfl
    simp only [Sys.work, e]
    simp only [Sys.kill, ha, List.length_nil, Bool.false_eq_true, if_false, if_true]
    omega

/-! ## Who waits -/

/-- Whoever waits is in the middle of a `send`. -/
def Sys.Waiting (s : Sys) : Prop :=
  ∀ i ∈ s.parked, ∃ (c : Collaction) (rest : List SOp) (l : Bool), s.clients[i]? = some ⟨.send c :: rest, l⟩

theorem waiting_advance {s : Sys} (h : s.Waiting) (i : Nat) (rest : List SOp) : (s.advance i rest).Waiting := by
  intro j hj
  simp only [Sys.advance, List.mem_filter] at hj
  have hne : j ≠ i := by simpa using hj.2
  obtain ⟨c, r, l, e⟩ := h j hj.1
  refine ⟨c, r, l, ?_⟩
  simp only [Sys.advance]
  rw [List.getElem?_set_ne (fun h => hne h.symm)]
  exact e

theorem waiting_after {s s' : Sys} (h : s.Waiting) (a : After s s') : s'.Waiting := by
  cases a <;> exact h

theorem step_waiting {s : Sys} (hw : s.Waiting) (e : Ev) : (s.step e).1.Waiting := by
  have H := shape s e
  generalize (s.step e).1 = s' at *
  generalize (s.step e).2 = o at *
  cases H with
  | quiet r o ho => exact hw
  | drops i h =>
    intro j hj
    obtain ⟨c, r, l, e⟩ := hw j hj
    have hne : j ≠ i := by rintro rfl; rw [h] at e; simp at e
    exact ⟨c, r, l, by simp only; rw [List.getElem?_set_ne (fun h => hne h.symm)]; exact e⟩
  | sent i op rest l h ha hr => exact waiting_advance hw i rest
  | full i c rest l h ha hr => exact waiting_advance hw i rest
  | refused i op rest l h ha => exact waiting_advance hw i rest
  | parks i c rest l h ha hr hp =>
    intro j hj
    simp only [List.mem_append, List.mem_singleton] at hj
    rcases hj with hj | rfl
    · exact hw j hj
    · exact ⟨c, rest, l, h⟩
  | applied i c q s' ha hq hs => exact waiting_after (s := { s with queue := q }) hw hs
  | handed i op rest l s' ha hq hc h hs => exact waiting_after (waiting_advance hw i rest) hs
  | kill ha => exact hw

theorem run_waiting (es : List Ev) : ∀ {s : Sys}, s.Waiting → (s.run es).1.Waiting := by
  induction es with
  | nil => intro s h; exact h
  | cons e es ih => intro s h; simp only [Sys.run]; exact ih (step_waiting h e)

/-- Where every client is asked and the engine tries, and nothing moves, there is nothing left to do. -/
theorem stuck_done {s : Sys} (hw : s.Waiting) (ht : (s.step .tryApply).1.chan = s.chan)
    (hc : ∀ i : Nat, i < s.clients.length → (s.step (.client i)).1.chan = s.chan) (hd : s.alive = false → s.queue = []) :
    s.queue = [] ∧ ∀ cl ∈ s.clients, cl = ⟨[], false⟩ := by
  have hq : s.queue = [] := by
    cases ha : s.alive with
    | false => exact hd ha
    | true =>
      cases hq : s.queue with
      | nil => rfl
      | cons p q =>
        rcases p with ⟨i, c⟩
        exfalso
        have a := apply_after { s with queue := q } c
        have e : (s.step .tryApply).1 = (Sys.apply { s with queue := q } c).1 := by
          simp only [Sys.step, ha, if_true, Sys.recv, hq]
        rw [e] at ht
        generalize (Sys.apply { s with queue := q } c).1 = s' at *
        cases a with
        | on r => simp [Sys.chan, hq] at ht
        | dead r => simp [Sys.chan, Sys.kill, ha] at ht
  refine ⟨hq, fun cl hcl => ?_⟩
  obtain ⟨i, hi, rfl⟩ := List.getElem_of_mem hcl
  have hg : s.clients[i]? = some s.clients[i] := List.getElem?_eq_getElem hi
  have hi' := hc i hi
  revert hg hi'
  generalize s.clients[i] = cl
  intro hg hi'
  rcases cl with ⟨prog, l⟩
  simp only [Sys.step, Sys.clientStep, hg] at hi'
  cases prog with
  | nil =>
    cases l with
    | false => rfl
    | true =>
      exfalso
      simp only [if_true, Sys.chan, Prod.mk.injEq, true_and] at hi'
      have e := congrArg (fun (x : List Client) => x[i]?) hi'
      simp only [List.getElem?_set_self hi, hg] at e
      simp at e
  | cons op rest =>
    exfalso
    have adv : ∀ s' : Sys, s'.clients = (s.advance i rest).clients → s'.chan = s.chan → False := by
      intro s' h1 h2
      simp only [Sys.chan, Prod.mk.injEq] at h2
      have e := congrArg (fun (x : List Client) => x[i]?) (h1.symm.trans h2.2.2.2.2)
      simp only [Sys.advance, List.getElem?_set_self hi, hg, Option.some.injEq, Client.mk.injEq] at e
      have := congrArg List.length e.1
      simp at this
    cases ha : s.alive with
    | false =>
      simp only [ha, Bool.false_eq_true, if_false] at hi'
      exact adv _ rfl hi'
    | true =>
      simp only [ha, if_true] at hi'
      cases hr : s.hasRoom with
      | true =>
        simp only [hr, if_true] at hi'
        exact adv _ (by rfl) hi'
      | false =>
        simp only [hr, Bool.false_eq_true, if_false] at hi'
        have h0 : s.cap = some 0 := by
          unfold Sys.hasRoom at hr
          cases hcap : s.cap with
          | none => simp [hcap] at hr
          | some n => simp [hcap, hq] at hr; rw [hr]
        cases op with
        | trySend c => exact adv _ rfl hi'
        | send c =>
          simp only at hi'
          by_cases hp : i ∈ s.parked
          · -- somebody waits: the engine takes its collaction
            cases hpk : s.parked with
            | nil => rw [hpk] at hp; simp at hp
            | cons k ks =>
              obtain ⟨c', r', l', e'⟩ := hw k (by rw [hpk]; simp)
              have et : s.takeFrom k true = some (c', s.advance k r') := by simp only [Sys.takeFrom, e']
              simp only [Sys.step, ha, if_true, Sys.recv, hq, h0, hpk, et] at ht
              have a := apply_after (s.advance k r') c'
              generalize ((s.advance k r').apply c').1 = s' at *
              have bad : s'.parked = s.parked → False := by
                intro h
                have : k ∈ s'.parked := by rw [h, hpk]; simp
                cases a <;> simp [Sys.advance, Sys.kill] at this
              simp only [Sys.chan, Prod.mk.injEq] at ht
              exact bad ht.2.2.2.1
          · have hp' : s.parked.contains i = false := by
              rw [← Bool.not_eq_true, List.contains_iff_mem]; exact hp
            simp only [hp', Bool.false_eq_true, if_false, Sys.chan, Prod.mk.injEq, true_and, and_true] at hi'
            have := congrArg List.length hi'.2
            simp at this

theorem step_chan {s t : Sys} (h : s.chan = t.chan) (e : Ev) (hs : (s.step e).1.chan = s.chan)
    (he : e = .tryApply ∨ ∃ i : Nat, e = .client i) : (t.step e).1.chan = t.chan := by
  -- the channel part does not look at the realm except through `apply`, which always moves the channel
  rcases s with ⟨r1, cap, ca, al, q, pk, cl⟩
  rcases t with ⟨r2, cap2, ca2, al2, q2, pk2, cl2⟩
  simp only [Sys.chan, Prod.mk.injEq] at h
  obtain ⟨rfl, rfl, rfl, rfl, rfl⟩ := h
  rcases he with rfl | ⟨i, rfl⟩
  · simp only [Sys.step] at hs ⊢
    cases al with
    | false => rfl
    | true =>
      simp only [if_true, Sys.recv] at hs ⊢
      cases q with
      | cons p q =>
        rcases p with ⟨i, c⟩
        exfalso
        simp only at hs
        have a := apply_after ⟨r1, cap, ca, true, q, pk, cl⟩ c
        generalize (Sys.apply ⟨r1, cap, ca, true, q, pk, cl⟩ c).1 = s' at *
        cases a with
        | on r => simp [Sys.chan] at hs
        | dead r => simp [Sys.chan, Sys.kill] at hs
      | nil =>
        simp only at hs ⊢
        by_cases hc : cap = some 0
        · simp only [hc, if_true] at hs ⊢
          cases pk with
          | nil => rfl
          | cons i ps =>
            simp only at hs ⊢
            cases ht : Sys.takeFrom ⟨r2, some 0, ca2, true, [], i :: ps, cl⟩ i true with
            | none => rfl
            | some p =>
              exfalso
              rcases p with ⟨c, s1⟩
              obtain ⟨op, rest, l, g1, g2, g3⟩ := takeFrom_some ht
              simp only at g1
              have et : ∃ p, Sys.takeFrom ⟨r1, some 0, ca, true, [], i :: ps, cl⟩ i true = some p := by
                simp only [Sys.takeFrom, g1] at ht ⊢
                cases op with
                | send c0 => exact ⟨_, rfl⟩
                | trySend c0 => simp at ht
              obtain ⟨⟨c1, s2⟩, et⟩ := et
              rw [et] at hs
              simp only at hs
              obtain ⟨op', rest', l', k1, k2, k3⟩ := takeFrom_some et
              have a := apply_after s2 c1
              generalize (s2.apply c1).1 = s' at *
              have bad : s'.parked = i :: ps → False := by
                intro h
                have : i ∈ s'.parked := by rw [h]; simp
                subst k3
                cases a <;> simp [Sys.advance, Sys.kill] at this
              simp only [Sys.chan, Prod.mk.injEq] at hs
              exact bad hs.2.2.2.1
        · simp only [hc, if_false]
  · simp only [Sys.step, Sys.clientStep] at hs ⊢
    cases hg : cl[i]? with
    | none => rfl
    | some c =>
      rcases c with ⟨prog, l⟩
      simp only [hg] at hs
      cases prog with
      | nil =>
        cases l with
        | false => rfl
        | true => exact hs
      | cons op rest =>
        cases al with
        | false => exact hs
        | true =>
          simp only [if_true] at hs ⊢
          have e1 : Sys.hasRoom ⟨r1, cap, ca, true, q, pk, cl⟩ = Sys.hasRoom ⟨r2, cap, ca2, true, q, pk, cl⟩ := rfl
          cases hr : Sys.hasRoom ⟨r2, cap, ca2, true, q, pk, cl⟩ with
          | true => simp only [e1, hr, if_true] at hs ⊢; exact hs
          | false =>
            simp only [e1, hr, Bool.false_eq_true, if_false] at hs ⊢
            cases op with
            | trySend c => exact hs
            | send c =>
              simp only at hs ⊢
              cases hp : pk.contains i with
              | true => rfl
              | false => simp only [hp, Bool.false_eq_true, if_false] at hs ⊢; exact hs

theorem run_append (es fs : List Ev) : ∀ s : Sys, (s.run (es ++ fs)).1 = ((s.run es).1.run fs).1 ∧
    (s.run (es ++ fs)).2 = (s.run es).2 ++ ((s.run es).1.run fs).2 := by
  induction es with
  | nil => intro s; exact ⟨rfl, rfl⟩
  | cons e es ih =>
    intro s
    simp only [List.cons_append, Sys.run]
    exact ⟨(ih _).1, by rw [(ih _).2]⟩

/-- A schedule that does not reduce the work leaves the channel alone throughout. -/
theorem run_work (es : List Ev) : ∀ s : Sys, ((s.run es).1.chan = s.chan ∧ ∀ (e : Ev), e ∈ es →
    (e = .tryApply ∨ ∃ i : Nat, e = .client i) → (s.step e).1.chan = s.chan) ∨ (s.run es).1.work < s.work := by
  induction es with
  | nil => intro s; exact .inl ⟨rfl, by simp⟩
  | cons e es ih =>
    intro s
    simp only [Sys.run]
    rcases step_work s e with h | h
    · rcases ih (s.step e).1 with ⟨g1, g2⟩ | g
      · left
        refine ⟨g1.trans h, fun e' he' hk => ?_⟩
        rcases List.mem_cons.1 he' with rfl | he'
        · exact h
        · exact step_chan h _ (g2 e' he' hk) hk
      · right; rw [work_chan h] at g; exact g
    · right
      rcases ih (s.step e).1 with ⟨g1, _⟩ | g
      · rw [work_chan g1]; exact h
      · omega

end Verif.Clients
