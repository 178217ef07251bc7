import Verif.Model.Wrapper
/-!
# C57, C58: ownership of native objects in the C# bindings
-/
namespace Verif.Props
open Verif
variable {P : Type}

/-- The calls on wrapper `i`, with their results, in order. -/
def callsOnWrapper (i : Nat) (evs : List (WEvent P)) : List (WCall P × WRes P) :=
  evs.filterMap fun
    | .call j c r => if j = i then some (c, r) else none
    | _ => none

/-- The effect of a call that finds the pointer still in the wrapper. -/
def firstEffect (p : P) (own : Ownership) : WCall P → WRes P
  | .dispose | .finalize => if own = .owned then .dropped p else .nothing
  | .steal => .returned p
  | .setInner _ => .nothing

/-- The effect of a call on an emptied wrapper. -/
def laterEffect : WCall P → WRes P
  | .steal => .exception
  | _ => .nothing

/-- `Inner` was never assigned from outside. -/
def NoAssign (evs : List (WEvent P)) : Prop := ∀ (i : Nat) (v : Option P) (r : WRes P), .call i (.setInner v) r ∉ evs

/-- The calls on a wrapper are as they should be, and the wrapper is empty iff one was made. -/
structure Conforms (evs : List (WEvent P)) (p : P) (own : Ownership) (i : Nat) (w : Wrapper P) : Prop where
  sem : w.own = own
  state : (callsOnWrapper i evs = [] ∧ w.inner = some p) ∨
    (w.inner = none ∧ ∃ c rest, callsOnWrapper i evs = (c, firstEffect p own c) :: rest ∧
      ∀ e ∈ rest, e.2 = laterEffect e.1)

theorem callsOn_append (i : Nat) (a b : List (WEvent P)) :
    callsOnWrapper i (a ++ b) = callsOnWrapper i a ++ callsOnWrapper i b := by simp [callsOnWrapper]

theorem whist_inv {evs : List (WEvent P)} {ws : List (Wrapper P)} (h : WHist evs ws) (hna : NoAssign evs) :
    (∀ (p : P) (own : Ownership) (i : Nat), WEvent.construct p own i ∈ evs →
      ∃ w, ws[i]? = some w ∧ Conforms evs p own i w) ∧
    (∀ (i : Nat) (c : WCall P) (r : WRes P), WEvent.call i c r ∈ evs → i < ws.length) ∧
    (∀ (i : Nat), i < ws.length → ∃ p own, WEvent.construct p own i ∈ evs) := by
  induction h with
  | nil => simp
  | construct evs ws p own h ih =>
    obtain ⟨ih1, ih2, ih3⟩ := ih fun i v r hm => hna i v r (by simp [hm])
    refine ⟨?_, ?_, ?_⟩
    · intro p' own' i hm
      rcases List.mem_append.1 hm with hm | hm
      · obtain ⟨w, e1, e2⟩ := ih1 p' own' i hm
        refine ⟨w, by rw [List.getElem?_append_left (List.getElem?_eq_some_iff.1 e1).1, e1], e2.sem, ?_⟩
        have : callsOnWrapper i (evs ++ [WEvent.construct p own ws.length]) = callsOnWrapper i evs := by
          rw [callsOn_append]; simp [callsOnWrapper]
        rw [this]; exact e2.state
      · simp at hm
        obtain ⟨rfl, rfl, rfl⟩ := hm
        refine ⟨Wrapper.new p' own', by simp, rfl, .inl ⟨?_, rfl⟩⟩
        rw [callsOn_append]
        have : callsOnWrapper ws.length evs = [] := by
          unfold callsOnWrapper
          rw [List.filterMap_eq_nil_iff]
          intro e he
          cases e with
          | construct => rfl
          | call j c r =>
            have := ih2 j c r he
            simp only [ite_eq_right_iff, reduceCtorEq, imp_false]; omega
        rw [this]; simp [callsOnWrapper]
    · intro i c r hm
      have hm : WEvent.call i c r ∈ evs := by simpa using hm
      have := ih2 i c r hm
      simp; omega
    · intro i hi
      simp at hi
      by_cases e : i = ws.length
      · subst e; exact ⟨p, own, by simp⟩
      · obtain ⟨p', own', hm⟩ := ih3 i (by omega)
        exact ⟨p', own', by simp [hm]⟩
  | call evs ws i w c h hw ih =>
    obtain ⟨ih1, ih2, ih3⟩ := ih fun i v r hm => hna i v r (by simp [hm])
    refine ⟨?_, ?_, ?_⟩
    · intro p own j hm
      have hm : WEvent.construct p own j ∈ evs := by simpa using hm
      obtain ⟨v, e1, e2⟩ := ih1 p own j hm
      by_cases hij : j = i
      · subst hij
        rw [hw] at e1; injection e1 with e1; subst e1
        refine ⟨(w.call c).1, by rw [List.getElem?_set_self (List.getElem?_eq_some_iff.1 hw).1], ?_⟩
        have hcs : callsOnWrapper j (evs ++ [WEvent.call j c (w.call c).2]) = callsOnWrapper j evs ++ [(c, (w.call c).2)] := by
          rw [callsOn_append]; simp [callsOnWrapper]
        have hne : ∀ v : Option P, c ≠ .setInner v := by
          rintro v rfl; exact hna j v _ (List.mem_append.2 (.inr (List.mem_singleton.2 rfl)))
        obtain ⟨o1, st⟩ := e2
        rcases st with ⟨s1, s2⟩ | ⟨s1, c0, rest, s2, s3⟩
        · refine ⟨?_, .inr ⟨?_, c, [], ?_, by simp⟩⟩
          · rw [← o1]; cases c <;> simp [Wrapper.call, Wrapper.dispose, Wrapper.stealInner, s2]
          · cases c with
            | setInner v => exact absurd rfl (hne v)
            | _ => simp [Wrapper.call, Wrapper.dispose, Wrapper.stealInner, s2]
          · rw [hcs, s1, ← o1]
            cases c with
            | setInner v => exact absurd rfl (hne v)
            | steal => simp [Wrapper.call, Wrapper.stealInner, s2, firstEffect]
            | _ => cases hown : w.own <;> simp [Wrapper.call, Wrapper.dispose, s2, firstEffect, hown]
        · refine ⟨?_, .inr ⟨?_, c0, rest ++ [(c, (w.call c).2)], ?_, ?_⟩⟩
          · rw [← o1]; cases c <;> simp [Wrapper.call, Wrapper.dispose, Wrapper.stealInner, s1]
          · cases c with
            | setInner v => exact absurd rfl (hne v)
            | _ => simp [Wrapper.call, Wrapper.dispose, Wrapper.stealInner, s1]
          · rw [hcs, s2]; rfl
          · intro e he
            rcases List.mem_append.1 he with he | he
            · exact s3 e he
            · simp at he; subst he
              cases c with
              | setInner v => exact absurd rfl (hne v)
              | steal => simp [Wrapper.call, Wrapper.stealInner, s1, laterEffect]
              | _ => cases hown : w.own <;> simp [Wrapper.call, Wrapper.dispose, s1, laterEffect, hown]
      · refine ⟨v, by rw [List.getElem?_set_ne (fun e => hij e.symm)]; exact e1, e2.sem, ?_⟩
        have : callsOnWrapper j (evs ++ [WEvent.call i c (w.call c).2]) = callsOnWrapper j evs := by
          rw [callsOn_append]; simp [callsOnWrapper]; exact fun e => hij e.symm
        rw [this]; exact e2.state
    · intro j c' r hm
      rw [List.length_set]
      rcases List.mem_append.1 hm with hm | hm
      · exact ih2 j c' r hm
      · simp at hm; obtain ⟨rfl, _⟩ := hm; exact (List.getElem?_eq_some_iff.1 hw).1
    · intro j hj
      rw [List.length_set] at hj
      obtain ⟨p, own, hm⟩ := ih3 j hj
      exact ⟨p, own, by simp [hm]⟩

/-- **C57.** In every history in which `Inner` is not assigned from outside, only the first call among `Dispose`,
finalization and `StealInner` on a wrapper has an effect: disposing drops the pointer iff the wrapper owns it, stealing
returns it; all later calls do nothing, or throw if they want to steal. -/
theorem C57_first_call_decides {evs : List (WEvent P)} {ws : List (Wrapper P)} (h : WHist evs ws) (hna : NoAssign evs)
    {p : P} {own : Ownership} {i : Nat} (hc : WEvent.construct p own i ∈ evs) :
    callsOnWrapper i evs = [] ∨ ∃ c rest, callsOnWrapper i evs = (c, firstEffect p own c) :: rest ∧
      ∀ e ∈ rest, e.2 = laterEffect e.1 := by
  obtain ⟨w, _, _, st⟩ := (whist_inv h hna).1 p own i hc
  rcases st with ⟨s, _⟩ | ⟨_, s⟩
  · exact .inl s
  · exact .inr s

/-- What `Inner` should be after these calls on a wrapper that held `x`: what was assigned last, unless the wrapper was disposed,
finalized or stolen from after that. -/
def innerAfter (x : Option P) : List (WCall P) → Option P
  | [] => x
  | .setInner v :: cs => innerAfter v cs
  | _ :: cs => innerAfter none cs

/-- The effect of a call on a wrapper that holds `x`. -/
def effectOn (own : Ownership) : Option P → WCall P → WRes P
  | some p, c => firstEffect p own c
  | none, c => laterEffect c

theorem innerAfter_append (x : Option P) (a b : List (WCall P)) : innerAfter x (a ++ b) = innerAfter (innerAfter x a) b := by
  induction a generalizing x with
  | nil => rfl
  | cons c a ih => cases c <;> simp only [List.cons_append, innerAfter, ih]

theorem call_spec (w : Wrapper P) (c : WCall P) :
    (w.call c).2 = effectOn w.own w.inner c ∧ (w.call c).1.inner = innerAfter w.inner [c] ∧ (w.call c).1.own = w.own := by
  obtain ⟨x, own⟩ := w
  cases c <;> cases x <;> cases own <;> exact ⟨rfl, rfl, rfl⟩

/-- The calls on a wrapper that is to hold `x` did what they should. -/
def AllAsSpecified (own : Ownership) (x : Option P) : List (WCall P × WRes P) → Prop
  | [] => True
  | (c, r) :: rest => r = effectOn own x c ∧ AllAsSpecified own (innerAfter x [c]) rest

theorem allAsSpecified_append (own : Ownership) (x : Option P) (a b : List (WCall P × WRes P)) :
    AllAsSpecified own x (a ++ b) ↔ AllAsSpecified own x a ∧ AllAsSpecified own (innerAfter x (a.map Prod.fst)) b := by
  induction a generalizing x with
  | nil => simp [AllAsSpecified, innerAfter]
  | cons e a ih =>
    obtain ⟨c, r⟩ := e
    simp only [List.cons_append, AllAsSpecified, ih, List.map_cons, and_assoc]
    have : innerAfter x (c :: a.map Prod.fst) = innerAfter (innerAfter x [c]) (a.map Prod.fst) := innerAfter_append x [c] _
    rw [this]

theorem whist_assign {evs : List (WEvent P)} {ws : List (Wrapper P)} (h : WHist evs ws) :
    (∀ (p : P) (own : Ownership) (i : Nat), WEvent.construct p own i ∈ evs → ∃ w, ws[i]? = some w ∧ w.own = own ∧
      w.inner = innerAfter (some p) ((callsOnWrapper i evs).map Prod.fst) ∧ AllAsSpecified own (some p) (callsOnWrapper i evs)) ∧
    ∀ (i : Nat) (c : WCall P) (r : WRes P), WEvent.call i c r ∈ evs → i < ws.length := by
  induction h with
  | nil => simp
  | construct evs ws p own h ih =>
    obtain ⟨ih1, ih2⟩ := ih
    have hcs : ∀ i : Nat, callsOnWrapper i (evs ++ [WEvent.construct p own ws.length]) = callsOnWrapper i evs := by
      intro i; rw [callsOn_append]; simp [callsOnWrapper]
    refine ⟨fun p' own' i hm => ?_, fun i c r hm => ?_⟩
    · rw [hcs]
      rcases List.mem_append.1 hm with hm | hm
      · obtain ⟨w, e1, e2⟩ := ih1 p' own' i hm
        exact ⟨w, by rw [List.getElem?_append_left (List.getElem?_eq_some_iff.1 e1).1, e1], e2⟩
      · simp at hm
        obtain ⟨rfl, rfl, rfl⟩ := hm
        have : callsOnWrapper ws.length evs = [] := by
          unfold callsOnWrapper
          rw [List.filterMap_eq_nil_iff]
          intro e he
          cases e with
          | construct => rfl
          | call j c r =>
            have := ih2 j c r he
            simp only [ite_eq_right_iff, reduceCtorEq, imp_false]; omega
        rw [this]
        exact ⟨Wrapper.new p' own', by simp, rfl, rfl, trivial⟩
    · have hm : WEvent.call i c r ∈ evs := by simpa using hm
      have := ih2 i c r hm
      simp; omega
  | call evs ws i w c h hw ih =>
    obtain ⟨ih1, ih2⟩ := ih
    refine ⟨fun p own j hm => ?_, fun j c' r hm => ?_⟩
    · have hm : WEvent.construct p own j ∈ evs := by simpa using hm
      obtain ⟨v, e1, e2, e3, e4⟩ := ih1 p own j hm
      by_cases hij : j = i
      · subst hij
        rw [hw] at e1; injection e1 with e1; subst e1
        have hcs : callsOnWrapper j (evs ++ [WEvent.call j c (w.call c).2]) = callsOnWrapper j evs ++ [(c, (w.call c).2)] := by
          rw [callsOn_append]; simp [callsOnWrapper]
        obtain ⟨s1, s2, s3⟩ := call_spec w c
        refine ⟨(w.call c).1, by rw [List.getElem?_set_self (List.getElem?_eq_some_iff.1 hw).1], s3.trans e2, ?_, ?_⟩
        · rw [hcs, List.map_append, innerAfter_append, ← e3]; exact s2
        · rw [hcs, allAsSpecified_append]
          exact ⟨e4, by rw [← e3, ← e2]; exact s1, trivial⟩
      · refine ⟨v, by rw [List.getElem?_set_ne (fun e => hij e.symm)]; exact e1, e2, ?_⟩
        have : callsOnWrapper j (evs ++ [WEvent.call i c (w.call c).2]) = callsOnWrapper j evs := by
          rw [callsOn_append]; simp [callsOnWrapper]; exact fun e => hij e.symm
        rw [this]; exact ⟨e3, e4⟩
    · rw [List.length_set]
      rcases List.mem_append.1 hm with hm | hm
      · exact ih2 j c' r hm
      · simp at hm; obtain ⟨rfl, _⟩ := hm; exact (List.getElem?_eq_some_iff.1 hw).1

/-- **C57.** With assignments to `Inner` too: in every history, every call on a wrapper has the effect it should have on what the
wrapper holds then, which is what was put into it last (by the constructor or the setter), or nothing if it was disposed, finalized or
stolen from since. -/
theorem C57_with_assignments {evs : List (WEvent P)} {ws : List (Wrapper P)} (h : WHist evs ws) {p : P} {own : Ownership} {i : Nat}
    (hc : WEvent.construct p own i ∈ evs) (before after : List (WCall P × WRes P)) (c : WCall P) (r : WRes P)
    (hcs : callsOnWrapper i evs = before ++ (c, r) :: after) : r = effectOn own (innerAfter (some p) (before.map Prod.fst)) c := by
  obtain ⟨_, _, _, _, h4⟩ := (whist_assign h).1 p own i hc
  rw [hcs, allAsSpecified_append] at h4
  exact h4.2.1

/-- A wrapper is emptied, refilled through the setter and disposed: the new pointer is dropped. -/
example : WHist [.construct 7 .owned 0, .call 0 .steal (.returned 7), .call 0 (.setInner (some 8)) .nothing, .call 0 .finalize (.dropped 8)]
    [(⟨none, .owned⟩ : Wrapper Nat)] :=
  .call _ _ 0 ⟨some 8, .owned⟩ .finalize (.call _ _ 0 ⟨none, .owned⟩ (.setInner (some 8)) (.call _ _ 0 ⟨some 7, .owned⟩ .steal
    (.construct [] [] 7 .owned .nil) rfl) rfl) rfl

theorem whist_construct_lt {evs : List (WEvent P)} {ws : List (Wrapper P)} (h : WHist evs ws) :
    ∀ (p : P) (own : Ownership) (i : Nat), WEvent.construct p own i ∈ evs → i < ws.length := by
  induction h with
  | nil => simp
  | construct evs ws p own h ih =>
    intro p' own' i hm
    rcases List.mem_append.1 hm with hm | hm
    · have := ih _ _ _ hm; simp; omega
    · simp at hm; simp [hm.2.2]
  | call evs ws i w c h hw ih =>
    intro p own j hm
    have hm : WEvent.construct p own j ∈ evs := by simpa using hm
    rw [List.length_set]; exact ih _ _ _ hm

/-- The native drops of pointer `p`, by wrapper. -/
def dropsOf [DecidableEq P] (p : P) (evs : List (WEvent P)) : List Nat :=
  evs.filterMap fun
    | .call i _ (.dropped q) => if q = p then some i else none
    | _ => none

theorem dropsOf_mem [DecidableEq P] {p : P} {evs : List (WEvent P)} {i : Nat} :
    i ∈ dropsOf p evs ↔ ∃ c, WEvent.call i c (.dropped p) ∈ evs := by
  unfold dropsOf
  rw [List.mem_filterMap]
  constructor
  · rintro ⟨e, he, h⟩
    cases e with
    | construct => cases h
    | call j c r =>
      cases r with
      | dropped q =>
        simp only [Option.ite_none_right_eq_some, Option.some.injEq] at h
        obtain ⟨rfl, rfl⟩ := h
        exact ⟨c, he⟩
      | _ => cases h
  · rintro ⟨c, hc⟩
    exact ⟨_, hc, by simp⟩

theorem mem_callsOn {i : Nat} {evs : List (WEvent P)} {c : WCall P} {r : WRes P} :
    (c, r) ∈ callsOnWrapper i evs ↔ WEvent.call i c r ∈ evs := by
  unfold callsOnWrapper
  rw [List.mem_filterMap]
  constructor
  · rintro ⟨e, he, h⟩
    cases e with
    | construct => cases h
    | call j c' r' =>
      simp only [Option.ite_none_right_eq_some, Option.some.injEq, Prod.mk.injEq] at h
      obtain ⟨rfl, rfl, rfl⟩ := h
      exact he
  · intro h
    exact ⟨_, h, by simp⟩

/-- How often wrapper `i` dropped something is how often `NativeDrop` appears among the calls on it. -/
theorem count_drops [DecidableEq P] (p : P) (i : Nat) (evs : List (WEvent P)) :
    (dropsOf p evs).count i = ((callsOnWrapper i evs).filter fun e => e.2 = .dropped p).length := by
  induction evs with
  | nil => rfl
  | cons e evs ih =>
    have h1 : dropsOf p (e :: evs) = dropsOf p [e] ++ dropsOf p evs := by
      unfold dropsOf; rw [← List.filterMap_append]; rfl
    have h2 : callsOnWrapper i (e :: evs) = callsOnWrapper i [e] ++ callsOnWrapper i evs := by
      rw [← callsOn_append]; rfl
    rw [h1, h2, List.count_append, List.filter_append, List.length_append, ih]
    congr 1
    cases e with
    | construct => rfl
    | call j c r =>
      cases r with
      | dropped q =>
        by_cases hj : j = i <;> by_cases hq : q = p <;> simp [dropsOf, callsOnWrapper, hj, hq]
      | _ => by_cases hj : j = i <;> simp [dropsOf, callsOnWrapper, hj]

/-- **C57.** In every history in which `Inner` is not assigned from outside: a native object is dropped only by wrappers
constructed as its owner; if only one owner was ever constructed for it, it is dropped at most once, not at all if it was
stolen from that owner, and exactly once if the owner was disposed or finalized and not stolen from. -/
theorem C57_freed_once [DecidableEq P] {evs : List (WEvent P)} {ws : List (Wrapper P)} (h : WHist evs ws)
    (hna : NoAssign evs) (p : P) :
    (∀ i : Nat, i ∈ dropsOf p evs → WEvent.construct p .owned i ∈ evs) ∧
    ∀ i : Nat, WEvent.construct p .owned i ∈ evs → (∀ j : Nat, WEvent.construct p .owned j ∈ evs → j = i) →
      (dropsOf p evs).length ≤ 1 ∧
      (∀ q : P, WEvent.call i .steal (.returned q) ∈ evs → q = p ∧ dropsOf p evs = []) ∧
      ((∃ (c : WCall P) (r : WRes P), (c = .dispose ∨ c = .finalize) ∧ WEvent.call i c r ∈ evs) →
        (¬ ∃ q, WEvent.call i .steal (.returned q) ∈ evs) → (dropsOf p evs).length = 1) := by
  have hown : ∀ i : Nat, i ∈ dropsOf p evs → WEvent.construct p .owned i ∈ evs := by
    intro i hi
    obtain ⟨c, hc⟩ := dropsOf_mem.1 hi
    obtain ⟨q, own, hq⟩ := (whist_inv h hna).2.2 i ((whist_inv h hna).2.1 i c _ hc)
    have hm := mem_callsOn.2 hc
    rcases C57_first_call_decides h hna hq with e | ⟨c0, rest, e, hl⟩
    · rw [e] at hm; cases hm
    · rw [e] at hm
      rcases List.mem_cons.1 hm with hm | hm
      · injection hm with h1 h2
        cases c0 <;> simp only [firstEffect, reduceCtorEq] at h2 <;> split at h2 <;> simp_all
      · have := hl _ hm
        cases c <;> simp [laterEffect] at this
  refine ⟨hown, ?_⟩
  intro i hi huniq
  have hall : ∀ j ∈ dropsOf p evs, j = i := fun j hj => huniq j (hown j hj)
  have hcount : (dropsOf p evs).length = (dropsOf p evs).count i :=
    (List.count_eq_length.2 fun j hj => (hall j hj).symm).symm
  rw [count_drops] at hcount
  have hlater : ∀ rest : List (WCall P × WRes P), (∀ e ∈ rest, e.2 = laterEffect e.1) →
      rest.filter (fun e => e.2 = .dropped p) = [] := by
    intro rest hl
    rw [List.filter_eq_nil_iff]
    rintro ⟨c, r⟩ he
    have := hl _ he
    simp only at this
    subst this
    cases c <;> simp [laterEffect]
  rcases C57_first_call_decides h hna hi with e | ⟨c0, rest, e, hl⟩
  · rw [e] at hcount
    refine ⟨by simp [hcount], ?_, ?_⟩
    · intro q hq; have := mem_callsOn.2 hq; rw [e] at this; cases this
    · rintro ⟨c, r, _, hc⟩; have := mem_callsOn.2 hc; rw [e] at this; cases this
  · have hf : ((callsOnWrapper i evs).filter fun e => e.2 = .dropped p) =
        if firstEffect p .owned c0 = .dropped p then [(c0, firstEffect p .owned c0)] else [] := by
      rw [e, List.filter_cons, hlater rest hl]; simp
    rw [hf] at hcount
    refine ⟨by rw [hcount]; split <;> simp, ?_, ?_⟩
    · intro q hq
      have hm := mem_callsOn.2 hq
      rw [e] at hm
      rcases List.mem_cons.1 hm with hm | hm
      · injection hm with h1 h2
        subst h1
        simp only [firstEffect, WRes.returned.injEq] at h2
        refine ⟨h2, ?_⟩
        simpa [firstEffect] using hcount
      · have := hl _ hm
        simp [laterEffect] at this
    · rintro ⟨c, r, hcd, hc⟩ hns
      have : c0 ≠ .steal := by
        rintro rfl
        refine hns ⟨p, mem_callsOn.1 ?_⟩
        rw [e]; simp [firstEffect]
      have hne : ∀ v : Option P, c0 ≠ .setInner v := by
        rintro v rfl
        exact hna i v _ (mem_callsOn.1 (by rw [e]; simp; exact .inl rfl))
      rw [hcount]
      cases c0 with
      | steal => exact absurd rfl this
      | setInner v => exact absurd rfl (hne v)
      | _ => simp [firstEffect]

/-- A history with an owner that is disposed and finalized, an owner that is stolen from and finalized, and a borrower:
pointer 7 is dropped once, pointers 8 and 9 never. -/
def wrapEvs : List (WEvent Nat) :=
  [.construct 7 .owned 0, .construct 8 .owned 1, .construct 9 .sharedRef 2, .call 1 .steal (.returned 8),
   .call 0 .dispose (.dropped 7), .call 2 .dispose .nothing, .call 0 .finalize .nothing, .call 1 .finalize .nothing]

theorem wrap_hist : ∃ ws, WHist wrapEvs ws :=
  ⟨_, (((((((WHist.nil.construct _ _ 7 .owned).construct _ _ 8 .owned).construct _ _ 9 .sharedRef).call _ _ 1 _ .steal rfl).call
    _ _ 0 _ .dispose rfl).call _ _ 2 _ .dispose rfl).call _ _ 0 _ .finalize rfl).call _ _ 1 _ .finalize rfl⟩

theorem wrap_noAssign : NoAssign wrapEvs := by
  intro i v r hm; simp [wrapEvs] at hm

example : (dropsOf 7 wrapEvs).length = 1 := by
  obtain ⟨ws, h⟩ := wrap_hist
  refine ((C57_freed_once h wrap_noAssign 7).2 0 (by decide) ?_).2.2 ⟨.dispose, .dropped 7, .inl rfl, by decide⟩ ?_
  · intro j hj; simpa [wrapEvs] using hj
  · rintro ⟨q, hq⟩; simp [wrapEvs] at hq
example : dropsOf 7 wrapEvs = [0] ∧ dropsOf 8 wrapEvs = [] ∧ dropsOf 9 wrapEvs = [] := by decide

/-! ## C58 -/

/-- **C58, partial.** A pointer is stolen at most once from a wrapper, it is the pointer the wrapper was constructed with,
and stealing from an emptied wrapper throws.  The refusal to steal from a borrower is missing (`C58_negation`). -/
theorem C58_stolen_once_partial {evs : List (WEvent P)} {ws : List (Wrapper P)} (h : WHist evs ws) (hna : NoAssign evs)
    {p : P} {own : Ownership} {i : Nat} (hc : WEvent.construct p own i ∈ evs) :
    (∀ q : P, WEvent.call i .steal (.returned q) ∈ evs → q = p) ∧
    ∀ (pre post : List (WCall P × WRes P)) (q : P), callsOnWrapper i evs = pre ++ (.steal, .returned q) :: post →
      pre = [] ∧ ∀ r : WRes P, (WCall.steal, r) ∈ post → r = .exception := by
  rcases C57_first_call_decides h hna hc with e | ⟨c0, rest, e, hl⟩
  · refine ⟨fun q hq => ?_, fun pre post q hx => ?_⟩
    · have := mem_callsOn.2 hq; rw [e] at this; cases this
    · rw [e] at hx; simp at hx
  · refine ⟨fun q hq => ?_, fun pre post q hx => ?_⟩
    · have hm := mem_callsOn.2 hq
      rw [e] at hm
      rcases List.mem_cons.1 hm with hm | hm
      · injection hm with h1 h2
        subst h1
        simpa [firstEffect] using h2
      · have := hl _ hm
        simp [laterEffect] at this
    · rw [e] at hx
      cases pre with
      | nil =>
        simp at hx
        refine ⟨rfl, fun r hr => ?_⟩
        rw [← hx.2] at hr
        simpa [laterEffect] using hl _ hr
      | cons x pre =>
        simp at hx
        have := hl (.steal, .returned q) (by rw [hx.2]; simp)
        simp [laterEffect] at this

/-- **C58 is false as stated**: stealing from a wrapper that only borrows succeeds, and the native object, still owned by
another wrapper, is then dropped twice. -/
theorem C58_negation :
    (¬ ∀ (evs : List (WEvent Nat)) (ws : List (Wrapper Nat)), WHist evs ws → NoAssign evs →
      ∀ (p q i : Nat) (own : Ownership), WEvent.construct p own i ∈ evs → own ≠ .owned →
        WEvent.call i .steal (.returned q) ∉ evs) ∧
    ∃ (evs : List (WEvent Nat)) (ws : List (Wrapper Nat)), WHist evs ws ∧ NoAssign evs ∧
      evs = [.construct 7 .owned 0, .construct 7 .sharedRef 1, .call 1 .steal (.returned 7), .construct 7 .owned 2,
        .call 2 .dispose (.dropped 7), .call 0 .dispose (.dropped 7)] ∧ (dropsOf 7 evs).length = 2 := by
  constructor
  · intro hall
    refine hall _ _ ((WHist.nil.construct _ _ 7 .sharedRef).call _ _ 0 _ .steal rfl) ?_ 7 7 0 .sharedRef (by simp)
      (by decide) (by simp [Wrapper.call, Wrapper.stealInner, Wrapper.new])
    intro i v r hm; simp at hm
  · refine ⟨_, _, (((((WHist.nil.construct _ _ 7 .owned).construct _ _ 7 .sharedRef).call _ _ 1 _ .steal rfl).construct
      _ _ 7 .owned).call _ _ 2 _ .dispose rfl).call _ _ 0 _ .dispose rfl, ?_, rfl, rfl⟩
    intro i v r hm; simp at hm

end Verif.Props
