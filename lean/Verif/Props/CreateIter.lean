import Verif.Model.CreateIter
import Verif.Props.Baseline
/-!
# C99, C100: `object_create` and the iterators it is given
-/
namespace Verif.Props
open Verif Verif.Baseline

/-! ## Specification -/

/-- The iterator yields exactly the items of the list and then ends. -/
def Yields {α : Type} (s : Source α) (l : List α) : Prop :=
  (∀ (k : Nat) (a : α), l[k]? = some a → s.pull k = .item a) ∧ s.pull l.length = .done

/-- The two iterators cannot be told apart within `n` calls of `next`. -/
def SameUpTo {α : Type} (n : Nat) (s s' : Source α) : Prop := s.hint = s'.hint ∧ ∀ k : Nat, k < n → s.pull k = s'.pull k

/-- The iterator never panics. -/
def Behaves {α : Type} (s : Source α) : Prop := ∀ k : Nat, s.pull k ≠ .panic

/-- The size hint is a correct lower bound: the iterator does not end before. -/
def Honest {α : Type} (s : Source α) : Prop := ∀ k : Nat, k < s.hint → s.pull k ≠ .done

/-- `std::iter::repeat(a)`: endless; its size hint is `usize::MAX`. -/
def repeatSource {α : Type} (a : α) : Source α := ⟨fun _ => .item a, 18446744073709551615⟩

/-- `list.into_iter()`. -/
def listSource {α : Type} (l : List α) : Source α :=
  ⟨fun k => match l[k]? with | some a => .item a | none => .done, l.length⟩

/-! ## Proofs -/

section
variable {α : Type} (ty : α → PropType)

theorem checkPulls_count (pull : Nat → Pull α) (ts : List PropType) (k : Nat) :
    k + 1 ≤ (checkPulls ty pull ts k).2 ∧ (checkPulls ty pull ts k).2 ≤ k + ts.length + 1 := by
  induction ts generalizing k with
  | nil => unfold checkPulls; cases pull k <;> simp
  | cons t ts ih =>
    unfold checkPulls
    have := ih (k + 1)
    cases pull k with
    | done => simp
    | panic => simp
    | item p =>
      simp only
      split
      · simp
      · simp only [List.length_cons]; omega

theorem checkPulls_congr {pull pull' : Nat → Pull α} (ts : List PropType) (k : Nat)
    (h : ∀ j : Nat, k ≤ j → j < k + ts.length + 1 → pull j = pull' j) : checkPulls ty pull ts k = checkPulls ty pull' ts k := by
  induction ts generalizing k with
  | nil => unfold checkPulls; rw [h k (Nat.le_refl _) (by simp)]
  | cons t ts ih =>
    unfold checkPulls
    rw [h k (Nat.le_refl _) (by simp; omega), ih (k + 1) (fun j h1 h2 => h j (by omega) (by simp only [List.length_cons]; omega))]

/-- Only the calls of `next` that were made matter. -/
theorem checkPulls_local {pull pull' : Nat → Pull α} (ts : List PropType) (k : Nat)
    (h : ∀ j : Nat, k ≤ j → j < (checkPulls ty pull ts k).2 → pull j = pull' j) :
    checkPulls ty pull ts k = checkPulls ty pull' ts k := by
  induction ts generalizing k with
  | nil =>
    have hk := (checkPulls_count ty pull [] k).1
    have := h k (Nat.le_refl _) (by omega)
    unfold checkPulls; rw [this]
  | cons t ts ih =>
    have hk := (checkPulls_count ty pull (t :: ts) k).1
    have e := h k (Nat.le_refl _) (by omega)
    unfold checkPulls
    unfold checkPulls at h
    rw [← e]
    cases hp : pull k with
    | done => rfl
    | panic => rfl
    | item p =>
      rw [hp] at h
      simp only at h ⊢
      by_cases ht : ty p ≠ t
      · rw [if_pos ht, if_pos ht]
      · rw [if_neg ht] at h
        rw [if_neg ht, if_neg ht, ih (k + 1) (fun j h1 h2 => h j (by omega) h2)]

theorem checkPulls_list (pull : Nat → Pull α) (l : List α) (ts : List PropType) (k : Nat)
    (h1 : ∀ (j : Nat) (a : α), l[j]? = some a → pull (k + j) = .item a) (h2 : pull (k + l.length) = .done) :
    (checkPulls ty pull ts k).1 = checkTypes ty l ts := by
  induction ts generalizing k l with
  | nil =>
    cases l with
    | nil => unfold checkPulls; rw [show pull k = .done from h2]; rfl
    | cons a l => unfold checkPulls; rw [show pull k = .item a from h1 0 a rfl]; rfl
  | cons t ts ih =>
    cases l with
    | nil => unfold checkPulls; rw [show pull k = .done from h2]; rfl
    | cons a l =>
      unfold checkPulls checkTypes
      rw [show pull k = .item a from h1 0 a rfl]
      simp only
      have := ih l (k + 1) (fun j x hx => by rw [show k + 1 + j = k + (j + 1) by omega]; exact h1 (j + 1) x hx)
        (by rw [show k + 1 + l.length = k + (a :: l).length by simp; omega]; exact h2)
      split
      · rfl
      · simp only [this]

theorem isPanic_map' {β γ : Type} (o : Outcome β) (f : β → γ) : (o.map f).isPanic = o.isPanic := by cases o <;> rfl

theorem checkPulls_ok {pull : Nat → Pull α} {ts : List PropType} {k : Nat} {l : List α} {n : Nat}
    (h : checkPulls ty pull ts k = (.ok l, n)) :
    l.map ty = ts ∧ (∀ (j : Nat) (a : α), l[j]? = some a → pull (k + j) = .item a) ∧ pull (k + ts.length) = .done ∧
      n = k + ts.length + 1 := by
  induction ts generalizing k l n with
  | nil =>
    unfold checkPulls at h
    cases hp : pull k <;> simp only [hp] at h <;> cases h
    exact ⟨rfl, fun j a e => by simp at e, rfl, by simp⟩
  | cons t ts ih =>
    unfold checkPulls at h
    cases hp : pull k with
    | done => simp only [hp] at h; cases h
    | panic => simp only [hp] at h; cases h
    | item p =>
      simp only [hp] at h
      by_cases ht : ty p ≠ t
      · rw [if_pos ht] at h; cases h
      · rw [if_neg ht] at h
        cases hr : checkPulls ty pull ts (k + 1) with
        | mk r m =>
          simp only [hr] at h
          cases r with
          | err _ => cases h
          | panic _ => cases h
          | ok l' =>
            cases h
            obtain ⟨a1, a2, a3, a4⟩ := ih hr
            refine ⟨by simp [a1, not_not.1 ht], ?_, ?_, by simp; omega⟩
            · intro j a e
              cases j with
              | zero => cases e; exact hp
              | succ j =>
                rw [show k + (j + 1) = k + 1 + j by omega]
                exact a2 j a e
            · rw [show k + (t :: ts).length = k + 1 + ts.length by simp; omega]; exact a3

theorem checkPulls_panic {pull : Nat → Pull α} {ts : List PropType} {k : Nat} :
    (checkPulls ty pull ts k).1.isPanic = true ↔
      ∃ (l : List α), l.map ty = ts.take l.length ∧ l.length ≤ ts.length ∧
        (∀ (j : Nat) (a : α), l[j]? = some a → pull (k + j) = .item a) ∧ pull (k + l.length) = .panic := by
  induction ts generalizing k with
  | nil =>
    unfold checkPulls
    constructor
    · intro h
      cases hp : pull k with
      | done => rw [hp] at h; cases h
      | item a => rw [hp] at h; cases h
      | panic => exact ⟨[], rfl, Nat.le_refl _, fun j a e => by simp at e, hp⟩
    · rintro ⟨l, -, hl, -, hp⟩
      cases l with
      | nil => rw [show pull k = .panic from hp]; rfl
      | cons a l => simp at hl
  | cons t ts ih =>
    unfold checkPulls
    constructor
    · intro h
      cases hp : pull k with
      | done => rw [hp] at h; cases h
      | panic => exact ⟨[], rfl, Nat.zero_le _, fun j a e => by simp at e, hp⟩
      | item p =>
        rw [hp] at h
        simp only at h
        by_cases ht : ty p ≠ t
        · rw [if_pos ht] at h; cases h
        · rw [if_neg ht] at h
          simp only [isPanic_map'] at h
          obtain ⟨l, a1, a2, a3, a4⟩ := ih.1 h
          refine ⟨p :: l, by simp [a1, not_not.1 ht], by simpa using a2, ?_, ?_⟩
          · intro j a e
            cases j with
            | zero => cases e; exact hp
            | succ j => rw [show k + (j + 1) = k + 1 + j by omega]; exact a3 j a e
          · rw [show k + (p :: l).length = k + 1 + l.length by simp; omega]; exact a4
    · rintro ⟨l, a1, a2, a3, a4⟩
      cases l with
      | nil => rw [show pull k = .panic from a4]; rfl
      | cons p l =>
        rw [show pull k = .item p from a3 0 p rfl]
        simp only [List.map_cons, List.length_cons, List.take_succ_cons, List.cons.injEq] at a1
        simp only
        rw [if_neg (by rw [a1.1]; simp)]
        simp only [isPanic_map']
        refine ih.2 ⟨l, a1.2, by simpa using a2, ?_, ?_⟩
        · intro j a e; rw [show k + 1 + j = k + (j + 1) by omega]; exact a3 (j + 1) a e
        · rw [show k + 1 + l.length = k + (p :: l).length by simp; omega]; exact a4

theorem checkSource_count (cap : Nat) (s : Source α) (ts : List PropType) :
    (checkSource ty cap s ts).2 ≤ ts.length + 1 := by
  unfold checkSource
  split
  · simp
  · have := (checkPulls_count ty s.pull ts 0).2; omega

theorem checkSource_congr (cap : Nat) {s s' : Source α} (ts : List PropType) (h : SameUpTo (checkSource ty cap s ts).2 s s') :
    checkSource ty cap s ts = checkSource ty cap s' ts := by
  obtain ⟨h1, h2⟩ := h
  unfold checkSource at h2 ⊢
  rw [← h1]
  by_cases hc : cap < s.hint
  · rw [if_pos hc, if_pos hc]
  · rw [if_neg hc] at h2
    rw [if_neg hc, if_neg hc]
    exact checkPulls_local ty ts 0 fun j _ hj => h2 j hj

theorem checkSource_list (cap : Nat) {s : Source α} {l : List α} (hs : Yields s l) (hc : s.hint ≤ cap) (ts : List PropType) :
    (checkSource ty cap s ts).1 = checkTypes ty l ts := by
  unfold checkSource
  rw [if_neg (by omega)]
  exact checkPulls_list ty s.pull l ts 0 (fun j a e => by rw [Nat.zero_add]; exact hs.1 j a e) (by rw [Nat.zero_add]; exact hs.2)

theorem checkSource_ok {cap : Nat} {s : Source α} {ts : List PropType} {l : List α} {n : Nat}
    (h : checkSource ty cap s ts = (.ok l, n)) : Yields s l ∧ l.map ty = ts ∧ s.hint ≤ cap ∧ n = ts.length + 1 := by
  unfold checkSource at h
  by_cases hc : cap < s.hint
  · rw [if_pos hc] at h; cases h
  · rw [if_neg hc] at h
    obtain ⟨a1, a2, a3, a4⟩ := checkPulls_ok ty h
    have hl : l.length = ts.length := by rw [← a1, List.length_map]
    refine ⟨⟨fun k a e => by have := a2 k a e; rwa [Nat.zero_add] at this, by rw [Nat.zero_add] at a3; rwa [hl]⟩, a1, by omega, by omega⟩

theorem checkSource_panic (cap : Nat) (s : Source α) (ts : List PropType) :
    (checkSource ty cap s ts).1.isPanic = true ↔
      cap < s.hint ∨ ∃ l : List α, l.map ty = ts.take l.length ∧ l.length ≤ ts.length ∧
        (∀ (j : Nat) (a : α), l[j]? = some a → s.pull j = .item a) ∧ s.pull l.length = .panic := by
  unfold checkSource
  by_cases hc : cap < s.hint
  · rw [if_pos hc]; exact ⟨fun _ => .inl hc, fun _ => rfl⟩
  · rw [if_neg hc]
    show (checkPulls ty s.pull ts 0).1.isPanic = true ↔ _
    rw [checkPulls_panic]
    simp only [Nat.zero_add]
    exact ⟨fun h => .inr h, fun h => h.resolve_left hc⟩
end


theorem createFrom_cases (cap : Capacity) (b : Baseline) (C : ContractTy) (h : Idx) (ss : Source DynProp) (cs : Source DynChannel) :
    (b.contracts.contains h = false ∧ ∃ m, objectCreateFrom cap b C h ss cs = ((b, .err m), (0, 0))) ∨
    (b.contracts.contains h = true ∧
      (((∀ l, (checkSource DynProp.propType cap.states ss C.stateTypes).1 ≠ .ok l) ∧
          ∃ r : Outcome Idx, (∀ o, r ≠ .ok o) ∧ r.isPanic = (checkSource DynProp.propType cap.states ss C.stateTypes).1.isPanic ∧
          objectCreateFrom cap b C h ss cs = ((b, r), ((checkSource DynProp.propType cap.states ss C.stateTypes).2, 0))) ∨
      ∃ l, (checkSource DynProp.propType cap.states ss C.stateTypes).1 = .ok l ∧
        (((∀ m, (checkSource Sigma.fst cap.channels cs C.channelTypes).1 ≠ .ok m) ∧
            ∃ r : Outcome Idx, (∀ o, r ≠ .ok o) ∧ r.isPanic = (checkSource Sigma.fst cap.channels cs C.channelTypes).1.isPanic ∧
            objectCreateFrom cap b C h ss cs = ((b, r), ((checkSource DynProp.propType cap.states ss C.stateTypes).2,
              (checkSource Sigma.fst cap.channels cs C.channelTypes).2))) ∨
          ∃ m, (checkSource Sigma.fst cap.channels cs C.channelTypes).1 = .ok m ∧
            objectCreateFrom cap b C h ss cs = (b.objectCreate C h l m, ((checkSource DynProp.propType cap.states ss C.stateTypes).2,
              (checkSource Sigma.fst cap.channels cs C.channelTypes).2))))) := by
  unfold objectCreateFrom
  cases hc : b.contracts.contains h with
  | false => exact .inl ⟨rfl, _, rfl⟩
  | true =>
    refine .inr ⟨rfl, ?_⟩
    rw [if_neg (by simp)]
    rcases hs : checkSource DynProp.propType cap.states ss C.stateTypes with ⟨rs, n⟩
    cases rs with
    | err m => exact .inl ⟨fun l e => by simp at e, _, fun o e => by simp at e, rfl, rfl⟩
    | panic m => exact .inl ⟨fun l e => by simp at e, _, fun o e => by simp at e, rfl, rfl⟩
    | ok l =>
      refine .inr ⟨l, rfl, ?_⟩
      rcases hs' : checkSource Sigma.fst cap.channels cs C.channelTypes with ⟨rc, k⟩
      cases rc with
      | err m => exact .inl ⟨fun l e => by simp at e, _, fun o e => by simp at e, rfl, rfl⟩
      | panic m => exact .inl ⟨fun l e => by simp at e, _, fun o e => by simp at e, rfl, rfl⟩
      | ok m => exact .inr ⟨m, rfl, rfl⟩

theorem contains_contractData (b : Baseline) (h : Idx) :
    b.contracts.contains h = true ↔ (b.contractData h).isOk = true := by
  unfold Baseline.contractData Arena.contains
  cases b.contracts.get h <;> simp [Outcome.isOk]

theorem stateTypes_length (C : ContractTy) : C.stateTypes.length = C.states.length := by simp [ContractTy.stateTypes]
theorem channelTypes_length (C : ContractTy) : C.channelTypes.length = C.channels.length := by simp [ContractTy.channelTypes]

theorem fst_eq_of {α β : Type} {p : α × β} {a : α} (h : p.1 = a) : p = (a, p.2) := by rw [← h]

/-! ## C99 -/

/-- **C99.** `object_create` calls `next` of each iterator at most once more than the contract has fields; what the iterators
would have yielded after the calls it made has no influence on anything.  It does not touch them if the contract is not
registered, and does not touch the second one unless the first one yielded exactly what the contract declares.  So it comes
to an end on endless iterators too. -/
theorem C99_looks_no_further (cap : Capacity) (b : Baseline) (C : ContractTy) (h : Idx) (ss : Source DynProp) (cs : Source DynChannel) :
    (objectCreateFrom cap b C h ss cs).2.1 ≤ C.states.length + 1 ∧
    (objectCreateFrom cap b C h ss cs).2.2 ≤ C.channels.length + 1 ∧
    ((b.contractData h).isErr = true → (objectCreateFrom cap b C h ss cs).2 = (0, 0)) ∧
    ((¬ ∃ l, Yields ss l ∧ l.map DynProp.propType = C.stateTypes) → (objectCreateFrom cap b C h ss cs).2.2 = 0) ∧
    (∀ (ss' : Source DynProp) (cs' : Source DynChannel), SameUpTo (objectCreateFrom cap b C h ss cs).2.1 ss ss' →
      SameUpTo (objectCreateFrom cap b C h ss cs).2.2 cs cs' →
      objectCreateFrom cap b C h ss' cs' = objectCreateFrom cap b C h ss cs) := by
  have cS := checkSource_count DynProp.propType cap.states ss C.stateTypes
  have cC := checkSource_count (Sigma.fst : DynChannel → PropType) cap.channels cs C.channelTypes
  rw [stateTypes_length] at cS
  rw [channelTypes_length] at cC
  rcases createFrom_cases cap b C h ss cs with ⟨hc, m, e⟩ | ⟨hc, ⟨hS, r, -, -, e⟩ | ⟨l, hl, ⟨hC, r, -, -, e⟩ | ⟨m, hm, e⟩⟩⟩
  · refine ⟨by rw [e]; simp, by rw [e]; simp, fun _ => by rw [e], fun _ => by rw [e], fun ss' cs' _ _ => ?_⟩
    unfold objectCreateFrom; simp [hc]
  · have hok : (b.contractData h).isOk = true := (contains_contractData b h).1 hc
    refine ⟨by rw [e]; exact cS, by rw [e]; simp, fun h' => ?_, fun _ => by rw [e], fun ss' cs' h1 _ => ?_⟩
    · cases hx : b.contractData h <;> rw [hx] at h' hok <;> cases h' <;> cases hok
    · rw [e] at h1
      have := checkSource_congr DynProp.propType cap.states C.stateTypes h1
      unfold objectCreateFrom
      rw [← this]
      rcases hs : checkSource DynProp.propType cap.states ss C.stateTypes with ⟨rs, n⟩
      rw [hs] at hS
      cases rs with
      | ok l => exact absurd rfl (hS l)
      | err m => rfl
      | panic m => rfl
  · have hok : (b.contractData h).isOk = true := (contains_contractData b h).1 hc
    refine ⟨by rw [e]; exact cS, by rw [e]; exact cC, fun h' => ?_, fun hn => ?_, fun ss' cs' h1 h2 => ?_⟩
    · cases hx : b.contractData h <;> rw [hx] at h' hok <;> cases h' <;> cases hok
    · obtain ⟨a1, a2, -⟩ := checkSource_ok _ (fst_eq_of hl)
      exact absurd ⟨l, a1, a2⟩ hn
    · rw [e] at h1 h2
      unfold objectCreateFrom
      rw [← checkSource_congr DynProp.propType cap.states C.stateTypes h1,
        ← checkSource_congr Sigma.fst cap.channels C.channelTypes h2]
  · have hok : (b.contractData h).isOk = true := (contains_contractData b h).1 hc
    refine ⟨by rw [e]; exact cS, by rw [e]; exact cC, fun h' => ?_, fun hn => ?_, fun ss' cs' h1 h2 => ?_⟩
    · cases hx : b.contractData h <;> rw [hx] at h' hok <;> cases h' <;> cases hok
    · obtain ⟨a1, a2, -⟩ := checkSource_ok _ (fst_eq_of hl)
      exact absurd ⟨l, a1, a2⟩ hn
    · rw [e] at h1 h2
      unfold objectCreateFrom
      rw [← checkSource_congr DynProp.propType cap.states C.stateTypes h1,
        ← checkSource_congr Sigma.fst cap.channels C.channelTypes h2]

/-- **C99.** On iterators that yield two lists (and whose size hints a vector can hold) `object_create` is the function of those
lists that all other properties speak about. -/
theorem C99_depends_on_the_items (cap : Capacity) (b : Baseline) (C : ContractTy) (h : Idx) (ss : Source DynProp) (cs : Source DynChannel)
    (l : List DynProp) (m : List DynChannel) (hs : Yields ss l) (hc : Yields cs m) (h1 : ss.hint ≤ cap.states) (h2 : cs.hint ≤ cap.channels) :
    (objectCreateFrom cap b C h ss cs).1 = b.objectCreate C h l m := by
  have e1 := checkSource_list DynProp.propType cap.states hs h1 C.stateTypes
  have e2 := checkSource_list (Sigma.fst : DynChannel → PropType) cap.channels hc h2 C.channelTypes
  unfold objectCreateFrom
  by_cases hb : (!b.contracts.contains h) = true
  · rw [if_pos hb]; unfold Baseline.objectCreate; rw [if_pos hb]
  · rw [if_neg hb, fst_eq_of e1]
    cases hx : checkTypes DynProp.propType l C.stateTypes with
    | err e => simp only; unfold Baseline.objectCreate; rw [if_neg hb, hx]
    | panic e => simp only; unfold Baseline.objectCreate; rw [if_neg hb, hx]
    | ok l' =>
      simp only
      rw [fst_eq_of e2]
      cases hy : checkTypes Sigma.fst m C.channelTypes with
      | err e => simp only; unfold Baseline.objectCreate; rw [if_neg hb, hx]; simp only; rw [hy]
      | panic e => simp only; unfold Baseline.objectCreate; rw [if_neg hb, hx]; simp only; rw [hy]
      | ok m' => simp only; rw [checkTypes_val _ hx, checkTypes_val _ hy]

/-- **C99.** Whatever the iterators do — endless, panicking, lying about their size — `object_create` succeeds exactly if the
contract is registered, the iterators yield exactly items of the declared types, and their size hints can be allocated; then it
has the effect described by C09 and C10 for the items yielded, and in every other case, also if it panics, the baseline is
unchanged. -/
theorem C99_all_or_nothing (cap : Capacity) (b : Baseline) (C : ContractTy) (h : Idx) (ss : Source DynProp) (cs : Source DynChannel) :
    ((∃ o, (objectCreateFrom cap b C h ss cs).1.2 = .ok o) ↔
      (b.contractData h).isOk = true ∧ ss.hint ≤ cap.states ∧ cs.hint ≤ cap.channels ∧
      ∃ (l : List DynProp) (m : List DynChannel), Yields ss l ∧ Yields cs m ∧ l.map DynProp.propType = C.states.map Field.ty ∧
        m.map Sigma.fst = C.channels.map Field.ty) ∧
    ((¬ ∃ o, (objectCreateFrom cap b C h ss cs).1.2 = .ok o) → (objectCreateFrom cap b C h ss cs).1.1 = b) := by
  constructor
  · constructor
    · rintro ⟨o, ho⟩
      rcases createFrom_cases cap b C h ss cs with ⟨hc, m, e⟩ | ⟨hc, ⟨hS, r, hr, -, e⟩ | ⟨l, hl, ⟨hC, r, hr, -, e⟩ | ⟨m, hm, e⟩⟩⟩
      · rw [e] at ho; cases ho
      · rw [e] at ho; exact absurd ho (hr o)
      · rw [e] at ho; exact absurd ho (hr o)
      · obtain ⟨a1, a2, a3, -⟩ := checkSource_ok _ (fst_eq_of hl)
        obtain ⟨b1, b2, b3, -⟩ := checkSource_ok _ (fst_eq_of hm)
        exact ⟨(contains_contractData b h).1 hc, a3, b3, l, m, a1, b1, a2, b2⟩
    · rintro ⟨h1, h2, h3, l, m, h4, h5, h6, h7⟩
      rw [C99_depends_on_the_items cap b C h ss cs l m h4 h5 h2 h3]
      exact (C08_create_accepts_exactly b C h l m).1.2 ⟨h1, h6, h7⟩
  · intro hno
    rcases createFrom_cases cap b C h ss cs with ⟨hc, m, e⟩ | ⟨hc, ⟨hS, r, hr, -, e⟩ | ⟨l, hl, ⟨hC, r, hr, -, e⟩ | ⟨m, hm, e⟩⟩⟩
    · rw [e]
    · rw [e]
    · rw [e]
    · rw [e] at hno ⊢
      rcases objectCreate_cases b C h l m with ⟨⟨cd, h1⟩, h2, h3⟩ | ⟨h1, -, -⟩
      · obtain ⟨cons, -, er⟩ := objectCreate_ok h1 h2 h3
        exact absurd ⟨_, by rw [er]⟩ hno
      · exact h1

/-- A contract with one `u8` state. -/
def byteOne : ContractTy := ⟨⟨"one", 0, 0, 0⟩, [⟨"x", .prim .u8⟩], []⟩

/-! ## C100 -/

/-- The full statement of C100: on iterators that do not panic, are honest about their size, and can be endless,
`object_create` returns. -/
def AlwaysReturns (cap : Capacity) : Prop :=
  ∀ (kind : Kind) (evs : List Event) (b : Baseline) (C : ContractTy) (h : Idx) (ss : Source DynProp) (cs : Source DynChannel),
    History kind evs b → Behaves ss → Behaves cs → Honest ss → Honest cs → (objectCreateFrom cap b C h ss cs).1.2.isPanic = false

/-- **C100 is false of the code**: `object_create(&c, std::iter::repeat(x), …)` panics in `Vec::with_capacity(usize::MAX)` before it looks
at an item, on every baseline in which the contract is registered and for every contract and value, instead of reporting that
there are too many. -/
theorem C100_negation (cap : Capacity) (h1 : cap.states < 2 ^ 63) :
    ¬ AlwaysReturns cap ∧
    (∀ (b : Baseline) (C : ContractTy) (h : Idx) (x : DynProp) (cs : Source DynChannel), (b.contractData h).isOk = true →
      objectCreateFrom cap b C h (repeatSource x) cs = ((b, .panic "capacity overflow"), (0, 0))) := by
  have key : ∀ (b : Baseline) (C : ContractTy) (h : Idx) (x : DynProp) (cs : Source DynChannel), (b.contractData h).isOk = true →
      objectCreateFrom cap b C h (repeatSource x) cs = ((b, .panic "capacity overflow"), (0, 0)) := by
    intro b C h x cs hok
    have hx : checkSource DynProp.propType cap.states (repeatSource x) C.stateTypes = (.panic "capacity overflow", 0) := by
      unfold checkSource
      have hlt : cap.states < (repeatSource x).hint := by
        show cap.states < 18446744073709551615
        omega
      rw [if_pos hlt]
    unfold objectCreateFrom
    rw [(contains_contractData b h).2 hok, if_neg (by simp), hx]
  refine ⟨fun hA => ?_, key⟩
  have hreg : (((Baseline.new .main).runOps [.register emptyC]).2.contractData h0).isOk = true := by decide +kernel
  have := hA .main _ _ emptyC h0 (repeatSource (.primitive (.u8 0))) (listSource []) (runOps_trace _ [.register emptyC])
    (fun k e => by cases e) (fun k e => by simp [listSource] at e) (fun k _ e => by cases e) (fun k hk => by simp [listSource] at hk)
  rw [key _ _ _ _ _ hreg] at this
  cases this

/-- **C100, partial: exactly when it panics.** The contract is registered and either the size hint of the states cannot be
allocated, or their iterator panics after yielding only items of the declared types; or the states are as declared and the same
happens with the channels.  Missing, since false: that it does not panic on honest size hints. -/
theorem C100_panics_exactly_partial (cap : Capacity) (b : Baseline) (C : ContractTy) (h : Idx) (ss : Source DynProp) (cs : Source DynChannel) :
    (objectCreateFrom cap b C h ss cs).1.2.isPanic = true ↔
      (b.contractData h).isOk = true ∧
      ((cap.states < ss.hint ∨ ∃ l : List DynProp, l.map DynProp.propType = (C.states.map Field.ty).take l.length ∧
          l.length ≤ C.states.length ∧ (∀ (j : Nat) (a : DynProp), l[j]? = some a → ss.pull j = .item a) ∧ ss.pull l.length = .panic) ∨
       ((ss.hint ≤ cap.states ∧ ∃ l : List DynProp, Yields ss l ∧ l.map DynProp.propType = C.states.map Field.ty) ∧
        (cap.channels < cs.hint ∨ ∃ m : List DynChannel, m.map Sigma.fst = (C.channels.map Field.ty).take m.length ∧
          m.length ≤ C.channels.length ∧ (∀ (j : Nat) (a : DynChannel), m[j]? = some a → cs.pull j = .item a) ∧
          cs.pull m.length = .panic))) := by
  have pS := checkSource_panic DynProp.propType cap.states ss C.stateTypes
  have pC := checkSource_panic (Sigma.fst : DynChannel → PropType) cap.channels cs C.channelTypes
  rw [stateTypes_length] at pS
  rw [channelTypes_length] at pC
  have okS : (ss.hint ≤ cap.states ∧ ∃ l : List DynProp, Yields ss l ∧ l.map DynProp.propType = C.states.map Field.ty) →
      ∃ l, (checkSource DynProp.propType cap.states ss C.stateTypes).1 = .ok l := by
    rintro ⟨h1, l, h2, h3⟩
    exact ⟨l, by rw [checkSource_list _ _ h2 h1]; exact checkTypes_eq_ok _ h3⟩
  show _ ↔ _ ∧ ((_ ∨ ∃ l : List DynProp, l.map DynProp.propType = C.stateTypes.take l.length ∧ _) ∨ _ ∧
    (_ ∨ ∃ m : List DynChannel, m.map Sigma.fst = C.channelTypes.take m.length ∧ _))
  rw [← pS, ← pC, ← contains_contractData]
  rcases createFrom_cases cap b C h ss cs with ⟨hc, m, e⟩ | ⟨hc, ⟨hS, r, hr, hp, e⟩ | ⟨l, hl, ⟨hC, r, hr, hp, e⟩ | ⟨m, hm, e⟩⟩⟩
  · rw [e, hc]; simp [Outcome.isPanic]
  · rw [e, hc, hp]
    refine ⟨fun h => ⟨rfl, .inl h⟩, ?_⟩
    rintro ⟨-, h | ⟨h, -⟩⟩
    · exact h
    · obtain ⟨l, hl⟩ := okS h; exact absurd hl (hS l)
  · rw [e, hc, hp]
    obtain ⟨a1, a2, a3, -⟩ := checkSource_ok _ (fst_eq_of hl)
    refine ⟨fun h => ⟨rfl, .inr ⟨⟨a3, l, a1, a2⟩, h⟩⟩, ?_⟩
    rintro ⟨-, h | ⟨-, h⟩⟩
    · rw [hl] at h; cases h
    · exact h
  · rw [e, hc, hl, hm]
    have := (C08_create_accepts_exactly b C h l m).2
    simp only [this]
    simp [Outcome.isPanic]

/-- **C100, partial.** With size hints that can be allocated and iterators that do not panic, endless or not, `object_create` returns. -/
theorem C100_returns_partial (cap : Capacity) (b : Baseline) (C : ContractTy) (h : Idx) (ss : Source DynProp) (cs : Source DynChannel)
    (h1 : ss.hint ≤ cap.states) (h2 : cs.hint ≤ cap.channels) (h3 : Behaves ss) (h4 : Behaves cs) :
    (objectCreateFrom cap b C h ss cs).1.2.isPanic = false := by
  cases hp : (objectCreateFrom cap b C h ss cs).1.2.isPanic with
  | false => rfl
  | true =>
    rcases ((C100_panics_exactly_partial cap b C h ss cs).1 hp).2 with (h | ⟨l, -, -, -, h⟩) | ⟨-, h | ⟨l, -, -, -, h⟩⟩
    · omega
    · exact absurd h (h3 _)
    · omega
    · exact absurd h (h4 _)

/-- Non-vacuity: an endless iterator with a modest hint is refused after two pulls; one that panics at its second item leaves the
baseline as it is; the right items are accepted. -/
example :
    let b := ((Baseline.new .main).runOps [.register byteOne]).2
    ((objectCreateFrom ⟨100, 100⟩ b byteOne h0 ⟨fun _ => .item (.primitive (.u8 7)), 3⟩ (listSource [])).1.2.isErr = true ∧
      (objectCreateFrom ⟨100, 100⟩ b byteOne h0 ⟨fun _ => .item (.primitive (.u8 7)), 3⟩ (listSource [])).2 = (2, 0)) ∧
    (objectCreateFrom ⟨100, 100⟩ b byteOne h0 ⟨fun k => if k = 0 then .item (.primitive (.u8 7)) else .panic, 1⟩ (listSource [])).1.2.isPanic = true ∧
    (objectCreateFrom ⟨100, 100⟩ b byteOne h0 (listSource [.primitive (.u8 7)]) (listSource [])).1.2 = .ok h0 ∧
    (objectCreateFrom ⟨100, 100⟩ b byteOne h0 (listSource [.primitive (.u8 7)]) (listSource [])).2 = (2, 1) := by
  decide +kernel

end Verif.Props
