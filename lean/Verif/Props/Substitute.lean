import Verif.Model.Substitute
/-!
# C76: the substitute macro
-/
namespace Verif.Props
open Verif

/-! ## Specification -/

/-- There is a `substitute!…` expression without attributes in (or at the root of) the syntax. -/
inductive HasSite : Syn → Prop
  | here (body : List Char) : HasSite (.mac [] "substitute".toList body)
  | inside (tag : Nat) (attrs : List (List Char)) (kids : List Syn) (k : Syn) : k ∈ kids → HasSite k →
      HasSite (.node tag attrs kids)

/-- There is one below the root. -/
def HasSiteInside (s : Syn) : Prop :=
  ∃ (tag : Nat) (attrs : List (List Char)) (kids : List Syn) (k : Syn), s = .node tag attrs kids ∧ k ∈ kids ∧ HasSite k

/-- `a` is the text of an attribute somewhere in the syntax. -/
inductive AttrIn (a : List Char) : Syn → Prop
  | mac (attrs : List (List Char)) (name body : List Char) : a ∈ attrs → AttrIn a (.mac attrs name body)
  | node (tag : Nat) (attrs : List (List Char)) (kids : List Syn) : a ∈ attrs → AttrIn a (.node tag attrs kids)
  | inside (tag : Nat) (attrs : List (List Char)) (kids : List Syn) (k : Syn) : k ∈ kids → AttrIn a k →
      AttrIn a (.node tag attrs kids)

/-- `s'` is `s` with `val` for every occurrence of `pat`, taken from the left. -/
inductive AllReplaced (pat val : List Char) : List Char → List Char → Prop
  | none (s : List Char) : ¬ pat <:+: s → AllReplaced pat val s s
  | step (a s s' : List Char) : ¬ pat <:+: a ++ pat.dropLast → AllReplaced pat val s s' →
      AllReplaced pat val (a ++ pat ++ s) (a ++ val ++ s')

/-- `t` is the text an attribute with text `s` is to have: the value for every `substitute! ()`, or, if there are none,
for every `substitute ! ()`. -/
def AttrText (val s t : List Char) : Prop :=
  ("substitute! ()".toList <:+: s ∧ AllReplaced "substitute! ()".toList val s t) ∨
  (¬ "substitute! ()".toList <:+: s ∧ "substitute ! ()".toList <:+: s ∧
    AllReplaced "substitute ! ()".toList val s t)

/-- The attribute mentions neither spelling. -/
def AttrPlain (s : List Char) : Prop := ¬ "substitute! ()".toList <:+: s ∧ ¬ "substitute ! ()".toList <:+: s

/-- What becomes of an attribute: plain ones stay, in others the value is put in and the text read again. -/
def AttrReplaced (relex : List Char → Option (List Char)) (val s s' : List Char) : Prop :=
  (AttrPlain s ∧ s' = s) ∨ ∃ t, AttrText val s t ∧ relex t = some s'

/-- Pointwise relation of two lists of equal length. -/
def Pointwise {α : Type} (R : α → α → Prop) (l l' : List α) : Prop :=
  l.length = l'.length ∧ ∀ (i : Nat) (a a' : α), l[i]? = some a → l'[i]? = some a' → R a a'

/-- `s'` is `s` with the value for every `substitute!…` expression that has no attributes, and in the attributes; all
else as it was. -/
inductive Replaced (relex : List Char → Option (List Char)) (v : Syn) (val : List Char) : Syn → Syn → Prop
  | site (body : List Char) : Replaced relex v val (.mac [] "substitute".toList body) v
  | attributed (attrs : List (List Char)) (body : List Char) : attrs ≠ [] →
      Replaced relex v val (.mac attrs "substitute".toList body) (.mac attrs "substitute".toList body)
  | mac (attrs attrs' : List (List Char)) (name body : List Char) : name ≠ "substitute".toList →
      Pointwise (AttrReplaced relex val) attrs attrs' →
      Replaced relex v val (.mac attrs name body) (.mac attrs' name body)
  | node (tag : Nat) (attrs attrs' : List (List Char)) (kids kids' : List Syn) :
      Pointwise (AttrReplaced relex val) attrs attrs' → kids.length = kids'.length →
      (∀ (i : Nat) (k k' : Syn), kids[i]? = some k → kids'[i]? = some k' → Replaced relex v val k k') →
      Replaced relex v val (.node tag attrs kids) (.node tag attrs' kids')

/-! ## Proof -/

theorem split_ne_nil (pat : List Char) : ∀ (n : Nat) (s : List Char), splitOnPat pat n s ≠ []
  | 0, [] => by simp [splitOnPat]
  | _ + 1, [] => by simp [splitOnPat]
  | n + 1, _ :: s => by rw [splitOnPat]; exact split_ne_nil pat n s
  | 0, c :: s => by
    rw [splitOnPat]
    split
    · simp
    · cases h : splitOnPat pat 0 s <;> simp

theorem split_skip (pat : List Char) : ∀ (a s : List Char), splitOnPat pat a.length (a ++ s) = splitOnPat pat 0 s
  | [], _ => rfl
  | c :: a, s => by
    rw [List.length_cons, List.cons_append, splitOnPat]
    exact split_skip pat a s

/-- If the pattern does not start within `a`, the split of `a ++ s` is that of `s` with `a` in front. -/
theorem split_prefix (pat s : List Char) (piece : List Char) (pieces : List (List Char))
    (h : splitOnPat pat 0 s = piece :: pieces) : ∀ (a : List Char),
    (∀ (x y : List Char), a = x ++ y → y ≠ [] → ¬ pat <+: y ++ s) →
    splitOnPat pat 0 (a ++ s) = (a ++ piece) :: pieces
  | [], _ => h
  | c :: a, hn => by
    have ih := split_prefix pat s piece pieces h a fun x y e => hn (c :: x) y (by simp [e])
    rw [List.cons_append, splitOnPat]
    have : pat.isPrefixOf (c :: (a ++ s)) = false := by
      cases hp : pat.isPrefixOf (c :: (a ++ s)) with
      | false => rfl
      | true => exact absurd (List.isPrefixOf_iff_prefix.1 hp) (hn [] (c :: a) rfl (by simp))
    simp [this, ih]

/-- The first occurrence of a pattern that occurs. -/
theorem first_occurrence (pat : List Char) (hp : pat ≠ []) : ∀ (s : List Char), pat <:+: s →
    ∃ a t, s = a ++ pat ++ t ∧ ∀ (x y : List Char), a = x ++ y → y ≠ [] → ¬ pat <+: y ++ (pat ++ t)
  | [], h => absurd (List.infix_nil.1 h) hp
  | c :: s, h => by
    by_cases hq : pat <+: c :: s
    · obtain ⟨t, ht⟩ := hq
      exact ⟨[], t, by simpa using ht.symm, fun x y e hy => by
        have := List.append_eq_nil_iff.1 e.symm
        exact absurd this.2 hy⟩
    · have : pat <:+: s := by
        rcases List.infix_cons_iff.1 h with h | h
        · exact absurd h hq
        · exact h
      obtain ⟨a, t, e, hn⟩ := first_occurrence pat hp s this
      refine ⟨c :: a, t, by simp [e], fun x y exy hy => ?_⟩
      cases x with
      | nil =>
        have : y = c :: a := by simpa using exy.symm
        subst this
        rw [e] at hq
        simpa using hq
      | cons d x =>
        have hh : d = c ∧ a = x ++ y := by
          have := List.cons_eq_cons.1 exy
          exact ⟨this.1.symm, this.2⟩
        exact hn x y hh.2 hy

theorem first_occurrence_infix (pat a t : List Char) (hp : pat ≠ [])
    (hn : ∀ (x y : List Char), a = x ++ y → y ≠ [] → ¬ pat <+: y ++ (pat ++ t)) : ¬ pat <:+: a ++ pat.dropLast := by
  intro ⟨x, z, e⟩
  have hl : x.length < a.length := by
    have h1 := congrArg List.length e
    have h2 : pat.dropLast.length = pat.length - 1 := List.length_dropLast
    have h3 : 0 < pat.length := List.length_pos_iff.2 hp
    simp only [List.length_append, h2] at h1
    omega
  have e2 : a = x ++ a.drop x.length := by
    have h := congrArg (List.take x.length) e
    rw [List.append_assoc, List.take_left, List.take_append_of_le_length (Nat.le_of_lt hl)] at h
    conv => lhs; rw [← List.take_append_drop x.length a]
    rw [← h]
  refine hn x (a.drop x.length) e2 ?_ ?_
  · intro h
    have := congrArg List.length h
    simp at this
    omega
  · have h := congrArg (List.drop x.length) e
    rw [List.append_assoc, List.drop_left, List.drop_append_of_le_length (Nat.le_of_lt hl)] at h
    refine List.IsPrefix.trans ⟨z, h⟩ ?_
    have hd : pat = pat.dropLast ++ [pat.getLast hp] := (List.dropLast_concat_getLast hp).symm
    refine ⟨pat.getLast hp :: t, ?_⟩
    conv => rhs; rw [hd]
    simp

theorem join_cons (val a piece : List Char) (pieces : List (List Char)) :
    joinWith val ((a ++ piece) :: pieces) = a ++ joinWith val (piece :: pieces) := by
  cases pieces <;> simp [joinWith]

/-- Splitting and joining replaces all occurrences; there is one piece more than replaced occurrences. -/
theorem join_split (pat val : List Char) (hp : pat ≠ []) : ∀ (n : Nat) (s : List Char), s.length ≤ n →
    AllReplaced pat val s (joinWith val (splitOnPat pat 0 s)) ∧
    (1 < (splitOnPat pat 0 s).length ↔ pat <:+: s) := by
  intro n
  induction n with
  | zero =>
    intro s hs
    have : s = [] := List.length_eq_zero_iff.1 (Nat.le_zero.1 hs)
    subst this
    have hn : ¬ pat <:+: [] := fun h => hp (List.infix_nil.1 h)
    exact ⟨by simpa [splitOnPat, joinWith] using AllReplaced.none (val := val) [] hn, by simp [splitOnPat, hp]⟩
  | succ n ih =>
    intro s hs
    by_cases h : pat <:+: s
    · obtain ⟨a, t, e, hn⟩ := first_occurrence pat hp s h
      have hl : t.length ≤ n := by
        have h1 := congrArg List.length e
        have h3 : 0 < pat.length := List.length_pos_iff.2 hp
        simp only [List.length_append] at h1
        omega
      obtain ⟨ih1, ih2⟩ := ih t hl
      have hsplit : splitOnPat pat 0 (pat ++ t) = [] :: splitOnPat pat 0 t := by
        cases pat with
        | nil => exact absurd rfl hp
        | cons c p =>
          rw [List.cons_append, splitOnPat, if_pos (List.isPrefixOf_iff_prefix.2 ⟨t, List.cons_append⟩)]
          rw [List.length_cons, Nat.add_sub_cancel, split_skip]
      have hs' : splitOnPat pat 0 s = (a ++ []) :: splitOnPat pat 0 t := by
        rw [e, List.append_assoc]
        exact split_prefix pat (pat ++ t) [] _ hsplit a hn
      have hne := split_ne_nil pat 0 t
      constructor
      · rw [hs', join_cons]
        have hj : joinWith val ([] :: splitOnPat pat 0 t) = val ++ joinWith val (splitOnPat pat 0 t) := by
          cases hq : splitOnPat pat 0 t with
          | nil => exact absurd hq hne
          | cons p ps => simp [joinWith]
        rw [hj, ← List.append_assoc, e]
        exact .step a t _ (first_occurrence_infix pat a t hp hn) ih1
      · rw [hs']
        refine ⟨fun _ => h, fun _ => ?_⟩
        rw [List.length_cons]
        have := List.length_pos_iff.2 hne
        omega
    · have hs' : splitOnPat pat 0 s = [s] := by
        have := split_prefix pat [] [] [] rfl s fun x y e hy hpre => h (by
          rw [e]
          exact (List.IsPrefix.isInfix (by simpa using hpre)).trans (List.suffix_append x y).isInfix)
        simpa using this
      exact ⟨by rw [hs']; exact .none s h, by simp [hs', h]⟩

theorem tryPattern_iff (val s pat : List Char) (hp : pat ≠ []) :
    (∀ t, tryPattern val s pat = some t → pat <:+: s ∧ AllReplaced pat val s t) ∧
    (tryPattern val s pat = none → ¬ pat <:+: s) := by
  obtain ⟨h1, h2⟩ := join_split pat val hp s.length s (Nat.le_refl _)
  constructor
  · intro t ht
    unfold tryPattern at ht
    split at ht
    · rename_i hl
      cases ht
      exact ⟨h2.1 hl, h1⟩
    · cases ht
  · intro ht h
    unfold tryPattern at ht
    rw [if_pos (h2.2 h)] at ht
    cases ht

theorem substAttr_spec (relex : List Char → Option (List Char)) (val s : List Char) :
    (∀ s', substAttr relex val s = some s' → AttrReplaced relex val s s') ∧
    (substAttr relex val s = none → ∃ t, AttrText val s t ∧ relex t = none) ∧
    (AttrPlain s → substAttr relex val s = some s) := by
  obtain ⟨a1, a2⟩ := tryPattern_iff val s tightPat (by decide)
  obtain ⟨b1, b2⟩ := tryPattern_iff val s loosePat (by decide)
  unfold substAttr
  cases ht : tryPattern val s tightPat with
  | some t =>
    obtain ⟨h1, h2⟩ := a1 t ht
    exact ⟨fun s' h => .inr ⟨t, .inl ⟨h1, h2⟩, h⟩, fun h => ⟨t, .inl ⟨h1, h2⟩, h⟩, fun h => absurd h1 h.1⟩
  | none =>
    have hn := a2 ht
    cases hl : tryPattern val s loosePat with
    | some t =>
      obtain ⟨h1, h2⟩ := b1 t hl
      exact ⟨fun s' h => .inr ⟨t, .inr ⟨hn, h1, h2⟩, h⟩, fun h => ⟨t, .inr ⟨hn, h1, h2⟩, h⟩, fun h => absurd h1 h.2⟩
    | none =>
      refine ⟨fun s' h => .inl ⟨⟨hn, b2 hl⟩, ?_⟩, fun h => (by cases h), fun _ => rfl⟩
      cases h
      rfl

theorem substAttrs_spec (relex : List Char → Option (List Char)) (val : List Char) : ∀ (as : List (List Char)),
    (∀ as', substAttrs relex val as = some as' → Pointwise (AttrReplaced relex val) as as') ∧
    (substAttrs relex val as = none → ∃ a ∈ as, ∃ t, AttrText val a t ∧ relex t = none) ∧
    ((∀ a ∈ as, AttrPlain a) → substAttrs relex val as = some as)
  | [] => by
    refine ⟨fun as' h => ?_, fun h => (by simp [substAttrs] at h), fun _ => rfl⟩
    simp only [substAttrs, Option.some.injEq] at h
    subst h
    exact ⟨rfl, fun i a a' h => by simp at h⟩
  | a :: as => by
    obtain ⟨h1, h2, h3⟩ := substAttr_spec relex val a
    obtain ⟨i1, i2, i3⟩ := substAttrs_spec relex val as
    rw [substAttrs]
    cases ha : substAttr relex val a with
    | none =>
      obtain ⟨t, ht⟩ := h2 ha
      refine ⟨fun as' h => (by cases h), fun _ => ⟨a, by simp, t, ht⟩, fun h => ?_⟩
      rw [h3 (h a (by simp))] at ha
      cases ha
    | some a' =>
      cases hs : substAttrs relex val as with
      | none =>
        obtain ⟨b, hb, t, ht⟩ := i2 hs
        refine ⟨fun as' h => (by cases h), fun _ => ⟨b, by simp [hb], t, ht⟩, fun h => ?_⟩
        rw [i3 fun c hc => h c (by simp [hc])] at hs
        cases hs
      | some as' =>
        refine ⟨fun r h => ?_, fun h => (by cases h), fun h => ?_⟩
        · cases h
          obtain ⟨l, p⟩ := i1 as' hs
          refine ⟨by simp [l], fun i x y hx hy => ?_⟩
          cases i with
          | zero =>
            simp at hx hy
            subst hx; subst hy
            exact h1 a' ha
          | succ i => exact p i x y (by simpa using hx) (by simpa using hy)
        · rw [h3 (h a (by simp))] at ha
          rw [i3 fun c hc => h c (by simp [hc])] at hs
          cases ha; cases hs; rfl

/-- More depth changes nothing once the expansion has ended. -/
theorem visit_mono (relex : List Char → Option (List Char)) (v : Syn) (val : List Char) : ∀ (n : Nat),
    (∀ s, visitSyn relex v val n s ≠ .deeper → visitSyn relex v val (n + 1) s = visitSyn relex v val n s) ∧
    (∀ s, visitInside relex v val n s ≠ .deeper → visitInside relex v val (n + 1) s = visitInside relex v val n s) ∧
    (∀ s, visitKids relex v val n s ≠ .deeper → visitKids relex v val (n + 1) s = visitKids relex v val n s) := by
  intro n
  induction n with
  | zero => exact ⟨fun s h => absurd (by cases s <;> rfl) h, fun s h => absurd (by cases s <;> rfl) h,
      fun s h => absurd (by cases s <;> rfl) h⟩
  | succ n ih =>
    obtain ⟨i1, i2, i3⟩ := ih
    refine ⟨fun s h => ?_, fun s h => ?_, fun s h => ?_⟩
    · cases s with
      | mac attrs name body =>
        rw [visitSyn] at h ⊢
        rw [visitSyn]
        split
        · rename_i hn
          rw [if_pos hn] at h
          split
          · rename_i ha
            rw [if_pos ha] at h
            exact i2 v h
          · rfl
        · rename_i hn
          rw [if_neg hn] at h
          exact i2 _ h
      | node tag attrs kids =>
        rw [visitSyn] at h ⊢
        rw [visitSyn]
        exact i2 _ h
    · cases s with
      | mac attrs name body => rw [visitInside, visitInside]
      | node tag attrs kids =>
        rw [visitInside] at h ⊢
        rw [visitInside]
        cases ha : substAttrs relex val attrs with
        | none => rfl
        | some attrs' =>
          simp only [ha] at h ⊢
          have : visitKids relex v val n kids ≠ .deeper := by
            intro e; rw [e] at h; exact h rfl
          rw [i3 kids this]
    · cases s with
      | nil => rw [visitKids, visitKids]
      | cons k ks =>
        rw [visitKids] at h ⊢
        rw [visitKids]
        have h1 : visitSyn relex v val n k ≠ .deeper := by
          intro e; rw [e] at h; exact h rfl
        rw [i1 k h1]
        cases hk : visitSyn relex v val n k with
        | panic => rfl
        | deeper => exact absurd hk h1
        | done k' =>
          simp only [hk] at h ⊢
          have h2 : visitKids relex v val n ks ≠ .deeper := by
            intro e; rw [e] at h; exact h rfl
          rw [i3 ks h2]

theorem visit_mono_le (relex : List Char → Option (List Char)) (v : Syn) (val : List Char) (n m : Nat) (h : n ≤ m) :
    (∀ s, visitSyn relex v val n s ≠ .deeper → visitSyn relex v val m s = visitSyn relex v val n s) ∧
    (∀ s, visitInside relex v val n s ≠ .deeper → visitInside relex v val m s = visitInside relex v val n s) ∧
    (∀ s, visitKids relex v val n s ≠ .deeper → visitKids relex v val m s = visitKids relex v val n s) := by
  induction h with
  | refl => exact ⟨fun _ _ => rfl, fun _ _ => rfl, fun _ _ => rfl⟩
  | @step m _ ih =>
    obtain ⟨a, b, c⟩ := visit_mono relex v val m
    exact ⟨fun s h => by rw [a s (by rw [ih.1 s h]; exact h), ih.1 s h],
      fun s h => by rw [b s (by rw [ih.2.1 s h]; exact h), ih.2.1 s h],
      fun s h => by rw [c s (by rw [ih.2.2 s h]; exact h), ih.2.2 s h]⟩

/-- How an expansion of `s` may end. -/
def EndsWell (relex : List Char → Option (List Char)) (v : Syn) (val : List Char) (s : Syn) (e : Rewrite Syn) : Prop :=
  (∃ r, e = .done r ∧ Replaced relex v val s r) ∨
  (e = .panic ∧ ∃ a t, AttrIn a s ∧ AttrText val a t ∧ relex t = none)

theorem EndsWell.ne {relex : List Char → Option (List Char)} {v : Syn} {val : List Char} {s : Syn} {e : Rewrite Syn}
    (h : EndsWell relex v val s e) : e ≠ .deeper := by
  rcases h with ⟨r, rfl, _⟩ | ⟨rfl, _⟩ <;> simp

theorem rewrite_cases {α : Type} {e : Rewrite α} (h : e ≠ .deeper) : e = .panic ∨ ∃ a, e = .done a := by
  cases e with
  | done a => exact .inr ⟨a, rfl⟩
  | panic => exact .inl rfl
  | deeper => exact absurd rfl h

mutual

/-- Where nothing is to be replaced, nothing is changed, and the visit of the parts ends. -/
theorem visit_plain (relex : List Char → Option (List Char)) (v : Syn) (val : List Char) : ∀ (s : Syn),
    ¬ HasSiteInside s → (∀ a, AttrIn a s → AttrPlain a) → ∃ n, visitInside relex v val n s = .done s
  | .mac attrs name body, _, ha => ⟨1, by
      rw [visitInside, (substAttrs_spec relex val attrs).2.2 fun a h => ha a (.mac attrs name body h)]⟩
  | .node tag attrs kids, hs, ha => by
    obtain ⟨n, hn⟩ := visit_plain_kids relex v val kids
      (fun k hk h => hs ⟨tag, attrs, kids, k, rfl, hk, h⟩) (fun k hk a h => ha a (.inside tag attrs kids k hk h))
    exact ⟨n + 1, by
      rw [visitInside, (substAttrs_spec relex val attrs).2.2 fun a h => ha a (.node tag attrs kids h)]
      simp only [hn]⟩

/-- See `visit_plain`. -/
theorem visit_plain_kids (relex : List Char → Option (List Char)) (v : Syn) (val : List Char) : ∀ (ks : List Syn),
    (∀ k ∈ ks, ¬ HasSite k) → (∀ k ∈ ks, ∀ a, AttrIn a k → AttrPlain a) → ∃ n, visitKids relex v val n ks = .done ks
  | [], _, _ => ⟨1, by rw [visitKids]⟩
  | k :: ks, hs, ha => by
    have hk := hs k (by simp)
    obtain ⟨n, hn⟩ := visit_plain relex v val k (fun ⟨t, as, kk, x, e, h1, h2⟩ => hk (e ▸ .inside t as kk x h1 h2))
      (ha k (by simp))
    obtain ⟨m, hm⟩ := visit_plain_kids relex v val ks (fun x hx => hs x (by simp [hx])) fun x hx => ha x (by simp [hx])
    have h1 : visitSyn relex v val (n + 1) k = .done k := by
      cases k with
      | node tag attrs kids => rw [visitSyn]; exact hn
      | mac attrs name body =>
        rw [visitSyn]
        split
        · rename_i e
          split
          · rename_i e2
            have : attrs = [] := List.isEmpty_iff.1 e2
            subst this; subst e
            exact absurd (.here body) hk
          · rfl
        · exact hn
    have h1' := (visit_mono_le relex v val (n + 1) (n + 1 + m) (by omega)).1 k (by rw [h1]; simp)
    have h2' := (visit_mono_le relex v val m (n + 1 + m) (by omega)).2.2 ks (by rw [hm]; simp)
    exact ⟨n + 1 + m + 1, by rw [visitKids, h1', h1]; simp only; rw [h2', hm]⟩

end

mutual

theorem visit_ends (relex : List Char → Option (List Char)) (v : Syn) (val : List Char)
    (hv : ∃ n, visitInside relex v val n v = .done v) : ∀ (s : Syn),
    ∃ n, EndsWell relex v val s (visitSyn relex v val n s)
  | .mac attrs name body => by
    by_cases hn : name = substituteName
    · by_cases ha : attrs = []
      · obtain ⟨n, h⟩ := hv
        subst ha; subst hn
        exact ⟨n + 1, .inl ⟨v, by rw [visitSyn]; simpa using h, .site body⟩⟩
      · refine ⟨1, .inl ⟨.mac attrs name body, ?_, hn ▸ .attributed attrs body ha⟩⟩
        rw [visitSyn, if_pos hn, if_neg (by simpa using ha)]
    · refine ⟨2, ?_⟩
      rw [visitSyn, if_neg hn, visitInside]
      obtain ⟨h1, h2, _⟩ := substAttrs_spec relex val attrs
      cases h : substAttrs relex val attrs with
      | none =>
        obtain ⟨a, ha, t, ht, hr⟩ := h2 h
        exact .inr ⟨rfl, a, t, .mac _ _ _ ha, ht, hr⟩
      | some as => exact .inl ⟨_, rfl, .mac attrs as name body hn (h1 as h)⟩
  | .node tag attrs kids => by
    obtain ⟨n, h⟩ := visit_ends_kids relex v val hv kids
    refine ⟨n + 2, ?_⟩
    rw [visitSyn, visitInside]
    obtain ⟨h1, h2, _⟩ := substAttrs_spec relex val attrs
    cases hs : substAttrs relex val attrs with
    | none =>
      obtain ⟨a, ha, t, ht, hr⟩ := h2 hs
      exact .inr ⟨rfl, a, t, .node _ _ _ ha, ht, hr⟩
    | some as =>
      rcases h with ⟨ks, e, hl, hk⟩ | ⟨e, k, hk, a, t, ha, ht⟩
      · simp only [e]
        exact .inl ⟨_, rfl, .node tag attrs as kids ks (h1 as hs) hl hk⟩
      · simp only [e]
        exact .inr ⟨rfl, a, t, .inside tag attrs kids k hk ha, ht⟩

theorem visit_ends_kids (relex : List Char → Option (List Char)) (v : Syn) (val : List Char)
    (hv : ∃ n, visitInside relex v val n v = .done v) : ∀ (ks : List Syn),
    ∃ n, (∃ ks', visitKids relex v val n ks = .done ks' ∧ ks.length = ks'.length ∧
        ∀ (i : Nat) (k k' : Syn), ks[i]? = some k → ks'[i]? = some k' → Replaced relex v val k k') ∨
      (visitKids relex v val n ks = .panic ∧ ∃ k ∈ ks, ∃ a t, AttrIn a k ∧ AttrText val a t ∧ relex t = none)
  | [] => ⟨1, .inl ⟨[], by rw [visitKids], rfl, fun i k k' h => by simp at h⟩⟩
  | k :: ks => by
    obtain ⟨n, hn⟩ := visit_ends relex v val hv k
    obtain ⟨m, hm⟩ := visit_ends_kids relex v val hv ks
    have hm' : visitKids relex v val m ks ≠ .deeper := by
      rcases hm with ⟨_, e, _⟩ | ⟨e, _⟩ <;> rw [e] <;> simp
    have e1 := (visit_mono_le relex v val n (n + m) (by omega)).1 k hn.ne
    have e2 := (visit_mono_le relex v val m (n + m) (by omega)).2.2 ks hm'
    refine ⟨n + m + 1, ?_⟩
    rw [visitKids, e1, e2]
    rcases hn with ⟨r, e, hr⟩ | ⟨e, a, t, ha, ht⟩
    · rw [e]
      rcases hm with ⟨ks', e', hl, hk⟩ | ⟨e', x, hx, a, t, ha⟩
      · rw [e']
        refine .inl ⟨r :: ks', rfl, by simp [hl], fun i x y hx hy => ?_⟩
        cases i with
        | zero =>
          simp at hx hy
          subst hx; subst hy
          exact hr
        | succ i => exact hk i x y (by simpa using hx) (by simpa using hy)
      · rw [e']
        exact .inr ⟨rfl, x, by simp [hx], a, t, ha⟩
    · rw [e]
      exact .inr ⟨rfl, k, by simp, a, t, ha, ht⟩

end

/-- If the parts of the value never finish, an expression with a site never finishes. -/
theorem never_done (relex : List Char → Option (List Char)) (v : Syn) (val : List Char) (hv : HasSiteInside v) :
    ∀ (n : Nat), (∀ s, HasSite s → ∀ r, visitSyn relex v val n s ≠ .done r) ∧
      (∀ s, HasSiteInside s → ∀ r, visitInside relex v val n s ≠ .done r) ∧
      (∀ ks : List Syn, (∃ k ∈ ks, HasSite k) → ∀ r, visitKids relex v val n ks ≠ .done r) := by
  intro n
  induction n with
  | zero => exact ⟨fun s _ r => by cases s <;> simp [visitSyn], fun s _ r => by cases s <;> simp [visitInside],
      fun s _ r => by cases s <;> simp [visitKids]⟩
  | succ n ih =>
    obtain ⟨i1, i2, i3⟩ := ih
    refine ⟨fun s hs r => ?_, fun s hs r => ?_, fun ks hk r => ?_⟩
    · cases hs with
      | here body =>
        rw [visitSyn, if_pos (by rfl)]
        exact i2 v hv r
      | inside tag attrs kids k hk h =>
        rw [visitSyn]
        exact i2 _ ⟨tag, attrs, kids, k, rfl, hk, h⟩ r
    · obtain ⟨tag, attrs, kids, k, rfl, hk, h⟩ := hs
      rw [visitInside]
      cases substAttrs relex val attrs with
      | none => simp
      | some as =>
        cases e : visitKids relex v val n kids with
        | done ks => exact absurd e (i3 kids ⟨k, hk, h⟩ ks)
        | panic => simp
        | deeper => simp
    · cases ks with
      | nil => obtain ⟨k, h, _⟩ := hk; cases h
      | cons k ks =>
        rw [visitKids]
        cases e : visitSyn relex v val n k with
        | panic => simp
        | deeper => simp
        | done k' =>
          obtain ⟨x, hx, hs⟩ := hk
          rcases List.mem_cons.1 hx with rfl | hx
          · exact absurd e (i1 x hs k')
          · cases e2 : visitKids relex v val n ks with
            | done ks' => exact absurd e2 (i3 ks ⟨x, hx, hs⟩ ks')
            | panic => simp
            | deeper => simp

/-! ## Theorems -/

/-- **C76, partial.** With a value that does not itself mention `substitute!()` (below its root, or in an attribute), the
macro always comes to an end, on every item: the result is the item with the value for every un-attributed
`substitute!()` expression and in the attributes, and everything else as it was; or a panic, and then the text of some
attribute with the value put in cannot be read as tokens.  Missing, since false of the code (`C76_negation`): values that
mention `substitute!()`, and that only macro calls are replaced in attributes. -/
theorem C76_replaces_partial (relex : List Char → Option (List Char)) (v : Syn) (val : List Char) (item : Syn)
    (hv : ¬ HasSiteInside v) (ha : ∀ a, AttrIn a v → AttrPlain a) (hi : ∃ tag attrs kids, item = .node tag attrs kids) :
    ∃ n, ∀ m, n ≤ m →
      (∃ r, expandSubstitute relex v val m item = .done r ∧ Replaced relex v val item r) ∨
      (expandSubstitute relex v val m item = .panic ∧ ∃ a t, AttrIn a item ∧ AttrText val a t ∧ relex t = none) := by
  obtain ⟨n, h⟩ := visit_ends relex v val (visit_plain relex v val v hv ha) item
  obtain ⟨tag, attrs, kids, rfl⟩ := hi
  cases n with
  | zero => exact absurd rfl h.ne
  | succ n =>
    rw [visitSyn] at h
    refine ⟨n, fun m hm => ?_⟩
    have := (visit_mono_le relex v val n m hm).2.1 _ h.ne
    show EndsWell relex v val _ (visitInside relex v val m _)
    rw [this]
    exact h

/-- **C76, partial.** On an item in which there is something to replace, the macro never produces a result if the value
mentions `substitute!()` in a proper subexpression: at no recursion depth. -/
theorem C76_diverges_negation (relex : List Char → Option (List Char)) (v : Syn) (val : List Char) (item : Syn)
    (hv : HasSiteInside v) (hi : HasSiteInside item) (n : Nat) (r : Syn) :
    expandSubstitute relex v val n item ≠ .done r :=
  (never_done relex v val hv n).2.1 item hi r

/-- **C76, negation.** The text of a string literal, or a macro whose name merely ends in `substitute`, is changed inside
an attribute. -/
theorem C76_negation (relex : List Char → Option (List Char)) (hr : ∀ t, relex t = some t) (v : Syn) (n : Nat) :
    expandSubstitute relex v "X".toList (n + 2) (.node 0 ["= \"no_substitute! () here\"".toList] []) =
      .done (.node 0 ["= \"no_X here\"".toList] []) := by
  have : substAttr relex "X".toList "= \"no_substitute! () here\"".toList = some "= \"no_X here\"".toList := by
    unfold substAttr
    have : tryPattern "X".toList "= \"no_substitute! () here\"".toList tightPat = some "= \"no_X here\"".toList := by
      decide +kernel
    rw [this]
    exact hr _
  rw [expandSubstitute, visitInside, substAttrs, this]
  rfl

/-! ## Concrete cases -/

/-- `fn f() { let a = substitute!(); #[x] substitute!(); }` with a `#[remangle(substitute! ())]`, value `"p"`. -/
def substExample : Syn :=
  .node 0 ["(substitute! ())".toList] [.node 1 [] [.mac [] "substitute".toList []], .mac ["x".toList] "substitute".toList [],
    .mac [] "println".toList "substitute ! ()".toList]

example : expandSubstitute some (.node 7 [] []) "\"p\"".toList 9 substExample = .done (.node 0 ["(\"p\")".toList]
    [.node 1 [] [.node 7 [] []], .mac ["x".toList] "substitute".toList [],
      .mac [] "println".toList "substitute ! ()".toList]) := by rfl

/-- The hypotheses of `C76_replaces_partial` hold of a literal value. -/
example : (¬ HasSiteInside (.node 7 [] [])) ∧ ∀ a, AttrIn a (.node 7 [] []) → AttrPlain a :=
  ⟨fun ⟨_, _, _, _, e, h, _⟩ => (by cases e; cases h), fun a h => (by
    cases h <;> contradiction)⟩

/-- The hypotheses of `C76_diverges_negation` hold of the value `f(substitute!())` and the example. -/
example : HasSiteInside (.node 7 [] [.mac [] "substitute".toList []]) ∧ HasSiteInside substExample :=
  ⟨⟨7, [], _, _, rfl, .head _, .here []⟩, ⟨0, _, _, _, rfl, .head _, .inside 1 [] _ _ (.head _) (.here [])⟩⟩

end Verif.Props
