import Verif.Model.Mangle
/-!
# C59: name mangling
-/
namespace Verif.Props
open Verif

/-! ## Specification: how a path is written -/

/-- A component of a path: not empty, without colons and white space. -/
def IsComponent (ws : Char → Bool) (c : List Char) : Prop := c ≠ [] ∧ ∀ x ∈ c, x ≠ ':' ∧ ws x = false

/-- A component with white space around it. -/
def Padded (ws : Char → Bool) (s c : List Char) : Prop :=
  IsComponent ws c ∧ ∃ a b, s = a ++ c ++ b ∧ (∀ x ∈ a, ws x = true) ∧ ∀ x ∈ b, ws x = true

/-- `m` is a way of writing the path with components `cs`: the components, with optional white space around them,
separated by `::`; an empty piece (as in a leading `::`) counts for nothing. -/
inductive Writes (ws : Char → Bool) : List Char → List (List Char) → Prop
  | empty : Writes ws [] []
  | single (s c : List Char) : Padded ws s c → Writes ws s [c]
  | skip (m : List Char) (cs : List (List Char)) : Writes ws m cs → Writes ws (':' :: ':' :: m) cs
  | cons (s c m : List Char) (cs : List (List Char)) : Padded ws s c → Writes ws m cs →
      Writes ws (s ++ ':' :: ':' :: m) (c :: cs)

/-- A name that mangling can be undone for, as a path component. -/
def Clean (c : List Char) : Prop := (¬ ∃ a b, c = a ++ '_' :: '_' :: b) ∧ ¬ ∃ a, c = a ++ ['_']

/-! ## Proof -/

theorem splitColons_piece (s m : List Char) (hs : ∀ x ∈ s, x ≠ ':') :
    splitColons s = [s] ∧ splitColons (s ++ ':' :: ':' :: m) = s :: splitColons m := by
  induction s with
  | nil => exact ⟨rfl, rfl⟩
  | cons c s ih =>
    obtain ⟨h1, h2⟩ := ih fun x hx => hs x (by simp [hx])
    have hc := hs c (by simp)
    have unf : ∀ t : List Char, splitColons (c :: t) = match splitColons t with
        | [] => [[c]] | piece :: pieces => (c :: piece) :: pieces := by
      intro t
      cases t with
      | nil => simp [splitColons]
      | cons d t =>
        rw [splitColons]
        · rfl
        · intro r e; exact absurd e hc
    constructor
    · rw [unf, h1]
    · rw [List.cons_append, unf, h2]

theorem dropWhile_all (ws : Char → Bool) (a s : List Char) (ha : ∀ x ∈ a, ws x = true) :
    (a ++ s).dropWhile ws = s.dropWhile ws := by
  induction a with
  | nil => rfl
  | cons x a ih =>
    rw [List.cons_append, List.dropWhile_cons_of_pos (ha x (by simp))]
    exact ih fun y hy => ha y (by simp [hy])

theorem trim_padded {ws : Char → Bool} {s c : List Char} (h : Padded ws s c) : trimWs ws s = c := by
  obtain ⟨⟨h1, h2⟩, a, b, rfl, ha, hb⟩ := h
  have hd : ∀ t : List Char, t ≠ [] → (∀ x ∈ t, x ∈ c) → ∀ b : List Char, (t ++ b).dropWhile ws = t ++ b := by
    intro t ht hm b
    cases t with
    | nil => exact absurd rfl ht
    | cons x t =>
      rw [List.cons_append, List.dropWhile_cons_of_neg]
      rw [(h2 x (hm x (by simp))).2]; simp
  unfold trimWs
  rw [List.append_assoc, dropWhile_all ws a _ ha, hd c h1 (fun x hx => hx), List.reverse_append,
    dropWhile_all ws b.reverse _ (by intro x hx; exact hb x (by simpa using hx))]
  have := hd c.reverse (by simpa using h1) (by simp) []
  rw [List.append_nil] at this
  rw [this, List.reverse_reverse]

/-- The components followed by two underscores each. -/
def joinMangled : List (List Char) → List Char
  | [] => []
  | c :: cs => c ++ '_' :: '_' :: joinMangled cs

theorem manglePieces_acc (ws : Char → Bool) (r : List Char) (ps : List (List Char)) :
    manglePieces ws r ps = r ++ manglePieces ws [] ps := by
  induction ps generalizing r with
  | nil => simp [manglePieces]
  | cons p ps ih =>
    unfold manglePieces
    split
    · exact ih r
    · rw [ih, ih ([] ++ trimWs ws p ++ ['_', '_'])]; simp

theorem padded_noColon {ws : Char → Bool} (hws : ws ':' = false) {s c : List Char} (h : Padded ws s c) :
    (∀ x ∈ s, x ≠ ':') ∧ s ≠ [] := by
  obtain ⟨⟨h1, h2⟩, a, b, rfl, ha, hb⟩ := h
  constructor
  · intro x hx e
    subst e
    rcases List.mem_append.1 hx with hx | hx
    · rcases List.mem_append.1 hx with hx | hx
      · rw [ha _ hx] at hws; cases hws
      · exact (h2 _ hx).1 rfl
    · rw [hb _ hx] at hws; cases hws
  · simp [h1]

theorem mangle_writes {ws : Char → Bool} (hws : ws ':' = false) {m : List Char} {cs : List (List Char)}
    (h : Writes ws m cs) : manglePath ws m = joinMangled cs := by
  unfold manglePath
  induction h with
  | empty => rfl
  | single s c hp =>
    obtain ⟨h1, h2⟩ := padded_noColon hws hp
    rw [(splitColons_piece s [] h1).1]
    simp [manglePieces, h2, trim_padded hp, joinMangled]
  | skip m cs h ih =>
    rw [show splitColons (':' :: ':' :: m) = [] :: splitColons m from (splitColons_piece [] m (by simp)).2]
    simp only [manglePieces, List.isEmpty_nil, if_true]; exact ih
  | cons s c m cs hp h ih =>
    obtain ⟨h1, h2⟩ := padded_noColon hws hp
    rw [(splitColons_piece s m h1).2]
    simp only [manglePieces, List.isEmpty_iff, h2, if_false]
    rw [manglePieces_acc, ih, trim_padded hp]
    simp [joinMangled]

theorem split_unique {a b r s : List Char} (ha : Clean a) (hb : Clean b)
    (h : a ++ '_' :: '_' :: r = b ++ '_' :: '_' :: s) : a = b ∧ r = s := by
  have key : ∀ (a b r s : List Char), Clean a → Clean b → a.length ≤ b.length →
      a ++ '_' :: '_' :: r = b ++ '_' :: '_' :: s → a = b ∧ r = s := by
    intro a b r s ha hb hl h
    obtain ⟨t, rfl⟩ : ∃ t, b = a ++ t := by
      have := congrArg (List.take a.length) h
      rw [List.take_left, List.take_append_of_le_length hl] at this
      exact ⟨b.drop a.length, by conv => rhs; arg 1; rw [this]
                                 exact (List.take_append_drop _ _).symm⟩
    rw [List.append_assoc] at h
    have h := List.append_cancel_left h
    rcases t with _ | ⟨x, t⟩
    · simp at h; simp [h]
    · simp at h
      obtain ⟨rfl, h⟩ := h
      rcases t with _ | ⟨y, t⟩
      · exact absurd ⟨a, rfl⟩ hb.2
      · simp at h
        obtain ⟨rfl, h⟩ := h
        exact absurd ⟨a, t, rfl⟩ hb.1
  rcases Nat.le_total a.length b.length with hl | hl
  · exact key a b r s ha hb hl h
  · obtain ⟨h1, h2⟩ := key b a s r hb ha hl h.symm
    exact ⟨h1.symm, h2.symm⟩

theorem join_unique {cs cs' : List (List Char)} {x x' : List Char} (h1 : ∀ c ∈ cs, Clean c) (h2 : ∀ c ∈ cs', Clean c)
    (hx : ¬ ∃ a b, x = a ++ '_' :: '_' :: b) (hx' : ¬ ∃ a b, x' = a ++ '_' :: '_' :: b)
    (h : joinMangled cs ++ x = joinMangled cs' ++ x') : cs = cs' ∧ x = x' := by
  induction cs generalizing cs' with
  | nil =>
    cases cs' with
    | nil => exact ⟨rfl, h⟩
    | cons c cs' =>
      exact absurd ⟨c, joinMangled cs' ++ x', by rw [joinMangled, joinMangled] at h; simpa using h⟩ hx
  | cons c cs ih =>
    cases cs' with
    | nil =>
      exact absurd ⟨c, joinMangled cs ++ x, by rw [joinMangled, joinMangled] at h; simpa using h.symm⟩ hx'
    | cons c' cs' =>
      simp only [joinMangled, List.append_assoc, List.cons_append] at h
      obtain ⟨e1, h3⟩ := split_unique (h1 c (by simp)) (h2 c' (by simp)) h
      obtain ⟨e2, e3⟩ := ih (cs' := cs') (fun c hc => h1 c (by simp [hc])) (fun c hc => h2 c (by simp [hc])) h3
      exact ⟨by rw [e1, e2], e3⟩

/-- **C59, partial.** Mangling depends only on the components of the path, however it is written; and different pairs of
components and identifier get different symbols, provided no component contains two underscores in a row or ends in an
underscore and the identifiers do not contain two underscores in a row.  Without the proviso the claim is false
(`C59_negation`). -/
theorem C59_mangling_injective_partial (ws : Char → Bool) (hws : ws ':' = false) {m m' : List Char}
    {cs cs' : List (List Char)} (hm : Writes ws m cs) (hm' : Writes ws m' cs') (x x' : List Char) :
    (cs = cs' → x = x' → mangleIdent ws m x = mangleIdent ws m' x') ∧
    ((∀ c ∈ cs, Clean c) → (∀ c ∈ cs', Clean c) → (¬ ∃ a b, x = a ++ '_' :: '_' :: b) →
      (¬ ∃ a b, x' = a ++ '_' :: '_' :: b) → mangleIdent ws m x = mangleIdent ws m' x' → cs = cs' ∧ x = x') := by
  unfold mangleIdent
  rw [mangle_writes hws hm, mangle_writes hws hm']
  exact ⟨fun h1 h2 => by rw [h1, h2], fun h1 h2 h3 h4 h => join_unique h1 h2 h3 h4 h⟩

/-- Spaces. -/
def spaceWs (c : Char) : Bool := c == ' '

/-- `::crate:: a_b ` and `crate::a_b` are ways of writing the same clean path. -/
example : Writes spaceWs "::crate:: a_b ".toList ["crate".toList, "a_b".toList] ∧
    Writes spaceWs "crate::a_b".toList ["crate".toList, "a_b".toList] ∧ Clean "crate".toList ∧ Clean "a_b".toList := by
  have hc : ∀ c : List Char, c ≠ [] → (c.all fun x => x != ':' && !spaceWs x) = true → IsComponent spaceWs c := by
    intro c h1 h2
    refine ⟨h1, fun x hx => ?_⟩
    have := List.all_eq_true.1 h2 x hx
    simpa using this
  have p1 : Padded spaceWs "crate".toList "crate".toList :=
    ⟨hc _ (by decide) (by decide), [], [], by decide, by simp, by simp⟩
  have p2 : Padded spaceWs "a_b".toList "a_b".toList :=
    ⟨hc _ (by decide) (by decide), [], [], by decide, by simp, by simp⟩
  have p3 : Padded spaceWs " a_b ".toList "a_b".toList :=
    ⟨hc _ (by decide) (by decide), [' '], [' '], by decide, by simp [spaceWs], by simp [spaceWs]⟩
  have cl : ∀ c : List Char, Clean c ↔ (¬ ∃ n < c.length, c[n]? = some '_' ∧ c[n + 1]? = some '_') ∧ c.getLast? ≠ some '_' := by
    intro c
    constructor
    · rintro ⟨h1, h2⟩
      refine ⟨?_, ?_⟩
      · rintro ⟨n, hn, e1, e2⟩
        refine h1 ⟨c.take n, c.drop (n + 2), ?_⟩
        have l2 := (List.getElem?_eq_some_iff.1 e2).1
        have d1 : c.drop n = '_' :: c.drop (n + 1) := by
          rw [List.drop_eq_getElem_cons hn]; rw [List.getElem?_eq_getElem hn] at e1; injection e1 with e1; rw [e1]
        have d2 : c.drop (n + 1) = '_' :: c.drop (n + 2) := by
          rw [List.drop_eq_getElem_cons l2]; rw [List.getElem?_eq_getElem l2] at e2; injection e2 with e2; rw [e2]
        rw [← d2, ← d1, List.take_append_drop]
      · intro e
        obtain ⟨a, e⟩ := List.getLast?_eq_some_iff.1 e
        exact h2 ⟨a, e⟩
    · rintro ⟨h1, h2⟩
      refine ⟨?_, ?_⟩
      · rintro ⟨a, b, rfl⟩
        exact h1 ⟨a.length, by simp, by simp, by simp⟩
      · rintro ⟨a, rfl⟩
        exact h2 (by simp)
  refine ⟨?_, ?_, (cl _).2 (by decide), (cl _).2 (by decide)⟩
  · exact .skip _ _ (.cons "crate".toList _ " a_b ".toList _ p1 (.single _ _ p3))
  · exact .cons "crate".toList _ "a_b".toList _ p1 (.single _ _ p2)

/-- **C59 is false as stated**: `a__b` in the root and `b` in module `a` get the same symbol; so do `b` in module `a_` and
`_b` in module `a`. -/
theorem C59_negation : (¬ ∀ (cs cs' : List (List Char)) (m m' x x' : List Char), Writes spaceWs m cs → Writes spaceWs m' cs' →
      mangleIdent spaceWs m x = mangleIdent spaceWs m' x' → cs = cs' ∧ x = x') ∧
    mangleIdent spaceWs "".toList "a__b".toList = mangleIdent spaceWs "a".toList "b".toList ∧
    mangleIdent spaceWs "a_".toList "b".toList = mangleIdent spaceWs "a".toList "_b".toList := by
  refine ⟨?_, by decide, by decide⟩
  intro h
  have := h [] ["a".toList] [] "a".toList "a__b".toList "b".toList .empty
    (.single _ _ ⟨⟨by decide, by decide⟩, [], [], by decide, by simp, by simp⟩) (by decide)
  exact absurd this.1 (by decide)

end Verif.Props
