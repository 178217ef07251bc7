import Verif.Model.Pinvoke
/-! Lemmas about the copying of libraries. -/
namespace Verif.Pinvoke

/-- Specification: `e` is what stands between the first dot of `n` and the next one, or the end. -/
def ExtOf (n e : Str) : Prop := ∃ a r, n = a ++ '.' :: (e ++ r) ∧ '.' ∉ a ∧ '.' ∉ e ∧ (r = [] ∨ r.head? = some '.')

theorem split_ne : ∀ s, split s ≠ []
  | [] => by simp [split]
  | c :: s => by
    unfold split
    split
    · simp
    · simp
    · split <;> simp

theorem split_cons {c : Char} (h : c ≠ '.') (s : Str) : ∃ x xs, split s = x :: xs ∧ split (c :: s) = (c :: x) :: xs := by
  cases hs : split s with
  | nil => exact absurd hs (split_ne s)
  | cons x xs =>
    refine ⟨x, xs, rfl, ?_⟩
    rw [split.eq_3 c s (fun e => h e), hs]

theorem split_head : ∀ (e r : Str), '.' ∉ e → (r = [] ∨ r.head? = some '.') → (split (e ++ r))[0]? = some e
  | [], r, _, hr => by
    rcases hr with rfl | hr
    · rfl
    · cases r with
      | nil => rfl
      | cons c r =>
        simp only [List.head?_cons, Option.some.injEq] at hr
        subst hr
        rfl
  | c :: e, r, he, hr => by
    simp only [List.mem_cons, not_or] at he
    obtain ⟨x, xs, h1, h2⟩ := split_cons (Ne.symm he.1) (e ++ r)
    have := split_head e r he.2 hr
    rw [h1] at this
    rw [List.cons_append, h2]
    simpa using this

theorem split_second : ∀ (a b : Str), '.' ∉ a → (split (a ++ '.' :: b))[1]? = (split b)[0]?
  | [], b, _ => by simp [split]
  | c :: a, b, ha => by
    simp only [List.mem_cons, not_or] at ha
    obtain ⟨x, xs, h1, h2⟩ := split_cons (Ne.symm ha.1) (a ++ '.' :: b)
    have := split_second a b ha.2
    rw [h1] at this
    rw [List.cons_append, h2]
    simpa using this

theorem split_ext {n e : Str} (h : ExtOf n e) : (split n)[1]? = some e := by
  obtain ⟨a, r, rfl, h1, h2, h3⟩ := h
  rw [split_second _ _ h1, split_head _ _ h2 h3]

theorem extOf_inj {n e e' : Str} (h : ExtOf n e) (h' : ExtOf n e') : e = e' := by
  have := (split_ext h).symm.trans (split_ext h')
  simpa using this

theorem extOf_pre {pre n e : Str} (hp : '.' ∉ pre) (h : ExtOf n e) : ExtOf (pre ++ n) e := by
  obtain ⟨a, r, rfl, h1, h2, h3⟩ := h
  exact ⟨pre ++ a, r, by simp, by simp [hp, h1], h2, h3⟩

/-! Files. -/

theorem Dir.get_set (d : Dir) (n c m : Str) : (d.set n c).get m = if m = n then some c else d.get m := by
  unfold Dir.set Dir.get
  by_cases h : m = n
  · subst h; simp
  · rw [if_neg h]
    simp only
    rw [List.find?_cons_of_neg (by simpa using Ne.symm h)]
    congr 1
    induction d.files with
    | nil => rfl
    | cons f fs ih =>
      by_cases hf : f.1 = n
      · rw [List.filter_cons_of_neg (by simpa using hf), List.find?_cons_of_neg (by simp [hf, Ne.symm h]), ih]
      · rw [List.filter_cons_of_pos (by simpa using hf)]
        by_cases hm : f.1 = m
        · rw [List.find?_cons_of_pos (by simpa using hm), List.find?_cons_of_pos (by simpa using hm)]
        · rw [List.find?_cons_of_neg (by simpa using hm), List.find?_cons_of_neg (by simpa using hm), ih]

theorem Dir.set_full (d : Dir) (n c : Str) : (d.set n c).full = d.full := rfl
theorem Dir.set_windows (d : Dir) (n c : Str) : (d.set n c).windows = d.windows := rfl

theorem Dir.mem_set {d : Dir} {n c : Str} {f : Str × Str} (h : f ∈ (d.set n c).files) : f.1 = n ∨ f ∈ d.files := by
  simp only [Dir.set, List.mem_cons, List.mem_filter] at h
  rcases h with rfl | h
  · exact .inl rfl
  · exact .inr h.1

theorem Dir.get_mem {d : Dir} {n : Str} (h : d.get n ≠ none) : ∃ f ∈ d.files, f.1 = n := by
  unfold Dir.get at h
  cases hf : d.files.find? fun f => f.1 = n with
  | none => rw [hf] at h; exact absurd rfl h
  | some f => exact ⟨f, List.mem_of_find?_eq_some hf, by simpa using List.find?_some hf⟩

/-! The regular expression. -/

theorem tails_mem (t : Str) : ∀ p, t ∈ tails p ↔ ∃ a, p = a ++ t
  | [] => by simp [tails]
  | c :: p => by
    rw [tails, List.mem_cons, tails_mem t p]
    constructor
    · rintro (rfl | ⟨a, rfl⟩)
      · exact ⟨[], rfl⟩
      · exact ⟨c :: a, rfl⟩
    · rintro ⟨a, h⟩
      cases a with
      | nil => exact .inl h.symm
      | cons x a => exact .inr ⟨a, by simpa using (List.cons.inj h).2⟩

/-- What the regular expression means. -/
theorem isMatch_iff (crate p : Str) : isMatch crate p = true ↔ ∃ e ∈ exts, ∃ a b, p = a ++ (crate ++ '.' :: e) ++ b := by
  unfold isMatch
  rw [List.any_eq_true]
  constructor
  · rintro ⟨t, ht, h⟩
    obtain ⟨e, he, h⟩ := List.any_eq_true.1 h
    obtain ⟨a, rfl⟩ := (tails_mem _ _).1 ht
    obtain ⟨b, rfl⟩ := List.isPrefixOf_iff_prefix.1 h
    exact ⟨e, he, a, b, by simp⟩
  · rintro ⟨e, he, a, b, rfl⟩
    refine ⟨(crate ++ '.' :: e) ++ b, (tails_mem _ _).2 ⟨a, by simp⟩, List.any_eq_true.2 ⟨e, he, ?_⟩⟩
    exact List.isPrefixOf_iff_prefix.2 (List.prefix_append _ _)

theorem exts_nodot {e : Str} (h : e ∈ exts) : '.' ∉ e := by
  simp only [exts, List.mem_cons, List.not_mem_nil, or_false] at h
  rcases h with rfl | rfl | rfl | rfl <;> decide

/-- What stands before the name of a library. -/
def pref (w : Bool) (e : Str) : Str := if !w && e ≠ "dll".toList then "lib".toList else []
theorem libName_eq (w : Bool) (e n : Str) : libName w e n = pref w e ++ n ++ '.' :: e := rfl
theorem pref_nodot (w : Bool) (e : Str) : '.' ∉ pref w e := by
  unfold pref
  split <;> decide

theorem extOf_lib (w : Bool) {e n : Str} (he : '.' ∉ e) (hn : '.' ∉ n) : ExtOf (libName w e n) e :=
  ⟨pref w e ++ n, [], by simp [libName_eq], by simp [pref_nodot, hn], he, .inl rfl⟩

/-- The name of a crate's library says its extension and the crate, whatever the other name is. -/
theorem libName_inj {w : Bool} {e e' n m : Str} (he : '.' ∉ e) (he' : '.' ∉ e') (hn : '.' ∉ n) (h : libName w e n = libName w e' m) : e = e' ∧ n = m := by
  have hm : '.' ∉ m := by
    intro hm
    have hc := congrArg (List.count '.') h
    simp only [libName_eq, List.count_append, List.count_cons, List.count_eq_zero.2 he, List.count_eq_zero.2 he', List.count_eq_zero.2 hn,
      List.count_eq_zero.2 (pref_nodot w _)] at hc
    have := List.count_pos_iff.2 hm
    omega
  have e1 := extOf_inj (extOf_lib w he hn) (h ▸ extOf_lib w he' hm)
  subst e1
  refine ⟨rfl, ?_⟩
  rw [libName_eq, libName_eq, List.append_assoc, List.append_assoc] at h
  exact List.append_cancel_right (List.append_cancel_left h)

/-! The loop. -/

/-- Every file that the loop is about to copy is there. -/
def Ready (crate : Str) (d : Dir) (ps : List Str) : Prop := ∀ p ∈ ps, ∃ e, ExtOf p e ∧ d.get (libName d.windows e crate) ≠ none

theorem copyAll_spec {crate over : Str} (hc : '.' ∉ crate) (hne : crate ≠ over) : ∀ (ps : List Str) (d : Dir), Ready crate d ps →
    ∃ d', copyAll crate over d ps = (d', .ok ()) ∧ d'.full = d.full ∧ d'.windows = d.windows ∧
      (∀ p ∈ ps, ∀ e, ExtOf p e → d'.get (libName d.windows e over) = d.get (libName d.windows e crate)) ∧
      (∀ n, (∀ p ∈ ps, ∀ e, ExtOf p e → n ≠ libName d.windows e over) → d'.get n = d.get n) ∧
      (∀ f ∈ d'.files, f ∈ d.files ∨ ∃ p ∈ ps, ∃ e, ExtOf p e ∧ f.1 = libName d.windows e over)
  | [], d, _ => ⟨d, rfl, rfl, rfl, by simp, fun _ _ => rfl, fun f h => .inl h⟩
  | p :: ps, d, hr => by
    obtain ⟨e, he, hg⟩ := hr p (by simp)
    obtain ⟨c, hg⟩ := Option.ne_none_iff_exists'.1 hg
    have hed : '.' ∉ e := he.choose_spec.choose_spec.2.2.1
    have h1 : copyOne crate over d p = (d.set (libName d.windows e over) c, .ok ()) := by
      unfold copyOne
      rw [split_ext he]
      simp only [hg]
    -- the crate's own libraries stay
    have hsrc : ∀ e', '.' ∉ e' → (d.set (libName d.windows e over) c).get (libName d.windows e' crate) = d.get (libName d.windows e' crate) := by
      intro e' he'
      rw [Dir.get_set, if_neg]
      intro h
      exact hne (libName_inj he' hed hc h).2
    obtain ⟨d', k1, k2, k3, k4, k5, k6⟩ := copyAll_spec (over := over) hc hne ps (d.set (libName d.windows e over) c) (by
      intro q hq
      obtain ⟨e', he', hg'⟩ := hr q (by simp [hq])
      exact ⟨e', he', by rw [Dir.set_windows, hsrc e' he'.choose_spec.choose_spec.2.2.1]; exact hg'⟩)
    simp only [Dir.set_windows, Dir.set_full] at k2 k3 k4 k5 k6
    refine ⟨d', ?_, k2, k3, ?_, ?_, ?_⟩
    · unfold copyAll
      rw [h1]
      exact k1
    · intro q hq e' he'
      have hed' : '.' ∉ e' := he'.choose_spec.choose_spec.2.2.1
      by_cases hps : ∃ q' ∈ ps, ExtOf q' e'
      · obtain ⟨q', hq', hx⟩ := hps
        rw [k4 q' hq' e' hx, hsrc e' hed']
      · rcases List.mem_cons.1 hq with rfl | hq
        · obtain rfl := extOf_inj he he'
          rw [k5, Dir.get_set, if_pos rfl, hg]
          intro q' hq' e'' he'' heq
          refine hps ⟨q', hq', ?_⟩
          have : e = e'' := by
            -- equal names of copies: equal extensions
            have h2 := heq
            rw [libName_eq, libName_eq] at h2
            have hed'' : '.' ∉ e'' := he''.choose_spec.choose_spec.2.2.1
            exact ext_of_eq hed' hed'' h2
          exact this ▸ he''
        · exact absurd ⟨q, hq, he'⟩ hps
    · intro n hn
      rw [k5 n (fun q hq => hn q (by simp [hq])), Dir.get_set, if_neg (hn p (by simp) e he)]
    · intro f hf
      rcases k6 f hf with h | ⟨q, hq, e', he', h⟩
      · rcases Dir.mem_set h with h | h
        · exact .inr ⟨p, by simp, e, he, h⟩
        · exact .inl h
      · exact .inr ⟨q, by simp [hq], e', he', h⟩
where
  ext_of_eq : ∀ {x y e e' : Str}, '.' ∉ e → '.' ∉ e' → x ++ '.' :: e = y ++ '.' :: e' → e = e' := by
    intro x y e e' he he' h
    rcases List.append_eq_append_iff.1 h with ⟨a, h1, h2⟩ | ⟨a, h1, h2⟩
    · cases a with
      | nil => simpa using h2
      | cons c a =>
        simp only [List.cons_append, List.cons.injEq] at h2
        exact absurd (by rw [h2.2]; simp) he
    · cases a with
      | nil => simpa using h2.symm
      | cons c a =>
        simp only [List.cons_append, List.cons.injEq] at h2
        exact absurd (by rw [h2.2]; simp) he'

end Verif.Pinvoke
