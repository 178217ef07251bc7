import Verif.Proofs.Pinvoke
/-!
# C85: the libraries that the P/Invoke generator copies

A directory `d` of build artifacts is `full` (its path), `windows` and `files`; `d.get n` is the contents of the file named `n`.
-/
namespace Verif.Props
open Verif Verif.Pinvoke

/-- Specification: the file name of a library. -/
def pinLib (windows : Bool) (e n : Str) : Str :=
  if windows || e = "dll".toList then n ++ ".".toList ++ e else "lib".toList ++ n ++ ".".toList ++ e

/-- Specification: the endings of libraries. -/
def pinExts : List Str := ["so".toList, "a".toList, "dylib".toList, "dll".toList]

/-- Specification: the path of file `f` mentions the crate's library. -/
def PinHit (d : Dir) (crate : Str) (f : Str) : Prop := ∃ e ∈ pinExts, ∃ a b, d.full ++ [d.sep] ++ f = a ++ crate ++ ".".toList ++ e ++ b

/-- Specification: the path of the directory has no dot in it, and beside every file that mentions the crate's library is the library
with the ending of that file. -/
def PinTidy (d : Dir) (crate : Str) : Prop :=
  '.' ∉ d.full ∧ ∀ f ∈ d.files, PinHit d crate f.1 → ∃ e, ExtOf f.1 e ∧ d.get (pinLib d.windows e crate) ≠ none

/-- Specification: the three crates. -/
def pinCrates : List Str := ["tp_client".toList, "unity_states".toList, "tp_contract_example".toList]

/-- Specification: the crates are built for the same targets. -/
def PinUniform (d : Dir) : Prop :=
  ∀ c ∈ pinCrates, ∀ c' ∈ pinCrates, ∀ e, '.' ∉ e → d.get (pinLib d.windows e c) ≠ none → d.get (pinLib d.windows e c') ≠ none

theorem pinLib_eq (w : Bool) (e n : Str) : pinLib w e n = libName w e n := by
  unfold pinLib libName
  cases w <;> by_cases h : e = "dll".toList
  · subst h; simp
  · rw [if_neg (by simp only [Bool.false_or, decide_eq_true_eq]; exact h), if_pos (by simp only [Bool.not_false, Bool.true_and, decide_eq_true_eq]; exact h)]; simp
  · subst h; simp
  · simp

theorem pinHit_iff (d : Dir) (c f : Str) : PinHit d c f ↔ isMatch c (d.full ++ d.sep :: f) = true := by
  rw [isMatch_iff]
  simp only [PinHit]
  constructor
  · rintro ⟨e, he, a, b, h⟩
    exact ⟨e, he, a, b, by simpa using h⟩
  · rintro ⟨e, he, a, b, h⟩
    exact ⟨e, he, a, b, by simpa using h⟩

theorem mem_found {d : Dir} {c p : Str} : p ∈ found c d ↔ ∃ f ∈ d.files, p = d.full ++ d.sep :: f.1 ∧ PinHit d c f.1 := by
  simp only [found, List.mem_filter, List.mem_map]
  constructor
  · rintro ⟨⟨f, hf, rfl⟩, h⟩
    exact ⟨f, hf, rfl, (pinHit_iff _ _ _).2 h⟩
  · rintro ⟨f, hf, rfl, h⟩
    exact ⟨⟨f, hf, rfl⟩, (pinHit_iff _ _ _).1 h⟩

theorem sep_nodot (d : Dir) : d.sep ≠ '.' := by
  unfold Dir.sep
  split <;> decide

theorem extOf_path {d : Dir} (h : '.' ∉ d.full) {n e : Str} (he : ExtOf n e) : ExtOf (d.full ++ d.sep :: n) e := by
  have := extOf_pre (pre := d.full ++ [d.sep]) (by simp [h, Ne.symm (sep_nodot d)]) he
  simpa using this

theorem extOf_path' {d : Dir} (h : '.' ∉ d.full) {n e e' : Str} (he : ExtOf n e) (h' : ExtOf (d.full ++ d.sep :: n) e') : e' = e :=
  extOf_inj h' (extOf_path h he)

theorem extOf_nodot {n e : Str} (h : ExtOf n e) : '.' ∉ e := h.choose_spec.choose_spec.2.2.1

theorem tidy_ready {d : Dir} {c : Str} (h : PinTidy d c) : Ready c d (found c d) := by
  intro p hp
  obtain ⟨f, hf, rfl, hh⟩ := mem_found.1 hp
  obtain ⟨e, he, hg⟩ := h.2 f hf hh
  exact ⟨e, extOf_path h.1 he, by rw [← pinLib_eq]; exact hg⟩

/-- The library itself is among the files found. -/
theorem lib_found {d : Dir} {c e : Str} (he : e ∈ pinExts) (hg : d.get (pinLib d.windows e c) ≠ none) :
    d.full ++ d.sep :: pinLib d.windows e c ∈ found c d := by
  obtain ⟨f, hf, hn⟩ := Dir.get_mem hg
  refine mem_found.2 ⟨f, hf, by rw [hn], e, he, ?_⟩
  rw [hn]
  unfold pinLib
  split
  · exact ⟨d.full ++ [d.sep], [], by simp⟩
  · exact ⟨d.full ++ [d.sep] ++ "lib".toList, [], by simp⟩

theorem pinExts_nodot {e : Str} (h : e ∈ pinExts) : '.' ∉ e := exts_nodot h
theorem pinCrates_nodot {c : Str} (h : c ∈ pinCrates) : '.' ∉ c := by
  simp only [pinCrates, List.mem_cons, List.not_mem_nil, or_false] at h
  rcases h with rfl | rfl | rfl <;> decide

/-- What one `Setup` does in a tidy directory. -/
theorem setup_tidy {d : Dir} {c over : Str} (hc : '.' ∉ c) (hne : c ≠ over) (ht : PinTidy d c) :
    ∃ d', setup over d c = (d', .ok ()) ∧ d'.full = d.full ∧ d'.windows = d.windows ∧
      (∀ e ∈ pinExts, d.get (pinLib d.windows e c) ≠ none → d'.get (pinLib d.windows e over) = d.get (pinLib d.windows e c)) ∧
      (∀ n, (∀ e, d.get (pinLib d.windows e c) ≠ none → '.' ∉ e → n ≠ pinLib d.windows e over) → d'.get n = d.get n) ∧
      (∀ f ∈ d'.files, f ∈ d.files ∨ ∃ e, '.' ∉ e ∧ d.get (pinLib d.windows e c) ≠ none ∧ f.1 = pinLib d.windows e over) := by
  obtain ⟨d', k1, k2, k3, k4, k5, k6⟩ := copyAll_spec (over := over) hc hne (found c d) d (tidy_ready ht)
  have hx : ∀ p ∈ found c d, ∀ e, ExtOf p e → '.' ∉ e ∧ d.get (pinLib d.windows e c) ≠ none := by
    intro p hp e he
    obtain ⟨e', he', hg⟩ := tidy_ready ht p hp
    obtain rfl := extOf_inj he he'
    exact ⟨extOf_nodot he, by rw [pinLib_eq]; exact hg⟩
  refine ⟨d', ?_, k2, k3, ?_, ?_, ?_⟩
  · unfold setup
    rw [if_pos hne]
    exact k1
  · intro e he hg
    rw [pinLib_eq, pinLib_eq]
    refine k4 _ (lib_found he hg) e ?_
    rw [pinLib_eq]
    exact extOf_path ht.1 (extOf_lib _ (pinExts_nodot he) hc)
  · intro n hn
    refine k5 n fun p hp e he heq => ?_
    obtain ⟨h1, h2⟩ := hx p hp e he
    exact hn e h2 h1 (by rw [pinLib_eq]; exact heq)
  · intro f hf
    rcases k6 f hf with h | ⟨p, hp, e, he, h⟩
    · exact .inl h
    · obtain ⟨h1, h2⟩ := hx p hp e he
      exact .inr ⟨e, h1, h2, by rw [pinLib_eq]; exact h⟩

/-- **C85** (the part that holds, for one crate). In a directory whose path has no dot, `Setup` gives every library of the crate the
overriding name as well, and changes no file but those of the overriding name.

Missing: see the negations below. -/
theorem C85_copied_partial (d : Dir) (crate over : Str) (hc : '.' ∉ crate) (hne : crate ≠ over) (ht : PinTidy d crate) :
    ∃ d', setup over d crate = (d', .ok ()) ∧
      (∀ e ∈ pinExts, d.get (pinLib d.windows e crate) ≠ none → d'.get (pinLib d.windows e over) = d.get (pinLib d.windows e crate)) ∧
      (∀ e, d'.get (pinLib d.windows e crate) = d.get (pinLib d.windows e crate) ∨ '.' ∈ e) ∧
      (∀ n, (∀ e, n ≠ pinLib d.windows e over) → d'.get n = d.get n) := by
  obtain ⟨d', k1, _, _, k4, k5, _⟩ := setup_tidy hc hne ht
  refine ⟨d', k1, k4, ?_, fun n hn => k5 n fun e _ _ => hn e⟩
  intro e
  by_cases he : '.' ∈ e
  · exact .inr he
  · refine .inl (k5 _ fun e' _ he' heq => ?_)
    rw [pinLib_eq, pinLib_eq] at heq
    exact hne (libName_inj he he' hc heq).2

/-- How the directory may differ from the one at the start. -/
structure PinInv (d0 : Dir) (over : Str) (d : Dir) : Prop where
  full : d.full = d0.full
  windows : d.windows = d0.windows
  keep : ∀ c ∈ pinCrates, c ≠ over → ∀ e, '.' ∉ e → d.get (pinLib d0.windows e c) = d0.get (pinLib d0.windows e c)
  files : ∀ f ∈ d.files, f ∈ d0.files ∨ ∃ e, '.' ∉ e ∧ (∃ c ∈ pinCrates, d0.get (pinLib d0.windows e c) ≠ none) ∧ f.1 = pinLib d0.windows e over

theorem pinInv_start (d : Dir) (over : Str) : PinInv d over d := ⟨rfl, rfl, fun _ _ _ _ _ => rfl, fun _ h => .inl h⟩

theorem pinInv_step {d0 d : Dir} {over c : Str} (hi : PinInv d0 over d) (ht : ∀ c ∈ pinCrates, c ≠ over → PinTidy d0 c) (hu : PinUniform d0)
    (ho : '.' ∉ over) (hc : c ∈ pinCrates) (hne : c ≠ over) :
    ∃ d', setup over d c = (d', .ok ()) ∧ PinInv d0 over d' ∧
      ∀ e ∈ pinExts, d0.get (pinLib d0.windows e c) ≠ none → d'.get (pinLib d0.windows e over) = d0.get (pinLib d0.windows e c) := by
  have ht0 := ht c hc hne
  have htd : PinTidy d c := by
    refine ⟨by rw [hi.full]; exact ht0.1, fun f hf hh => ?_⟩
    have hsep : d.sep = d0.sep := by unfold Dir.sep; rw [hi.windows]
    have hh0 : PinHit d0 c f.1 := by
      unfold PinHit at hh ⊢
      rw [← hi.full, ← hsep]; exact hh
    rcases hi.files f hf with h | ⟨e, he, ⟨c', hc', hg⟩, h⟩
    · obtain ⟨e, he, hg⟩ := ht0.2 f h hh0
      refine ⟨e, he, ?_⟩
      rw [hi.windows, hi.keep c hc hne e (extOf_nodot he)]
      exact hg
    · refine ⟨e, by rw [h, pinLib_eq]; exact extOf_lib _ he ho, ?_⟩
      rw [hi.windows, hi.keep c hc hne e he]
      exact hu c' hc' c hc e he hg
  obtain ⟨d', k1, k2, k3, k4, k5, k6⟩ := setup_tidy (over := over) (pinCrates_nodot hc) hne htd
  rw [hi.windows] at k3 k4 k5 k6
  refine ⟨d', k1, ⟨k2.trans hi.full, k3, ?_, ?_⟩, ?_⟩
  · intro c' hc' hne' e he
    rw [k5, hi.keep c' hc' hne' e he]
    intro e' _ he' heq
    rw [pinLib_eq, pinLib_eq] at heq
    exact hne' (libName_inj he he' (pinCrates_nodot hc') heq).2
  · intro f hf
    rcases k6 f hf with h | ⟨e, he, hg, h⟩
    · exact hi.files f h
    · refine .inr ⟨e, he, ⟨c, hc, ?_⟩, h⟩
      rw [hi.keep c hc hne e he] at hg
      exact hg
  · intro e he hg
    rw [k4 e he (by rw [hi.keep c hc hne e (pinExts_nodot he)]; exact hg), hi.keep c hc hne e (pinExts_nodot he)]

/-- **C85** (the part that holds, for the whole program). If the overriding name is none of the crates and the path has no dot, the program
runs to the end; when CppSharp runs for a crate, the overriding name is that crate's own library; and no crate's library changes.

Missing: the default for the overriding name is one of the crates. -/
theorem C85_own_library_partial (d : Dir) (over : Str) (ho : '.' ∉ over) (hover : over ∉ pinCrates) (ht : ∀ c ∈ pinCrates, PinTidy d c)
    (hu : PinUniform d) :
    ∃ d1 d2 d3, main (some over) d = ([("tp_client".toList, d1), ("unity_states".toList, d2), ("tp_contract_example".toList, d3)], .ok ()) ∧
      (∀ x ∈ [("tp_client".toList, d1), ("unity_states".toList, d2), ("tp_contract_example".toList, d3)],
        (∀ e ∈ pinExts, d.get (pinLib d.windows e x.1) ≠ none → x.2.get (pinLib d.windows e over) = d.get (pinLib d.windows e x.1)) ∧
        ∀ c ∈ pinCrates, ∀ e ∈ pinExts, x.2.get (pinLib d.windows e c) = d.get (pinLib d.windows e c)) := by
  have hne : ∀ c ∈ pinCrates, c ≠ over := fun c hc e => hover (e ▸ hc)
  have m1 : "tp_client".toList ∈ pinCrates := by decide
  have m2 : "unity_states".toList ∈ pinCrates := by decide
  have m3 : "tp_contract_example".toList ∈ pinCrates := by decide
  have ht' : ∀ c ∈ pinCrates, c ≠ over → PinTidy d c := fun c hc _ => ht c hc
  obtain ⟨d1, a1, i1, b1⟩ := pinInv_step (pinInv_start d over) ht' hu ho m1 (hne _ m1)
  obtain ⟨d2, a2, i2, b2⟩ := pinInv_step i1 ht' hu ho m2 (hne _ m2)
  obtain ⟨d3, a3, i3, b3⟩ := pinInv_step i2 ht' hu ho m3 (hne _ m3)
  refine ⟨d1, d2, d3, ?_, ?_⟩
  · unfold main crates
    simp only [Option.getD_some, runAll, a1, a2, a3]
  · intro x hx
    have hk : ∀ y : Dir, PinInv d over y → ∀ c ∈ pinCrates, ∀ e ∈ pinExts, y.get (pinLib d.windows e c) = d.get (pinLib d.windows e c) :=
      fun y hy c hc e he => hy.keep c hc (hne c hc) e (pinExts_nodot he)
    simp only [List.mem_cons, List.not_mem_nil, or_false] at hx
    rcases hx with rfl | rfl | rfl
    · exact ⟨b1, hk _ i1⟩
    · exact ⟨b2, hk _ i2⟩
    · exact ⟨b3, hk _ i3⟩

/-- **C85, refuted: the default name.** Without the environment variable, the library of the crate `unity_states` is overwritten: when
CppSharp runs for `unity_states` its library is that of `tp_client`, and when the program ends it is that of `tp_contract_example`.
(The comment in the code says that the copy does not affect later steps.) -/
theorem C85_default_negation (d : Dir) (ht : ∀ c ∈ pinCrates, PinTidy d c) (hu : PinUniform d) :
    ∃ d1 d2 d3, main none d = ([("tp_client".toList, d1), ("unity_states".toList, d2), ("tp_contract_example".toList, d3)], .ok ()) ∧
      ∀ e ∈ pinExts, d.get (pinLib d.windows e "unity_states".toList) ≠ none →
        d2.get (pinLib d.windows e "unity_states".toList) = d.get (pinLib d.windows e "tp_client".toList) ∧
        d3.get (pinLib d.windows e "unity_states".toList) = d.get (pinLib d.windows e "tp_contract_example".toList) := by
  have m1 : "tp_client".toList ∈ pinCrates := by decide
  have m2 : "unity_states".toList ∈ pinCrates := by decide
  have m3 : "tp_contract_example".toList ∈ pinCrates := by decide
  have ht' : ∀ c ∈ pinCrates, c ≠ "unity_states".toList → PinTidy d c := fun c hc _ => ht c hc
  have ho : '.' ∉ "unity_states".toList := by decide
  obtain ⟨d1, a1, i1, b1⟩ := pinInv_step (pinInv_start d "unity_states".toList) ht' hu ho m1 (by decide)
  have a2 : setup "unity_states".toList d1 "unity_states".toList = (d1, .ok ()) := by
    unfold setup
    rw [if_neg (by simp)]
  obtain ⟨d3, a3, i3, b3⟩ := pinInv_step i1 ht' hu ho m3 (by decide)
  refine ⟨d1, d1, d3, ?_, ?_⟩
  · unfold main crates
    simp only [Option.getD_none, runAll, a1, a2, a3]
  · intro e he hg
    exact ⟨b1 e he (hu _ m2 _ m1 e (pinExts_nodot he) hg), b3 e he (hu _ m2 _ m3 e (pinExts_nodot he) hg)⟩

/-- The first copy fails. -/
theorem copyAll_fails {crate over : Str} {d : Dir} {p : Str} {ps : List Str} {e : Str} (he : ExtOf p e) (hg : d.get (libName d.windows e crate) = none) :
    copyAll crate over d (p :: ps) = (d, .panic "FileNotFoundException") := by
  unfold copyAll copyOne
  rw [split_ext he]
  simp only [hg]

/-- Cut a string at its first dot. -/
theorem cut_dot : ∀ s : Str, ∃ a r, s = a ++ r ∧ '.' ∉ a ∧ (r = [] ∨ r.head? = some '.')
  | [] => ⟨[], [], rfl, by simp, .inl rfl⟩
  | c :: s => by
    by_cases h : c = '.'
    · exact ⟨[], c :: s, rfl, by simp, .inr (by simp [h])⟩
    · obtain ⟨a, r, e, h1, h2⟩ := cut_dot s
      exact ⟨c :: a, r, by simp [e], by simp [h1, Ne.symm h], h2⟩

/-- **C85, refuted: a dot in the path.** If there is a dot anywhere in the path of the checkout, `Setup` throws for every crate that has a
library and is not itself the overriding name, and nothing is copied. (No file name has a separator in it, and there is no library that
happens to be called after the crate with a piece of the path as its ending.) -/
theorem C85_dot_negation (d : Dir) (crate over : Str) (hne : crate ≠ over) (hdot : '.' ∈ d.full) (hsep : ∀ f ∈ d.files, d.sep ∉ f.1)
    (hno : ∀ s, ExtOf d.full s → d.get (pinLib d.windows s crate) = none)
    (hlib : ∃ e ∈ pinExts, d.get (pinLib d.windows e crate) ≠ none) :
    setup over d crate = (d, .panic "FileNotFoundException") := by
  obtain ⟨e, he, hg⟩ := hlib
  unfold setup
  rw [if_pos hne]
  cases hf : found crate d with
  | nil =>
    have := lib_found he hg
    rw [hf] at this
    simp at this
  | cons p ps =>
    obtain ⟨f, _, hp, _⟩ := mem_found.1 (show p ∈ found crate d by rw [hf]; simp)
    obtain ⟨a, r, h1, h2, h3⟩ := cut_dot d.full
    rcases h3 with rfl | h3
    · rw [h1, List.append_nil] at hdot
      exact absurd hdot h2
    · cases r with
      | nil => simp at h3
      | cons c r =>
        simp only [List.head?_cons, Option.some.injEq] at h3
        subst h3
        obtain ⟨s, r', h4, h5, h6⟩ := cut_dot r
        rcases h6 with rfl | h6
        · -- one dot: the piece goes on into the file name and has the separator in it
          obtain ⟨t, r'', h7, h8, h9⟩ := cut_dot f.1
          have hx : ExtOf p (s ++ d.sep :: t) := by
            refine ⟨a, r'', ?_, h2, ?_, h9⟩
            · rw [hp, h1, h4, h7]; simp
            · simp only [List.mem_append, List.mem_cons, not_or]
              exact ⟨h5, Ne.symm (sep_nodot d), h8⟩
          refine copyAll_fails hx ?_
          cases hq : d.get (libName d.windows (s ++ d.sep :: t) crate) with
          | none => rfl
          | some x =>
            obtain ⟨g, hgm, hgn⟩ := Dir.get_mem (show d.get (libName d.windows (s ++ d.sep :: t) crate) ≠ none by rw [hq]; simp)
            exact absurd (by rw [hgn, libName_eq]; simp) (hsep g hgm)
        · -- two dots: the piece is between them
          cases r' with
          | nil => simp at h6
          | cons c r' =>
            simp only [List.head?_cons, Option.some.injEq] at h6
            subst h6
            have hx : ExtOf p s := ⟨a, '.' :: r' ++ d.sep :: f.1, by rw [hp, h1, h4]; simp, h2, h5, .inr rfl⟩
            refine copyAll_fails hx ?_
            rw [← pinLib_eq]
            refine hno s ⟨a, '.' :: r', by rw [h1, h4], h2, h5, .inr rfl⟩

/-- **C85.** In such a checkout the program ends at the first crate and generates nothing. -/
theorem C85_dot_main_negation (d : Dir) (hdot : '.' ∈ d.full) (hsep : ∀ f ∈ d.files, d.sep ∉ f.1)
    (hno : ∀ s, ExtOf d.full s → d.get (pinLib d.windows s "tp_client".toList) = none)
    (hlib : ∃ e ∈ pinExts, d.get (pinLib d.windows e "tp_client".toList) ≠ none) (env : Option Str) (henv : env ≠ some "tp_client".toList) :
    main env d = ([], .panic "FileNotFoundException") := by
  have h := C85_dot_negation d "tp_client".toList (env.getD "unity_states".toList) (by
    cases env with
    | none => decide
    | some x => intro h; exact henv (congrArg some h.symm)) hdot hsep hno hlib
  unfold main crates
  simp only [runAll, h]

/-- **C85.** The checkout is found from where the program lies, whatever the configuration and the framework are called, for a build for this
machine and for another one. -/
theorem C85_project_dir_partial (root : List String) (cfg tfm rid exe : String) :
    projectDir (root ++ ["client", "codegen_pinvoke", "bin", cfg, tfm, exe]) = root ∧
    projectDir (root ++ ["client", "codegen_pinvoke", "bin", cfg, tfm, rid, exe]) = root := by
  have key : ∀ (l : List String) (n : Nat), l.length = n → ups n (root ++ ["client"] ++ l) = root ++ ["client"] := by
    intro l n
    induction n generalizing l with
    | zero => intro h; rw [List.length_eq_zero_iff.1 h]; simp [ups]
    | succ n ih =>
      intro h
      have hl : l ≠ [] := by intro e; simp [e] at h
      rw [ups, up, List.dropLast_append_of_ne_nil hl]
      exact ih _ (by simp [h])
  constructor
  · have := key ["codegen_pinvoke", "bin", cfg, tfm, exe] 5 rfl
    rw [List.append_assoc] at this
    unfold projectDir
    rw [show (["client", "codegen_pinvoke", "bin", cfg, tfm, exe] : List String) = ["client"] ++ ["codegen_pinvoke", "bin", cfg, tfm, exe] from rfl, this]
    simp [up]
  · have h6 : ∀ p : List String, ups 6 p = up (ups 5 p) := fun p => rfl
    have h5 : ups 5 (root ++ ["client", "codegen_pinvoke", "bin", cfg, tfm, rid, exe]) = root ++ ["client", "codegen_pinvoke"] := by
      have e : ∀ (l m : List String), l.length = 5 → ups 5 (m ++ l) = m := by
        intro l m h
        match l, h with
        | [a, b, c, d, e], _ =>
          simp only [ups, up]
          simp [List.dropLast_append_of_ne_nil, List.dropLast]
      rw [show root ++ ["client", "codegen_pinvoke", "bin", cfg, tfm, rid, exe] = (root ++ ["client", "codegen_pinvoke"]) ++ ["bin", cfg, tfm, rid, exe] by simp]
      exact e _ _ rfl
    unfold projectDir
    rw [h5]
    simp [up, List.dropLast_append_of_ne_nil]

/-- **C85, refuted: a published build.** One folder deeper, the program takes `client` for the checkout. -/
theorem C85_publish_negation (root : List String) (cfg tfm rid exe : String) :
    projectDir (root ++ ["client", "codegen_pinvoke", "bin", cfg, tfm, rid, "publish", exe]) = root ++ ["client"] := by
  have e : ∀ (l m : List String), l.length = 5 → ups 5 (m ++ l) = m := by
    intro l m h
    match l, h with
    | [a, b, c, d, e], _ =>
      simp only [ups, up]
      simp [List.dropLast_append_of_ne_nil, List.dropLast]
  unfold projectDir
  rw [show root ++ ["client", "codegen_pinvoke", "bin", cfg, tfm, rid, "publish", exe] = (root ++ ["client", "codegen_pinvoke", "bin"]) ++ [cfg, tfm, rid, "publish", exe] by simp,
    e _ _ rfl]
  simp [up, List.dropLast_append_of_ne_nil]

/-! Concrete cases. -/

/-- Three crates built on Linux. -/
def pinDir (full : String) : Dir := ⟨full.toList, false,
  [("libtp_client.so".toList, "1".toList), ("libtp_client.d".toList, "".toList), ("libunity_states.d".toList, "".toList),
   ("libtp_contract_example.d".toList, "".toList), ("libunity_states.so".toList, "2".toList),
   ("libtp_contract_example.so".toList, "3".toList)]⟩

example : ∀ c ∈ pinCrates, PinTidy (pinDir "/src/target/debug") c := by
  intro c hc
  refine ⟨by decide, fun f hf hh => ?_⟩
  rw [pinHit_iff] at hh
  refine ⟨"so".toList, ?_⟩
  simp only [pinDir, List.mem_cons, List.not_mem_nil, or_false] at hf
  simp only [pinCrates, List.mem_cons, List.not_mem_nil, or_false] at hc
  rcases hf with rfl | rfl | rfl | rfl | rfl | rfl <;> rcases hc with rfl | rfl | rfl <;>
    first
    | exact absurd hh (by decide +kernel)
    | exact ⟨⟨"libtp_client".toList, [], by decide, by decide, by decide, .inl rfl⟩, by decide +kernel⟩
    | exact ⟨⟨"libunity_states".toList, [], by decide, by decide, by decide, .inl rfl⟩, by decide +kernel⟩
    | exact ⟨⟨"libtp_contract_example".toList, [], by decide, by decide, by decide, .inl rfl⟩, by decide +kernel⟩
example : PinUniform (pinDir "/src/target/debug") := by
  intro c hc c' hc' e he hg
  obtain ⟨f, hf, hn⟩ := Dir.get_mem hg
  have hx := extOf_lib false he (pinCrates_nodot hc)
  rw [← pinLib_eq] at hx
  change f.1 = pinLib false e c at hn
  rw [← hn] at hx
  have : e = "so".toList ∨ e = "d".toList := by
    simp only [pinDir, List.mem_cons, List.not_mem_nil, or_false] at hf
    have hs := split_ext hx
    rcases hf with rfl | rfl | rfl | rfl | rfl | rfl
    · exact .inl (Option.some.inj (hs.symm.trans (by decide)))
    · exact .inr (Option.some.inj (hs.symm.trans (by decide)))
    · exact .inr (Option.some.inj (hs.symm.trans (by decide)))
    · exact .inr (Option.some.inj (hs.symm.trans (by decide)))
    · exact .inl (Option.some.inj (hs.symm.trans (by decide)))
    · exact .inl (Option.some.inj (hs.symm.trans (by decide)))
  simp only [pinCrates, List.mem_cons, List.not_mem_nil, or_false] at hc'
  rcases this with rfl | rfl <;> rcases hc' with rfl | rfl | rfl <;> decide +kernel
example : ((main none (pinDir "/src/target/debug")).1.map fun x => x.2.get "libunity_states.so".toList) =
    [some "1".toList, some "1".toList, some "3".toList] := by decide +kernel
example : ((main (some "all".toList) (pinDir "/src/target/debug")).1.map fun x => (x.2.get "liball.so".toList, x.2.get "libunity_states.so".toList)) =
    [(some "1".toList, some "2".toList), (some "2".toList, some "2".toList), (some "3".toList, some "2".toList)] := by decide +kernel
example : main none (pinDir "/home/me/constellation-1.0/target/debug") = ([], .panic "FileNotFoundException") := by decide +kernel
example : main (some "all".toList) (pinDir "/home/me/.work/v2.0/target/debug") = ([], .panic "FileNotFoundException") := by decide +kernel

end Verif.Props
