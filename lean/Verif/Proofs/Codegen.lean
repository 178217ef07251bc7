import Verif.Model.Codegen
/-!
# Lemmas about the file system and the generators
-/
namespace Verif

namespace Fs

theorem get_set (fs : Fs) (p q : Path) (x : Entry) : (fs.set p x).get q = if q = p then some x else fs.get q := by
  unfold get set
  by_cases h : q = p
  · subst h; simp
  · have h' : ¬ p = q := fun e => h e.symm
    simp only [List.find?_cons, h', decide_false, h, if_false]
    congr 1
    induction fs.entries with
    | nil => rfl
    | cons e es ih =>
      by_cases he : e.1 = p
      · rw [List.filter_cons_of_neg (by simp [he]), List.find?_cons_of_neg (by simp [he, h'])]; exact ih
      · rw [List.filter_cons_of_pos (by simp [he])]
        by_cases hq : e.1 = q
        · rw [List.find?_cons_of_pos (by simp [hq]), List.find?_cons_of_pos (by simp [hq])]
        · rw [List.find?_cons_of_neg (by simp [hq]), List.find?_cons_of_neg (by simp [hq])]; exact ih

theorem hasChild_iff (fs : Fs) (d : Path) : fs.hasChild d = true ↔ ∃ n, fs.get (d ++ [n]) ≠ none := by
  unfold hasChild get
  rw [List.any_eq_true]
  constructor
  · rintro ⟨e, he, hc⟩
    simp only [childOf, Bool.and_eq_true, decide_eq_true_eq] at hc
    obtain ⟨h1, h2⟩ := hc
    refine ⟨e.1.getLast h1, ?_⟩
    rw [← h2, List.dropLast_concat_getLast h1]
    intro hn
    rw [Option.map_eq_none_iff, List.find?_eq_none] at hn
    exact hn e he (by simp)
  · rintro ⟨n, hn⟩
    cases hf : fs.entries.find? fun e => e.1 = d ++ [n] with
    | none => rw [hf] at hn; exact absurd rfl hn
    | some e =>
      have h1 := List.find?_some hf
      simp only [decide_eq_true_eq] at h1
      exact ⟨e, List.mem_of_find?_eq_some hf, by simp [childOf, h1]⟩

end Fs

namespace Codegen

/-- How a run may change the disk: the files of the given classes in `out`, and missing directories on the way to it. -/
def Changes (out : Path) (classes : List String) (a b : Fs) : Prop :=
  ∀ p : Path, b.get p = a.get p ∨ (∃ c ∈ classes, p = out ++ [c ++ ".cs"]) ∨
    (p <+: out ∧ a.get p = none ∧ b.get p = some .dir)

theorem Changes.refl (out : Path) (cl : List String) (a : Fs) : Changes out cl a a := fun _ => .inl rfl

theorem Changes.trans {out : Path} {cl : List String} {a b c : Fs} (h1 : Changes out cl a b) (h2 : Changes out cl b c) : Changes out cl a c := by
  intro p
  rcases h2 p with e2 | e2 | ⟨e2, e3, e4⟩
  · rcases h1 p with e1 | e1 | ⟨k1, k2, k3⟩
    · exact .inl (e2.trans e1)
    · exact .inr (.inl e1)
    · exact .inr (.inr ⟨k1, k2, e2.trans k3⟩)
  · exact .inr (.inl e2)
  · rcases h1 p with e1 | e1 | ⟨k1, k2, k3⟩
    · exact .inr (.inr ⟨e2, e1 ▸ e3, e4⟩)
    · exact .inr (.inl e1)
    · rw [k3] at e3; cases e3

theorem Changes.mono {out : Path} {cl cl' : List String} {a b : Fs} (h : Changes out cl a b) (hs : ∀ c ∈ cl, c ∈ cl') : Changes out cl' a b := by
  intro p
  rcases h p with e | ⟨c, hc, e⟩ | e
  · exact .inl e
  · exact .inr (.inl ⟨c, hs c hc, e⟩)
  · exact .inr (.inr e)

/-- Nothing but missing directories on the way to `out`. -/
theorem createDir_changes (o : Oracle) (d : Disk) (p out : Path) (hp : p <+: out) :
    Changes out [] d.fs (d.createDir o p).1.fs ∧ ((d.createDir o p).2 = .ok () → (d.createDir o p).1.fs.get p = some .dir) ∧
    (∀ m, (d.createDir o p).2 ≠ .panic m) ∧
    (o = (fun _ => none) → (∀ c, d.fs.get p ≠ some (.file c)) → (d.createDir o p).2 = .ok ()) := by
  unfold Disk.createDir
  cases hg : d.fs.get p with
  | some e =>
    cases e with
    | dir => exact ⟨.refl _ _ _, fun _ => hg, by simp, fun _ _ => rfl⟩
    | file c => exact ⟨.refl _ _ _, by simp, by simp, fun _ h => absurd rfl (h c)⟩
  | none =>
    simp only
    cases ho : o d.calls with
    | some n => exact ⟨.refl _ _ _, by simp, by simp, fun h => by rw [h] at ho; cases ho⟩
    | none =>
      refine ⟨fun q => ?_, fun _ => by simp [Fs.get_set], by simp, fun _ _ => rfl⟩
      simp only [Fs.get_set]
      by_cases hq : q = p
      · subst hq; exact .inr (.inr ⟨hp, hg, by simp⟩)
      · exact .inl (by simp [hq])

theorem createDirs_spec (o : Oracle) (out : Path) (rest : List String) : ∀ (d : Disk) (done : Path), done ++ rest = out →
    Changes out [] d.fs (d.createDirs o done rest).1.fs ∧
    ((d.createDirs o done rest).2 = .ok () → d.fs.get done = some .dir ∨ rest ≠ [] → (d.createDirs o done rest).1.fs.get out = some .dir) ∧
    (∀ m, (d.createDirs o done rest).2 ≠ .panic m) ∧
    (o = (fun _ => none) → (∀ p, p <+: out → ∀ c, d.fs.get p ≠ some (.file c)) → (d.createDirs o done rest).2 = .ok ()) := by
  induction rest with
  | nil =>
    intro d done h
    simp only [List.append_nil] at h
    subst h
    exact ⟨.refl _ _ _, fun _ h => h.elim id (fun h => absurd rfl h), by simp [Disk.createDirs], fun _ _ => rfl⟩
  | cons x rest ih =>
    intro d done h
    have hp : done ++ [x] <+: out := ⟨rest, by rw [← h]; simp⟩
    obtain ⟨k1, k2, k3, k4⟩ := createDir_changes o d (done ++ [x]) out hp
    simp only [Disk.createDirs]
    cases hc : d.createDir o (done ++ [x]) with
    | mk d' r =>
      rw [hc] at k1 k2 k3 k4
      cases r with
      | err m => exact ⟨k1, by simp, by simp, fun a b => by have := k4 a (b _ hp); cases this⟩
      | panic m => exact absurd rfl (k3 m)
      | ok u =>
        obtain ⟨g1, g2, g3, g4⟩ := ih d' (done ++ [x]) (by rw [← h]; simp)
        refine ⟨k1.trans g1, fun e _ => g2 e (.inl (k2 rfl)), g3, fun a b => g4 a ?_⟩
        intro p hpp c hpc
        rcases k1 p with e | ⟨c', hc', _⟩ | ⟨_, _, e⟩
        · exact b p hpp c (e ▸ hpc)
        · simp at hc'
        · simp only at e; rw [e] at hpc; cases hpc

theorem createDirAll_spec (o : Oracle) (out : Path) (d : Disk) (hne : out ≠ []) :
    Changes out [] d.fs (d.createDirAll o out).1.fs ∧
    ((d.createDirAll o out).2 = .ok () → (d.createDirAll o out).1.fs.get out = some .dir) ∧
    (∀ m, (d.createDirAll o out).2 ≠ .panic m) ∧
    (o = (fun _ => none) → (∀ p, p <+: out → ∀ c, d.fs.get p ≠ some (.file c)) → (d.createDirAll o out).2 = .ok ()) := by
  obtain ⟨h1, h2, h3, h4⟩ := createDirs_spec o out out d [] rfl
  exact ⟨h1, fun e => h2 e (.inr hne), h3, h4⟩

theorem readFile_spec (o : Oracle) (d : Disk) (p : Path) :
    (d.readFile o p).1.fs = d.fs ∧ (∀ c, (d.readFile o p).2 = .ok c → d.fs.get p = some (.file c)) ∧ (∀ m, (d.readFile o p).2 ≠ .panic m) ∧
    (o = (fun _ => none) → ∀ c, d.fs.get p = some (.file c) → (d.readFile o p).2 = .ok c) := by
  unfold Disk.readFile
  cases ho : o d.calls with
  | some n => exact ⟨rfl, by simp, by simp, fun h => by rw [h] at ho; cases ho⟩
  | none =>
    cases hg : d.fs.get p with
    | none => exact ⟨rfl, by simp, by simp, by simp⟩
    | some e => cases e with
      | dir => exact ⟨rfl, by simp, by simp, by simp⟩
      | file c => exact ⟨rfl, by simp, by simp, by simp⟩

/-- The template files have these contents, and they parse. -/
def Tpls (fs : Fs) (ps : Parses) : List Path → List String → Prop
  | [], [] => True
  | p :: l, c :: cs => fs.get p = some (.file c) ∧ ps c = true ∧ Tpls fs ps l cs
  | _, _ => False

theorem Tpls.congr {a b : Fs} {ps : Parses} : ∀ {l : List Path} {cs : List String}, (∀ p ∈ l, b.get p = a.get p) → Tpls a ps l cs → Tpls b ps l cs
  | [], [], _, h => h
  | [], _ :: _, _, h => h.elim
  | _ :: _, [], _, h => h.elim
  | p :: l, c :: cs, he, ⟨h1, h2, h3⟩ => ⟨(he p (by simp)).trans h1, h2, Tpls.congr (fun q hq => he q (by simp [hq])) h3⟩

theorem readAll_spec (o : Oracle) (ps : Parses) (l : List Path) : ∀ d : Disk,
    (readAll o ps d l).1.fs = d.fs ∧ (∀ cs, (readAll o ps d l).2 = .ok cs → Tpls d.fs ps l cs) ∧ (∀ m, (readAll o ps d l).2 ≠ .panic m) ∧
    (o = (fun _ => none) → ∀ cs, Tpls d.fs ps l cs → (readAll o ps d l).2 = .ok cs) := by
  induction l with
  | nil =>
    intro d
    refine ⟨rfl, ?_, by simp [readAll], ?_⟩
    · intro cs h
      simp only [readAll, Outcome.ok.injEq] at h
      subst h; trivial
    · intro _ cs h
      cases cs with
      | nil => rfl
      | cons => exact h.elim
  | cons p l ih =>
    intro d
    obtain ⟨k1, k2, k3, k4⟩ := readFile_spec o d p
    simp only [readAll]
    cases hr : d.readFile o p with
    | mk d1 r =>
      rw [hr] at k1 k2 k3 k4
      cases r with
      | err m =>
        refine ⟨k1, by simp, by simp, fun a cs h => ?_⟩
        cases cs with
        | nil => exact h.elim
        | cons c cs => have := k4 a c h.1; cases this
      | panic m => exact absurd rfl (k3 m)
      | ok c =>
        have hc := k2 c rfl
        simp only
        by_cases hp : ps c = true
        · rw [if_pos hp]
          obtain ⟨g1, g2, g3, g4⟩ := ih d1
          simp only at k1
          rw [k1] at g1 g2 g4
          cases hr2 : readAll o ps d1 l with
          | mk d2 r2 =>
            rw [hr2] at g1 g2 g3 g4
            cases r2 with
            | ok cs =>
              refine ⟨g1, ?_, by simp, ?_⟩
              · intro cs' h
                simp only [Outcome.ok.injEq] at h
                subst h
                exact ⟨hc, hp, g2 cs rfl⟩
              · intro a cs' h
                cases cs' with
                | nil => exact h.elim
                | cons c' cs' =>
                  obtain ⟨h1, _, h3⟩ := h
                  rw [hc] at h1
                  have := g4 a cs' h3
                  simp only [Outcome.ok.injEq] at this
                  subst this
                  simp only [Option.some.injEq, Entry.file.injEq] at h1
                  rw [h1]
            | err m =>
              refine ⟨g1, by simp, by simp, fun a cs h => ?_⟩
              cases cs with
              | nil => exact h.elim
              | cons c' cs => have := g4 a cs h.2.2; cases this
            | panic m => exact absurd rfl (g3 m)
        · rw [if_neg hp]
          refine ⟨k1, by simp, by simp, fun a cs h => ?_⟩
          cases cs with
          | nil => exact h.elim
          | cons c' cs =>
            obtain ⟨h1, h2, _⟩ := h
            rw [hc] at h1
            simp only [Option.some.injEq, Entry.file.injEq] at h1
            rw [← h1] at h2
            exact absurd h2 hp

/-- The check at the beginning of `Codegen::new` does not object. -/
def Open (fs : Fs) (out : Path) (force : Bool) : Prop :=
  force = true ∨ (fs.get out = none ∨ fs.get out = some .dir ∧ ∀ n, fs.get (out ++ [n]) = none)

theorem new_spec (o : Oracle) (ps : Parses) (out : Path) (tpls : List Path) (force : Bool) (d : Disk) (hne : out ≠ [])
    (ht : ∀ p ∈ tpls, ¬ p <+: out) :
    Changes out [] d.fs (new o ps out tpls force d).1.fs ∧
    (∀ cs, (new o ps out tpls force d).2 = .ok cs → Open d.fs out force ∧ Tpls d.fs ps tpls cs ∧ (new o ps out tpls force d).1.fs.get out = some .dir) ∧
    (∀ m, (new o ps out tpls force d).2 ≠ .panic m) ∧
    (¬ Open d.fs out force → (new o ps out tpls force d).1 = d ∧ ∃ m, (new o ps out tpls force d).2 = .err m) ∧
    (o = (fun _ => none) → Open d.fs out force → (∀ p, p <+: out → ∀ c, d.fs.get p ≠ some (.file c)) →
      ∀ cs, Tpls d.fs ps tpls cs → (new o ps out tpls force d).2 = .ok cs) := by
  have hcheck : (!force && blocked d.fs out) = true ↔ ¬ Open d.fs out force := by
    unfold Open blocked
    cases force with
    | true => simp
    | false =>
      simp only [Bool.not_false, Bool.true_and, Bool.false_eq_true, false_or]
      cases hg : d.fs.get out with
      | none => simp
      | some e => cases e with
        | file c => simp
        | dir =>
          simp only [Fs.hasChild_iff]
          simp
  unfold new
  by_cases hop : Open d.fs out force
  · rw [if_neg (fun h => hcheck.1 h hop)]
    obtain ⟨k1, k2, k3, k4⟩ := createDirAll_spec o out d hne
    cases hc : d.createDirAll o out with
    | mk d1 r =>
      rw [hc] at k1 k2 k3 k4
      cases r with
      | err m => exact ⟨k1, by simp, by simp, fun h => absurd hop h, fun a _ c => by have := k4 a c; cases this⟩
      | panic m => exact absurd rfl (k3 m)
      | ok u =>
        obtain ⟨g1, g2, g3, g4⟩ := readAll_spec o ps tpls d1
        have hsame : ∀ p ∈ tpls, d1.fs.get p = d.fs.get p := by
          intro p hp
          rcases k1 p with e | ⟨c, hc, _⟩ | ⟨e, _⟩
          · exact e
          · simp at hc
          · exact absurd e (ht p hp)
        simp only
        refine ⟨by rw [g1]; exact k1, fun cs h => ⟨hop, ?_, ?_⟩, g3, fun h => absurd hop h, fun a _ _ cs h => g4 a cs ?_⟩
        · exact Tpls.congr (fun p hp => (hsame p hp).symm) (g2 cs h)
        · rw [g1]; exact k2 rfl
        · exact Tpls.congr hsame h
  · rw [if_pos (hcheck.2 hop)]
    exact ⟨.refl _ _ _, by simp, by simp, fun _ => ⟨rfl, _, rfl⟩, fun _ h => absurd h hop⟩

/-- One class. -/
theorem renderToFile_spec (o : Oracle) (r : Render) (out : Path) (tpl : List String) (d : Disk) (i : String) :
    Changes out [i] d.fs (renderToFile o r out tpl d i).1.fs ∧
    ((renderToFile o r out tpl d i).2 = .ok () →
      (renderToFile o r out tpl d i).1.fs.get (out ++ [i ++ ".cs"]) = some (.file (r tpl i).1) ∧ (r tpl i).2 = true) ∧
    (∀ m, (renderToFile o r out tpl d i).2 ≠ .panic m) ∧
    (o = (fun _ => none) → d.fs.get out = some .dir → d.fs.get (out ++ [i ++ ".cs"]) ≠ some .dir → (r tpl i).2 = true →
      (renderToFile o r out tpl d i).2 = .ok ()) := by
  have hset : ∀ (a : Fs) (s : String), Changes out [i] a (a.set (out ++ [i ++ ".cs"]) (.file s)) := by
    intro a s q
    rw [Fs.get_set]
    by_cases hq : q = out ++ [i ++ ".cs"]
    · exact .inr (.inl ⟨i, by simp, hq⟩)
    · exact .inl (by rw [if_neg hq])
  have hcreate : Changes out [i] d.fs (d.createFile o (out ++ [i ++ ".cs"])).1.fs ∧ (∀ m, (d.createFile o (out ++ [i ++ ".cs"])).2 ≠ .panic m) ∧
      (o = (fun _ => none) → d.fs.get out = some .dir → d.fs.get (out ++ [i ++ ".cs"]) ≠ some .dir → (d.createFile o (out ++ [i ++ ".cs"])).2 = .ok ()) := by
    unfold Disk.createFile
    simp only [List.dropLast_concat]
    cases ho : o d.calls with
    | some n => exact ⟨.refl _ _ _, by simp, fun h => by rw [h] at ho; cases ho⟩
    | none =>
      cases hg : d.fs.get (out ++ [i ++ ".cs"]) with
      | some e => cases e with
        | dir => exact ⟨.refl _ _ _, by simp, by simp⟩
        | file c => exact ⟨hset _ _, by simp, fun _ _ _ => rfl⟩
      | none =>
        cases hd : d.fs.get out with
        | none => exact ⟨.refl _ _ _, by simp, by simp⟩
        | some e => cases e with
          | dir => exact ⟨hset _ _, by simp, fun _ _ _ => rfl⟩
          | file c => exact ⟨.refl _ _ _, by simp, by simp⟩
  obtain ⟨k1, k2, k3⟩ := hcreate
  unfold renderToFile
  cases hc : d.createFile o (out ++ [i ++ ".cs"]) with
  | mk d1 r1 =>
    rw [hc] at k1 k2 k3
    cases r1 with
    | err m => exact ⟨k1, by simp, by simp, fun a b c _ => by have := k3 a b c; cases this⟩
    | panic m => exact absurd rfl (k2 m)
    | ok u =>
      simp only
      unfold Disk.writeFile
      cases ho : o d1.calls with
      | some n => exact ⟨k1.trans (hset _ _), by simp, by simp, fun h => by rw [h] at ho; cases ho⟩
      | none =>
        refine ⟨k1.trans (hset _ _), ?_, ?_, ?_⟩
        · intro h
          refine ⟨by simp [Fs.get_set], ?_⟩
          by_cases hr : (r tpl i).2 = true
          · exact hr
          · simp [hr] at h
        · intro m h
          by_cases hr : (r tpl i).2 = true <;> simp [hr] at h
        · intro _ _ _ h
          simp [h]

theorem renderList_spec (o : Oracle) (r : Render) (out : Path) (tpl : List String) (l : List String) : ∀ d : Disk,
    Changes out l d.fs (renderList o r out tpl d l).1.fs ∧
    ((renderList o r out tpl d l).2 = .ok () → ∀ c ∈ l,
      (renderList o r out tpl d l).1.fs.get (out ++ [c ++ ".cs"]) = some (.file (r tpl c).1) ∧ (r tpl c).2 = true) ∧
    (∀ m, (renderList o r out tpl d l).2 ≠ .panic m) ∧
    (o = (fun _ => none) → d.fs.get out = some .dir → (∀ c ∈ l, d.fs.get (out ++ [c ++ ".cs"]) ≠ some .dir) → (∀ c ∈ l, (r tpl c).2 = true) →
      (renderList o r out tpl d l).2 = .ok ()) := by
  induction l with
  | nil => intro d; exact ⟨.refl _ _ _, by simp, by simp [renderList], fun _ _ _ _ => rfl⟩
  | cons i l ih =>
    intro d
    obtain ⟨k1, k2, k3, k4⟩ := renderToFile_spec o r out tpl d i
    simp only [renderList]
    cases hr : renderToFile o r out tpl d i with
    | mk d1 r1 =>
      rw [hr] at k1 k2 k3 k4
      have m1 : Changes out (i :: l) d.fs d1.fs := k1.mono (by simp)
      cases r1 with
      | err m => exact ⟨m1, by simp, by simp, fun a b c e => by have := k4 a b (c i (by simp)) (e i (by simp)); cases this⟩
      | panic m => exact absurd rfl (k3 m)
      | ok u =>
        obtain ⟨g1, g2, g3, g4⟩ := ih d1
        simp only
        refine ⟨m1.trans (g1.mono (by simp +contextual)), ?_, g3, ?_⟩
        · intro h c hc
          by_cases hcl : c ∈ l
          · exact g2 h c hcl
          · have hci : c = i := by simpa [hcl] using hc
            subst hci
            obtain ⟨e1, e2⟩ := k2 rfl
            refine ⟨?_, e2⟩
            rcases g1 (out ++ [c ++ ".cs"]) with e | ⟨c', hc', e⟩ | ⟨_, e, _⟩
            · exact e.trans e1
            · have : c ++ ".cs" = c' ++ ".cs" := by simpa using e
              have : c = c' := by
                have h2 := congrArg String.toList this
                simp only [String.toList_append] at h2
                exact String.toList_inj.1 (List.append_cancel_right h2)
              exact absurd (this ▸ hc') hcl
            · simp only at e1; rw [e1] at e; cases e
        · intro a b c e
          refine g4 a ?_ (fun c' hc' => ?_) (fun c' hc' => e c' (by simp [hc']))
          · rcases k1 out with e | ⟨_, _, e⟩ | ⟨_, e, _⟩
            · exact e.trans b
            · have := congrArg List.length e; simp at this
            · rw [b] at e; cases e
          · intro hdir
            rcases k1 (out ++ [c' ++ ".cs"]) with e1 | ⟨c2, hc2, e1⟩ | ⟨e1, _, _⟩
            · exact c c' (by simp [hc']) (e1 ▸ hdir)
            · simp only [List.mem_singleton] at hc2
              subst hc2
              rw [e1, (k2 rfl).1] at hdir
              cases hdir
            · have := e1.length_le
              simp only [List.length_append, List.length_singleton] at this
              omega

/-- Nothing is inside something that does not exist. -/
def Fs.Sane (fs : Fs) (out : Path) : Prop := fs.get out = none → ∀ n, fs.get (out ++ [n]) = none

theorem not_prefix_child (out : Path) (n : String) : ¬ (out ++ [n]) <+: out := by
  intro e
  have := e.length_le
  simp only [List.length_append, List.length_singleton] at this
  omega

/-- `Codegen::new` leaves the contents of the output directory alone. -/
theorem child_same {a b : Fs} {out : Path} (hc : Changes out [] a b) (n : String) : b.get (out ++ [n]) = a.get (out ++ [n]) := by
  rcases hc (out ++ [n]) with e | ⟨_, h, _⟩ | ⟨e, _⟩
  · exact e
  · simp at h
  · exact absurd e (not_prefix_child out n)

/-- After a successful `Codegen::new` the next one is not stopped either. -/
theorem open_after {a b : Fs} {out : Path} {force : Bool} (h : Open a out force) (hw : Fs.Sane a out) (hc : Changes out [] a b)
    (hd : b.get out = some .dir) : Open b out force := by
  rcases h with h | h
  · exact .inl h
  · refine .inr (.inr ⟨hd, fun n => ?_⟩)
    rw [child_same hc n]
    rcases h with h | ⟨_, h⟩
    · exact hw h n
    · exact h n

/-- What the four calls of `Codegen::new` have read. -/
def TplGroups (fs : Fs) (ps : Parses) (manifest : Path) : List Group → List (List String × List String) → Prop
  | [], [] => True
  | g :: l, x :: xs => Tpls fs ps [manifest ++ ["opaque_template.cs.tpl"], manifest ++ [g.tpl]] x.1 ∧ x.2 = g.classes ∧ TplGroups fs ps manifest l xs
  | _, _ => False

theorem TplGroups.congr {a b : Fs} {ps : Parses} {manifest : Path} : ∀ {l : List Group} {xs : List (List String × List String)},
    (∀ f, b.get (manifest ++ [f]) = a.get (manifest ++ [f])) → TplGroups a ps manifest l xs → TplGroups b ps manifest l xs
  | [], [], _, h => h
  | [], _ :: _, _, h => h.elim
  | _ :: _, [], _, h => h.elim
  | g :: l, x :: xs, he, ⟨h1, h2, h3⟩ => ⟨h1.congr (by
      intro p hp
      simp only [List.mem_cons, List.not_mem_nil, or_false] at hp
      rcases hp with rfl | rfl <;> exact he _), h2, TplGroups.congr he h3⟩

theorem newAll_spec (o : Oracle) (ps : Parses) (out manifest : Path) (force : Bool) (hne : out ≠ []) (hm : ∀ f, ¬ (manifest ++ [f]) <+: out)
    (l : List Group) : ∀ d : Disk,
    Changes out [] d.fs (newAll o ps out manifest force d l).1.fs ∧
    (∀ gs, (newAll o ps out manifest force d l).2 = .ok gs → TplGroups d.fs ps manifest l gs ∧
      (l ≠ [] → Open d.fs out force ∧ (newAll o ps out manifest force d l).1.fs.get out = some .dir)) ∧
    (∀ m, (newAll o ps out manifest force d l).2 ≠ .panic m) ∧
    (l ≠ [] → ¬ Open d.fs out force → (newAll o ps out manifest force d l).1 = d ∧ ∃ m, (newAll o ps out manifest force d l).2 = .err m) ∧
    (o = (fun _ => none) → Open d.fs out force → Fs.Sane d.fs out → (∀ p, p <+: out → ∀ c, d.fs.get p ≠ some (.file c)) →
      ∀ gs, TplGroups d.fs ps manifest l gs → (newAll o ps out manifest force d l).2 = .ok gs) := by
  induction l with
  | nil =>
    intro d
    refine ⟨.refl _ _ _, ?_, by simp [newAll], by simp, ?_⟩
    · intro gs h
      simp only [newAll, Outcome.ok.injEq] at h
      subst h
      exact ⟨trivial, by simp⟩
    · intro _ _ _ _ gs h
      cases gs with
      | nil => rfl
      | cons => exact h.elim
  | cons g l ih =>
    intro d
    obtain ⟨k1, k2, k3, k4, k5⟩ := new_spec o ps out [manifest ++ ["opaque_template.cs.tpl"], manifest ++ [g.tpl]] force d hne (by
      intro p hp
      simp only [List.mem_cons, List.not_mem_nil, or_false] at hp
      rcases hp with rfl | rfl <;> exact hm _)
    simp only [newAll]
    cases hn : new o ps out [manifest ++ ["opaque_template.cs.tpl"], manifest ++ [g.tpl]] force d with
    | mk d1 r =>
      rw [hn] at k1 k2 k3 k4 k5
      have hsame : ∀ f, d1.fs.get (manifest ++ [f]) = d.fs.get (manifest ++ [f]) := by
        intro f
        rcases k1 (manifest ++ [f]) with e | ⟨_, h, _⟩ | ⟨e, _⟩
        · exact e
        · simp at h
        · exact absurd e (hm f)
      cases r with
      | err m =>
        refine ⟨k1, by simp, by simp, fun _ h => ⟨(k4 h).1, m, rfl⟩, fun a b _ c gs h => ?_⟩
        cases gs with
        | nil => exact h.elim
        | cons x gs => have := k5 a b c x.1 h.1; cases this
      | panic m => exact absurd rfl (k3 m)
      | ok tpl =>
        obtain ⟨j1, j2, j3⟩ := k2 tpl rfl
        simp only at j3
        obtain ⟨g1, g2, g3, g4, g5⟩ := ih d1
        simp only
        cases hn2 : newAll o ps out manifest force d1 l with
        | mk d2 r2 =>
          rw [hn2] at g1 g2 g3 g4 g5
          have hd2 : d2.fs.get out = some .dir := by
            rcases g1 out with e | ⟨_, h, _⟩ | ⟨_, _, e⟩
            · exact e.trans j3
            · simp at h
            · exact e
          cases r2 with
          | ok gs =>
            refine ⟨k1.trans g1, ?_, by simp, fun _ h => absurd j1 h, ?_⟩
            · intro gs' h
              simp only [Outcome.ok.injEq] at h
              subst h
              exact ⟨⟨j2, rfl, TplGroups.congr (fun f => (hsame f).symm) (g2 gs rfl).1⟩, fun _ => ⟨j1, hd2⟩⟩
            · intro a b w c gs' h
              cases gs' with
              | nil => exact h.elim
              | cons x gs' =>
                obtain ⟨h1, h2, h3⟩ := h
                have e1 := k5 a b c x.1 h1
                have e2 := g5 a (open_after b w k1 j3) (fun e => by rw [j3] at e; cases e) (by
                  intro p hp c' hpc
                  rcases k1 p with e | ⟨_, h, _⟩ | ⟨_, _, e⟩
                  · exact c p hp c' (e ▸ hpc)
                  · simp at h
                  · simp only at e; rw [e] at hpc; cases hpc) gs' (h3.congr hsame)
                simp only [Outcome.ok.injEq] at e1 e2
                subst e1; subst e2
                rw [← h2]
          | err m =>
            refine ⟨k1.trans g1, by simp, by simp, fun _ h => absurd j1 h, ?_⟩
            intro a b w c gs' h
            cases gs' with
            | nil => exact h.elim
            | cons x gs' =>
              have e2 := g5 a (open_after b w k1 j3) (fun e => by rw [j3] at e; cases e) (by
                  intro p hp c' hpc
                  rcases k1 p with e | ⟨_, h, _⟩ | ⟨_, _, e⟩
                  · exact c p hp c' (e ▸ hpc)
                  · simp at h
                  · simp only at e; rw [e] at hpc; cases hpc) gs' (h.2.2.congr hsame)
              cases e2
          | panic m => exact absurd rfl (g3 m)

theorem ident_inj {c c' : String} (h : c ++ ".cs" = c' ++ ".cs") : c = c' := by
  have h2 := congrArg String.toList h
  simp only [String.toList_append] at h2
  exact String.toList_inj.1 (List.append_cancel_right h2)

theorem renderGroups_spec (o : Oracle) (r : Render) (out : Path) (gs : List (List String × List String)) : ∀ d : Disk,
    Changes out (gs.flatMap Prod.snd) d.fs (renderGroups o r out d gs).1.fs ∧
    ((renderGroups o r out d gs).2 = .ok () → (gs.flatMap Prod.snd).Nodup → ∀ g ∈ gs, ∀ c ∈ g.2,
      (renderGroups o r out d gs).1.fs.get (out ++ [c ++ ".cs"]) = some (.file (r g.1 c).1) ∧ (r g.1 c).2 = true) ∧
    (∀ m, (renderGroups o r out d gs).2 ≠ .panic m) ∧
    (o = (fun _ => none) → d.fs.get out = some .dir → (∀ g ∈ gs, ∀ c ∈ g.2, d.fs.get (out ++ [c ++ ".cs"]) ≠ some .dir) →
      (∀ g ∈ gs, ∀ c ∈ g.2, (r g.1 c).2 = true) → (renderGroups o r out d gs).2 = .ok ()) := by
  induction gs with
  | nil => intro d; exact ⟨.refl _ _ _, by simp, by simp [renderGroups], fun _ _ _ _ => rfl⟩
  | cons g gs ih =>
    intro d
    obtain ⟨k1, k2, k3, k4⟩ := renderList_spec o r out g.1 g.2 d
    simp only [renderGroups]
    cases hr : renderList o r out g.1 d g.2 with
    | mk d1 r1 =>
      rw [hr] at k1 k2 k3 k4
      obtain ⟨g1, g2, g3, g4⟩ := ih d1
      simp only at k1 ⊢
      cases hr2 : renderGroups o r out d1 gs with
      | mk d2 r2 =>
        rw [hr2] at g1 g2 g3 g4
        simp only at g1 ⊢
        refine ⟨(k1.mono (by simp +contextual)).trans (g1.mono (by simp +contextual [List.flatMap_cons])), ?_, ?_, ?_⟩
        · intro h hnd
          simp only [List.flatMap_cons] at hnd
          obtain ⟨n1, n2, n3⟩ := List.nodup_append.1 hnd
          cases r1 with
          | err m => cases h
          | panic m => cases h
          | ok u =>
            simp only at h
            intro x hx c hc
            rcases List.mem_cons.1 hx with rfl | hx
            · obtain ⟨e1, e2⟩ := k2 rfl c hc
              refine ⟨?_, e2⟩
              rcases g1 (out ++ [c ++ ".cs"]) with e | ⟨c', hc', e⟩ | ⟨_, e, _⟩
              · exact e.trans e1
              · have : c ++ ".cs" = c' ++ ".cs" := by simpa using e
                exact absurd (ident_inj this) (n3 c hc c' hc')
              · simp only at e1; rw [e1] at e; cases e
            · exact g2 h n2 x hx c hc
        · intro m
          cases r1 with
          | ok u => exact g3 m
          | err m' => simp
          | panic m' => exact absurd rfl (k3 m')
        · intro a b c e
          have e1 := k4 a b (c g (by simp)) (e g (by simp))
          simp only at e1
          subst e1
          simp only
          refine g4 a ?_ (fun x hx c' hc' hdir => ?_) (fun x hx => e x (by simp [hx]))
          · rcases k1 out with e | ⟨_, _, e⟩ | ⟨_, e, _⟩
            · exact e.trans b
            · have := congrArg List.length e; simp at this
            · rw [b] at e; cases e
          · rcases k1 (out ++ [c' ++ ".cs"]) with e1 | ⟨c2, hc2, e1⟩ | ⟨e1, _, _⟩
            · exact c x (by simp [hx]) c' hc' (e1 ▸ hdir)
            · rw [e1, (k2 rfl c2 hc2).1] at hdir
              cases hdir
            · exact not_prefix_child _ _ e1

end Codegen
end Verif
