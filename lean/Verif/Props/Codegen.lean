import Verif.Proofs.Codegen
/-!
# C84: what the two generators of C# code do to the disk

`o` decides which calls of the operating system fail and after how many characters, `ps` which templates parse, `r` what they
render to; all three are arbitrary.
-/
namespace Verif.Props
open Verif Verif.Codegen

/-- Specification: the fourteen types. -/
def genTypes : List String :=
  ["U8", "U16", "U32", "U64", "I8", "I16", "I32", "I64", "Bool", "F32", "F64", "String", "ObjectHandle", "ContractDataHandle"]

/-- Specification: the template of each kind of class. -/
def genKinds : List (String × String) :=
  [("Keyframe_", "keyframe.cs.tpl"), ("State_", "state.cs.tpl"), ("StateId_", "state_id.cs.tpl"), ("StateHandle_", "state_handle.cs.tpl")]

/-- Specification: the names of the files that `codegen_wrapped` writes. -/
def genNames : List String := genKinds.flatMap fun k => genTypes.map fun t => k.1 ++ t ++ ".cs"

/-- Specification: the names of the files that the `RBox` generator writes. -/
def rboxNames : List String :=
  ["RBox_U8.cs", "RBox_U16.cs", "RBox_U32.cs", "RBox_U64.cs", "RBox_I8.cs", "RBox_I16.cs", "RBox_I32.cs", "RBox_I64.cs", "RBox_Bool.cs",
   "RBox_F32.cs", "RBox_F64.cs"]

/-- Specification: where they go. -/
def genDir (client : Path) : Path := client ++ ["cs", "src", "generated", "wrapped"]
/-- Specification: where the boxes go. -/
def rboxDir (rsharp : Path) : Path := rsharp ++ ["cs", "src", "generated"]

theorem genNames_eq : genNames = (wrappedGroups.flatMap Group.classes).map (· ++ ".cs") := by decide
theorem rboxNames_eq : rboxNames = (rboxTypes.map ("RBox_" ++ ·)).map (· ++ ".cs") := by decide
theorem classes_nodup : (wrappedGroups.flatMap Group.classes).Nodup := by decide

theorem tplGroups_classes {fs : Fs} {ps : Parses} {m : Path} : ∀ {l : List Group} {gs : List (List String × List String)}, TplGroups fs ps m l gs →
    gs.flatMap Prod.snd = l.flatMap Group.classes
  | [], [], _ => rfl
  | [], _ :: _, h => h.elim
  | _ :: _, [], h => h.elim
  | g :: l, x :: xs, h => by
    simp only [List.flatMap_cons]
    rw [h.2.1, tplGroups_classes h.2.2]

theorem tplGroups_mem {fs : Fs} {ps : Parses} {m : Path} : ∀ {l : List Group} {gs : List (List String × List String)}, TplGroups fs ps m l gs →
    ∀ g ∈ l, ∃ x ∈ gs, Tpls fs ps [m ++ ["opaque_template.cs.tpl"], m ++ [g.tpl]] x.1 ∧ x.2 = g.classes
  | [], [], _ => by simp
  | [], _ :: _, h => h.elim
  | _ :: _, [], h => h.elim
  | g :: l, x :: xs, h => by
    intro g' hg
    rcases List.mem_cons.1 hg with rfl | hg
    · exact ⟨x, by simp, h.1, h.2.1⟩
    · obtain ⟨y, hy, e⟩ := tplGroups_mem h.2.2 g' hg
      exact ⟨y, by simp [hy], e⟩

theorem gen_ne (client : Path) : wrappedOut client ≠ [] := by simp [wrappedOut]
theorem gen_tpl (client : Path) (f : String) : ¬ ((client ++ ["codegen_wrapped"]) ++ [f]) <+: wrappedOut client := by
  simp only [wrappedOut, List.append_assoc, List.cons_append, List.nil_append]
  intro h
  rw [List.prefix_append_right_inj] at h
  obtain ⟨t, ht⟩ := h
  simp at ht

theorem rbox_ne (rsharp : Path) : rboxOut rsharp ≠ [] := by simp [rboxOut]
theorem rbox_tpl (rsharp : Path) : ¬ (rsharp ++ ["codegen", "rbox.cs.tpl"]) <+: rboxOut rsharp := by
  simp only [rboxOut]
  intro h
  rw [List.prefix_append_right_inj] at h
  obtain ⟨t, ht⟩ := h
  simp at ht

/-- The output directory exists and has something in it, or is no directory at all. -/
theorem not_open {fs : Fs} {out : Path} (h : (∃ n, fs.get (out ++ [n]) ≠ none) ∧ fs.get out = some .dir ∨ ∃ c, fs.get out = some (.file c)) :
    ¬ Open fs out false := by
  rintro (h1 | h1 | ⟨h1, h2⟩)
  · cases h1
  · rcases h with ⟨_, h⟩ | ⟨c, h⟩ <;> rw [h] at h1 <;> cases h1
  · rcases h with ⟨⟨n, hn⟩, _⟩ | ⟨c, h⟩
    · exact hn (h2 n)
    · rw [h] at h1; cases h1

/-- **C84.** Without `-f`, `codegen_wrapped` reports an error and touches nothing if there is anything in the output directory. -/
theorem C84_wrapped_refuses (o : Oracle) (ps : Parses) (r : Render) (client : Path) (d : Disk)
    (h : (∃ n, d.fs.get (genDir client ++ [n]) ≠ none) ∧ d.fs.get (genDir client) = some .dir ∨ ∃ c, d.fs.get (genDir client) = some (.file c)) :
    (wrappedMain o ps r client false d).1 = d ∧ ∃ m, (wrappedMain o ps r client false d).2 = .err m := by
  obtain ⟨_, _, _, k4, _⟩ := newAll_spec o ps (wrappedOut client) (client ++ ["codegen_wrapped"]) false (gen_ne client) (gen_tpl client) wrappedGroups d
  obtain ⟨e1, m, e2⟩ := k4 (by simp [wrappedGroups]) (not_open h)
  unfold wrappedMain
  cases hn : newAll o ps (wrappedOut client) (client ++ ["codegen_wrapped"]) false d wrappedGroups with
  | mk d1 r1 =>
    rw [hn] at e1 e2
    simp only at e1 e2
    subst e1; subst e2
    exact ⟨rfl, m, rfl⟩

/-- **C84.** The same for the `RBox` generator. -/
theorem C84_rbox_refuses (o : Oracle) (ps : Parses) (r : Render) (rsharp : Path) (d : Disk)
    (h : (∃ n, d.fs.get (rboxDir rsharp ++ [n]) ≠ none) ∧ d.fs.get (rboxDir rsharp) = some .dir ∨ ∃ c, d.fs.get (rboxDir rsharp) = some (.file c)) :
    (rboxMain o ps r rsharp false d).1 = d ∧ ∃ m, (rboxMain o ps r rsharp false d).2 = .err m := by
  obtain ⟨_, _, _, k4, _⟩ := new_spec o ps (rboxOut rsharp) [rsharp ++ ["codegen", "rbox.cs.tpl"], rsharp ++ ["codegen", "rbox.cs.tpl"]] false d
    (rbox_ne rsharp) (by intro p hp; simp only [List.mem_cons, List.not_mem_nil, or_false, or_self] at hp; subst hp; exact rbox_tpl rsharp)
  obtain ⟨e1, m, e2⟩ := k4 (not_open h)
  unfold rboxMain
  simp only
  cases hn : new o ps (rboxOut rsharp) [rsharp ++ ["codegen", "rbox.cs.tpl"], rsharp ++ ["codegen", "rbox.cs.tpl"]] false d with
  | mk d1 r1 =>
    rw [hn] at e1 e2
    simp only at e1 e2
    subst e1; subst e2
    exact ⟨rfl, m, rfl⟩

/-- The changes of a whole run. -/
theorem wrapped_changes (o : Oracle) (ps : Parses) (r : Render) (client : Path) (force : Bool) (d : Disk) :
    Changes (wrappedOut client) (wrappedGroups.flatMap Group.classes) d.fs (wrappedMain o ps r client force d).1.fs := by
  obtain ⟨k1, k2, k3, _⟩ := newAll_spec o ps (wrappedOut client) (client ++ ["codegen_wrapped"]) force (gen_ne client) (gen_tpl client) wrappedGroups d
  unfold wrappedMain
  cases hn : newAll o ps (wrappedOut client) (client ++ ["codegen_wrapped"]) force d wrappedGroups with
  | mk d1 r1 =>
    rw [hn] at k1 k2 k3
    cases r1 with
    | err m => exact k1.mono (by simp)
    | panic m => exact absurd rfl (k3 m)
    | ok gs =>
      obtain ⟨g1, _⟩ := renderGroups_spec o r (wrappedOut client) gs d1
      rw [tplGroups_classes (k2 gs rfl).1] at g1
      exact (k1.mono (by simp)).trans g1

theorem rbox_changes (o : Oracle) (ps : Parses) (r : Render) (rsharp : Path) (force : Bool) (d : Disk) :
    Changes (rboxOut rsharp) (rboxTypes.map ("RBox_" ++ ·)) d.fs (rboxMain o ps r rsharp force d).1.fs := by
  obtain ⟨k1, k2, k3, _⟩ := new_spec o ps (rboxOut rsharp) [rsharp ++ ["codegen", "rbox.cs.tpl"], rsharp ++ ["codegen", "rbox.cs.tpl"]] force d
    (rbox_ne rsharp) (by intro p hp; simp only [List.mem_cons, List.not_mem_nil, or_false, or_self] at hp; subst hp; exact rbox_tpl rsharp)
  unfold rboxMain
  simp only
  cases hn : new o ps (rboxOut rsharp) [rsharp ++ ["codegen", "rbox.cs.tpl"], rsharp ++ ["codegen", "rbox.cs.tpl"]] force d with
  | mk d1 r1 =>
    rw [hn] at k1 k2 k3
    cases r1 with
    | err m => exact k1.mono (by simp)
    | panic m => exact absurd rfl (k3 m)
    | ok cs =>
      obtain ⟨g1, _⟩ := renderList_spec o r (rboxOut rsharp) cs (rboxTypes.map ("RBox_" ++ ·)) d1
      simp only
      cases hr : renderList o r (rboxOut rsharp) cs d1 (rboxTypes.map ("RBox_" ++ ·)) with
      | mk d2 r2 =>
        rw [hr] at g1
        cases r2 <;> exact (k1.mono (by simp)).trans g1

/-- **C84.** Whatever fails on the way, and with or without `-f`: `codegen_wrapped` changes nothing but the 56 files it
generates, and creates no directory but the missing ones on the way to them. -/
theorem C84_wrapped_frame (o : Oracle) (ps : Parses) (r : Render) (client : Path) (force : Bool) (d : Disk) (p : Path)
    (hp : ∀ n ∈ genNames, p ≠ genDir client ++ [n]) :
    (wrappedMain o ps r client force d).1.fs.get p = d.fs.get p ∨
    (p <+: genDir client ∧ d.fs.get p = none ∧ (wrappedMain o ps r client force d).1.fs.get p = some .dir) := by
  rcases wrapped_changes o ps r client force d p with e | ⟨c, hc, e⟩ | e
  · exact .inl e
  · exact absurd e (hp _ (by rw [genNames_eq]; exact List.mem_map_of_mem hc))
  · exact .inr e

/-- **C84.** The same for the `RBox` generator and its 11 files. -/
theorem C84_rbox_frame (o : Oracle) (ps : Parses) (r : Render) (rsharp : Path) (force : Bool) (d : Disk) (p : Path)
    (hp : ∀ n ∈ rboxNames, p ≠ rboxDir rsharp ++ [n]) :
    (rboxMain o ps r rsharp force d).1.fs.get p = d.fs.get p ∨
    (p <+: rboxDir rsharp ∧ d.fs.get p = none ∧ (rboxMain o ps r rsharp force d).1.fs.get p = some .dir) := by
  rcases rbox_changes o ps r rsharp force d p with e | ⟨c, hc, e⟩ | e
  · exact .inl e
  · exact absurd e (hp _ (by rw [rboxNames_eq]; exact List.mem_map_of_mem hc))
  · exact .inr e

/-- **C84.** How failures show: `codegen_wrapped` always returns, with success or an error; the `RBox` generator returns an error only if
it has not touched any of its files, and panics on every failure after that. -/
theorem C84_failures (o : Oracle) (ps : Parses) (r : Render) (base : Path) (force : Bool) (d : Disk) :
    (∀ m : String, (wrappedMain o ps r base force d).2 ≠ .panic m) ∧
    (∀ m : String, (rboxMain o ps r base force d).2 = .err m → ∀ n ∈ rboxNames,
      (rboxMain o ps r base force d).1.fs.get (rboxDir base ++ [n]) = d.fs.get (rboxDir base ++ [n])) := by
  constructor
  · intro m
    obtain ⟨_, _, k3, _⟩ := newAll_spec o ps (wrappedOut base) (base ++ ["codegen_wrapped"]) force (gen_ne base) (gen_tpl base) wrappedGroups d
    unfold wrappedMain
    cases hn : newAll o ps (wrappedOut base) (base ++ ["codegen_wrapped"]) force d wrappedGroups with
    | mk d1 r1 =>
      rw [hn] at k3
      cases r1 with
      | err m' => simp
      | panic m' => exact absurd rfl (k3 m')
      | ok gs => exact (renderGroups_spec o r (wrappedOut base) gs d1).2.2.1 m
  · intro m he n _
    obtain ⟨k1, _, k3, _⟩ := new_spec o ps (rboxOut base) [base ++ ["codegen", "rbox.cs.tpl"], base ++ ["codegen", "rbox.cs.tpl"]] force d
      (rbox_ne base) (by intro p hp; simp only [List.mem_cons, List.not_mem_nil, or_false, or_self] at hp; subst hp; exact rbox_tpl base)
    unfold rboxMain at he ⊢
    simp only at he ⊢
    cases hn : new o ps (rboxOut base) [base ++ ["codegen", "rbox.cs.tpl"], base ++ ["codegen", "rbox.cs.tpl"]] force d with
    | mk d1 r1 =>
      rw [hn] at k1 k3 he
      cases r1 with
      | panic m' => exact absurd rfl (k3 m')
      | err m' => exact child_same k1 n
      | ok cs =>
        simp only at he
        cases hr : renderList o r (rboxOut base) cs d1 (rboxTypes.map ("RBox_" ++ ·)) with
        | mk d2 r2 =>
          rw [hr] at he
          cases r2 <;> simp at he

/-- **C84.** If `codegen_wrapped` reports success, every one of the files is there and is what its two templates render to; none
of them is cut off. -/
theorem C84_wrapped_complete (o : Oracle) (ps : Parses) (r : Render) (client : Path) (force : Bool) (d : Disk)
    (h : (wrappedMain o ps r client force d).2 = .ok ()) (k : String × String) (hk : k ∈ genKinds) (t : String) (ht : t ∈ genTypes) :
    ∃ main part, d.fs.get (client ++ ["codegen_wrapped", "opaque_template.cs.tpl"]) = some (.file main) ∧
      d.fs.get (client ++ ["codegen_wrapped", k.2]) = some (.file part) ∧ (r [main, part] (k.1 ++ t)).2 = true ∧
      (wrappedMain o ps r client force d).1.fs.get (genDir client ++ [k.1 ++ t ++ ".cs"]) = some (.file (r [main, part] (k.1 ++ t)).1) := by
  obtain ⟨k1, k2, k3, _⟩ := newAll_spec o ps (wrappedOut client) (client ++ ["codegen_wrapped"]) force (gen_ne client) (gen_tpl client) wrappedGroups d
  unfold wrappedMain at h ⊢
  cases hn : newAll o ps (wrappedOut client) (client ++ ["codegen_wrapped"]) force d wrappedGroups with
  | mk d1 r1 =>
    rw [hn] at k1 k2 k3 h
    cases r1 with
    | err m => cases h
    | panic m => cases h
    | ok gs =>
      obtain ⟨j1, _⟩ := k2 gs rfl
      obtain ⟨_, g2, _⟩ := renderGroups_spec o r (wrappedOut client) gs d1
      simp only at h ⊢
      have hg : (⟨k.2, mangledNames.map (k.1 ++ ·)⟩ : Group) ∈ wrappedGroups := by
        simp only [genKinds, List.mem_cons, List.not_mem_nil, or_false] at hk
        rcases hk with rfl | rfl | rfl | rfl <;> simp [wrappedGroups]
      obtain ⟨x, hx, h1, h2⟩ := tplGroups_mem j1 _ hg
      obtain ⟨e1, e2⟩ := g2 h (by rw [tplGroups_classes j1]; exact classes_nodup) x hx (k.1 ++ t) (by
        rw [h2]; exact List.mem_map_of_mem ht)
      obtain ⟨xt, xc⟩ := x
      simp only at h1 e1 e2
      match xt, h1 with
      | [a, b], h1 =>
        obtain ⟨t1, _, t2, _, _⟩ := h1
        refine ⟨a, b, ?_, ?_, e2, e1⟩
        · rw [← t1]; simp
        · rw [← t2]; simp

/-- **C84.** The same for the `RBox` generator. -/
theorem C84_rbox_complete (o : Oracle) (ps : Parses) (r : Render) (rsharp : Path) (force : Bool) (d : Disk)
    (h : (rboxMain o ps r rsharp force d).2 = .ok ()) (t : String) (ht : "RBox_" ++ t ++ ".cs" ∈ rboxNames) :
    ∃ tpl, d.fs.get (rsharp ++ ["codegen", "rbox.cs.tpl"]) = some (.file tpl) ∧ (r [tpl, tpl] ("RBox_" ++ t)).2 = true ∧
      (rboxMain o ps r rsharp force d).1.fs.get (rboxDir rsharp ++ ["RBox_" ++ t ++ ".cs"]) = some (.file (r [tpl, tpl] ("RBox_" ++ t)).1) := by
  obtain ⟨k1, k2, k3, _⟩ := new_spec o ps (rboxOut rsharp) [rsharp ++ ["codegen", "rbox.cs.tpl"], rsharp ++ ["codegen", "rbox.cs.tpl"]] force d
    (rbox_ne rsharp) (by intro p hp; simp only [List.mem_cons, List.not_mem_nil, or_false, or_self] at hp; subst hp; exact rbox_tpl rsharp)
  have ht' : "RBox_" ++ t ∈ rboxTypes.map ("RBox_" ++ ·) := by
    rw [rboxNames_eq] at ht
    obtain ⟨c, hc, e⟩ := List.mem_map.1 ht
    rw [← ident_inj e]; exact hc
  unfold rboxMain at h ⊢
  simp only at h ⊢
  cases hn : new o ps (rboxOut rsharp) [rsharp ++ ["codegen", "rbox.cs.tpl"], rsharp ++ ["codegen", "rbox.cs.tpl"]] force d with
  | mk d1 r1 =>
    rw [hn] at k1 k2 k3 h
    cases r1 with
    | err m => cases h
    | panic m => cases h
    | ok cs =>
      obtain ⟨_, h1, _⟩ := k2 cs rfl
      obtain ⟨_, g2, _⟩ := renderList_spec o r (rboxOut rsharp) cs (rboxTypes.map ("RBox_" ++ ·)) d1
      simp only at h ⊢
      cases hr : renderList o r (rboxOut rsharp) cs d1 (rboxTypes.map ("RBox_" ++ ·)) with
      | mk d2 r2 =>
        rw [hr] at g2 h
        cases r2 with
        | err m => cases h
        | panic m => cases h
        | ok u =>
          obtain ⟨e1, e2⟩ := g2 rfl _ ht'
          match cs, h1 with
          | [a, b], h1 =>
            obtain ⟨t1, _, t2, _, _⟩ := h1
            rw [t1] at t2
            simp only [Option.some.injEq, Entry.file.injEq] at t2
            subst t2
            exact ⟨a, t1, e2, e1⟩

/-- **C84.** Without `-f`, a successful run leaves exactly the 56 files in the output directory. -/
theorem C84_wrapped_exact (o : Oracle) (ps : Parses) (r : Render) (client : Path) (d : Disk) (hs : Fs.Sane d.fs (genDir client))
    (h : (wrappedMain o ps r client false d).2 = .ok ()) (n : String) :
    (wrappedMain o ps r client false d).1.fs.get (genDir client ++ [n]) ≠ none ↔ n ∈ genNames := by
  constructor
  · intro hn
    apply Classical.byContradiction
    intro hno
    have hfree : d.fs.get (genDir client ++ [n]) = none := by
      obtain ⟨_, k2, _⟩ := newAll_spec o ps (wrappedOut client) (client ++ ["codegen_wrapped"]) false (gen_ne client) (gen_tpl client) wrappedGroups d
      unfold wrappedMain at h
      cases hn : newAll o ps (wrappedOut client) (client ++ ["codegen_wrapped"]) false d wrappedGroups with
      | mk d1 r1 =>
        rw [hn] at h k2
        cases r1 with
        | err m => cases h
        | panic m => cases h
        | ok gs =>
          rcases ((k2 gs rfl).2 (by simp [wrappedGroups])).1 with e | e | ⟨_, e⟩
          · cases e
          · exact hs e n
          · exact e n
    rcases C84_wrapped_frame o ps r client false d (genDir client ++ [n]) (fun n' hn' e => hno (by
      have : n = n' := by simpa using e
      rw [this]; exact hn')) with e | ⟨e, _⟩
    · exact hn (e.trans hfree)
    · exact not_prefix_child _ _ e
  · intro hn
    obtain ⟨k, hk, t, ht, rfl⟩ : ∃ k ∈ genKinds, ∃ t ∈ genTypes, k.1 ++ t ++ ".cs" = n := by
      simp only [genNames, List.mem_flatMap, List.mem_map] at hn
      obtain ⟨k, hk, t, ht, e⟩ := hn
      exact ⟨k, hk, t, ht, e⟩
    obtain ⟨_, _, _, _, _, e⟩ := C84_wrapped_complete o ps r client false d h k hk t ht
    rw [e]; simp

/-- **C84.** If nothing fails and the templates are in order, `codegen_wrapped` succeeds in an empty or missing output directory, and
with `-f` in any; so a run that was interrupted can be repeated with `-f`. -/
theorem C84_wrapped_succeeds (ps : Parses) (r : Render) (client : Path) (force : Bool) (d : Disk) (hs : Fs.Sane d.fs (genDir client))
    (hf : force = true ∨ ∀ n, d.fs.get (genDir client ++ [n]) = none)
    (hdirs : ∀ p, p <+: genDir client → ∀ c, d.fs.get p ≠ some (.file c))
    (hfiles : ∀ n ∈ genNames, d.fs.get (genDir client ++ [n]) ≠ some .dir)
    (main : String) (part : String → String) (hmain : d.fs.get (client ++ ["codegen_wrapped", "opaque_template.cs.tpl"]) = some (.file main))
    (hpm : ps main = true)
    (hpart : ∀ k ∈ genKinds, d.fs.get (client ++ ["codegen_wrapped", k.2]) = some (.file (part k.2)) ∧ ps (part k.2) = true)
    (hr : ∀ k ∈ genKinds, ∀ t ∈ genTypes, (r [main, part k.2] (k.1 ++ t)).2 = true) :
    (wrappedMain (fun _ => none) ps r client force d).2 = .ok () := by
  obtain ⟨k1, k2, _, _, k5⟩ := newAll_spec (fun _ => none) ps (wrappedOut client) (client ++ ["codegen_wrapped"]) force (gen_ne client) (gen_tpl client)
    wrappedGroups d
  have hopen : Open d.fs (wrappedOut client) force := by
    rcases hf with h | h
    · exact .inl h
    · cases hg : d.fs.get (wrappedOut client) with
      | none => exact .inr (.inl hg)
      | some e => cases e with
        | dir => exact .inr (.inr ⟨hg, h⟩)
        | file c => exact absurd hg (hdirs _ (List.prefix_refl _) c)
  have ht : TplGroups d.fs ps (client ++ ["codegen_wrapped"]) wrappedGroups (wrappedGroups.map fun g => ([main, part g.tpl], g.classes)) := by
    have hm : d.fs.get ((client ++ ["codegen_wrapped"]) ++ ["opaque_template.cs.tpl"]) = some (.file main) := by rw [← hmain]; simp
    have hp : ∀ k ∈ genKinds, Tpls d.fs ps [(client ++ ["codegen_wrapped"]) ++ ["opaque_template.cs.tpl"], (client ++ ["codegen_wrapped"]) ++ [k.2]]
        [main, part k.2] := by
      intro k hk
      refine ⟨hm, hpm, ?_, (hpart k hk).2, trivial⟩
      rw [← (hpart k hk).1]; simp
    exact ⟨hp ("Keyframe_", "keyframe.cs.tpl") (by simp [genKinds]), rfl, hp ("State_", "state.cs.tpl") (by simp [genKinds]), rfl,
      hp ("StateId_", "state_id.cs.tpl") (by simp [genKinds]), rfl, hp ("StateHandle_", "state_handle.cs.tpl") (by simp [genKinds]), rfl, trivial⟩
  have e1 := k5 rfl hopen hs hdirs _ ht
  unfold wrappedMain
  cases hn : newAll (fun _ => none) ps (wrappedOut client) (client ++ ["codegen_wrapped"]) force d wrappedGroups with
  | mk d1 r1 =>
    rw [hn] at e1 k1 k2
    simp only at e1
    subst e1
    obtain ⟨_, _, _, g4⟩ := renderGroups_spec (fun _ => none) r (wrappedOut client) (wrappedGroups.map fun g => ([main, part g.tpl], g.classes)) d1
    simp only
    have hall : ∀ g ∈ wrappedGroups, ∃ k ∈ genKinds, g = ⟨k.2, genTypes.map (k.1 ++ ·)⟩ := by
      intro g hg
      simp only [wrappedGroups, List.mem_cons, List.not_mem_nil, or_false] at hg
      rcases hg with rfl | rfl | rfl | rfl
      · exact ⟨("Keyframe_", "keyframe.cs.tpl"), by simp [genKinds], rfl⟩
      · exact ⟨("State_", "state.cs.tpl"), by simp [genKinds], rfl⟩
      · exact ⟨("StateId_", "state_id.cs.tpl"), by simp [genKinds], rfl⟩
      · exact ⟨("StateHandle_", "state_handle.cs.tpl"), by simp [genKinds], rfl⟩
    refine g4 rfl ((k2 _ rfl).2 (by simp [wrappedGroups])).2 ?_ ?_
    · intro x hx c hc
      obtain ⟨g, hg, rfl⟩ := List.mem_map.1 hx
      rw [child_same k1]
      refine hfiles _ ?_
      rw [genNames_eq]
      exact List.mem_map_of_mem (List.mem_flatMap.2 ⟨g, hg, hc⟩)
    · intro x hx c hc
      obtain ⟨g, hg, rfl⟩ := List.mem_map.1 hx
      obtain ⟨k, hk, rfl⟩ := hall g hg
      obtain ⟨t, ht, rfl⟩ := List.mem_map.1 hc
      exact hr k hk t ht

/-! Concrete cases. -/

/-- A checkout with its templates. -/
def genDisk : Disk := ⟨⟨[(["client"], .dir), (["client", "codegen_wrapped"], .dir),
  (["client", "codegen_wrapped", "opaque_template.cs.tpl"], .file "M"), (["client", "codegen_wrapped", "keyframe.cs.tpl"], .file "K"),
  (["client", "codegen_wrapped", "state.cs.tpl"], .file "S"), (["client", "codegen_wrapped", "state_id.cs.tpl"], .file "I"),
  (["client", "codegen_wrapped", "state_handle.cs.tpl"], .file "H")]⟩, 0⟩

/-- Templates that render to their contents and the name of the class. -/
def genRender : Render := fun ts c => (String.join ts ++ c, true)

/-- A run in a fresh checkout, and a second one, without and with `-f`. -/
example : (wrappedMain (fun _ => none) (fun _ => true) genRender ["client"] false genDisk).2 = .ok () := by decide +kernel
example : (wrappedMain (fun _ => none) (fun _ => true) genRender ["client"] false genDisk).1.fs.get
    ["client", "cs", "src", "generated", "wrapped", "StateId_F32.cs"] = some (.file "MIStateId_F32") := by decide +kernel
example : (wrappedMain (fun _ => none) (fun _ => true) genRender ["client"] false
    (wrappedMain (fun _ => none) (fun _ => true) genRender ["client"] false genDisk).1).2 = .err "`output_dir` is not empty!" := by decide +kernel
example : (wrappedMain (fun _ => none) (fun _ => true) genRender ["client"] true
    (wrappedMain (fun _ => none) (fun _ => true) genRender ["client"] false genDisk).1).2 = .ok () := by decide +kernel
example : Fs.Sane genDisk.fs (genDir ["client"]) := by
  intro _ n
  simp [genDisk, genDir, Fs.get]

/-- The disk fills up in the middle of the first file: the run fails and leaves half of it; so does every further run without `-f`. -/
example : (wrappedMain (fun k => if k < 13 then none else some 3) (fun _ => true) genRender ["client"] false genDisk).2 = .err "io" := by decide +kernel
example : (wrappedMain (fun k => if k < 13 then none else some 3) (fun _ => true) genRender ["client"] false genDisk).1.fs.get
    (genDir ["client"] ++ ["Keyframe_U8.cs"]) = some (.file "MKK") := by decide +kernel

/-- The boxes. -/
def rboxDisk : Disk := ⟨⟨[(["rsharp"], .dir), (["rsharp", "codegen"], .dir), (["rsharp", "codegen", "rbox.cs.tpl"], .file "T")]⟩, 0⟩
example : (rboxMain (fun _ => none) (fun _ => true) genRender ["rsharp"] false rboxDisk).2 = .ok () := by decide +kernel
example : (rboxMain (fun _ => none) (fun _ => true) genRender ["rsharp"] false
    ⟨rboxDisk.fs.set (rboxDir ["rsharp"]) .dir |>.set (rboxDir ["rsharp"] ++ ["Mine.cs"]) (.file "x"), 0⟩).2 = .err "`output_dir` is not empty!" := by
  decide +kernel

end Verif.Props
