import Verif.Proofs.BuildScript
/-!
# C117–C119: the build script

client/build_mac_host.sh, with a failure or an interruption at any command of any run.
-/
namespace Verif.Props
open Verif.Build

/-! ## C117 -/

/-- Nothing goes wrong. -/
def smooth : Nat → Fate := fun _ => .ok

/-- Claim C117: whatever runs were made before and wherever they stopped, a run in which nothing goes wrong completes. -/
def CanRunAgain : Prop :=
  ∀ (arm : Bool) (d : Disk), Reach arm d → ∀ (f : Flags) (src : Nat), (run arm f src smooth d).2 = true

theorem zip_fst {l : List Cmd} {w : Nat → Fate} : ((l.zipIdx.map fun e => (e.1, w e.2)).map Prod.fst) = l := by
  rw [List.map_map]
  exact List.zipIdx_map_fst 0 l

theorem zip_mem {l : List Cmd} {w : Nat → Fate} {e : Cmd × Fate} (h : e ∈ l.zipIdx.map fun e => (e.1, w e.2)) :
    e.1 ∈ l := by
  rw [← zip_fst (l := l) (w := w)]
  exact List.mem_map.2 ⟨e, h, rfl⟩

theorem zip_smooth (l : List Cmd) : (l.zipIdx.map fun e => (e.1, smooth e.2)) = l.map fun c => (c, Fate.ok) := by
  have : (fun e : Cmd × Nat => (e.1, smooth e.2)) = (fun c => (c, Fate.ok)) ∘ Prod.fst := rfl
  rw [this, ← List.map_map]
  congr 1
  exact List.zipIdx_map_fst 0 l

theorem script_tame (arm : Bool) (f : Flags) : ∀ c ∈ script arm f, c.tame = true := by
  rcases f with ⟨a, i, l, r, w⟩
  cases arm <;> cases a <;> cases i <;> cases l <;> cases r <;> cases w <;> decide

theorem script_plain (arm : Bool) (f : Flags) (hw : f.workaround = false) : ∀ c ∈ script arm f, c.plain = true := by
  rcases f with ⟨a, i, l, r, w⟩
  cases hw
  cases arm <;> cases a <;> cases i <;> cases l <;> cases r <;> decide

theorem script_can (arm : Bool) (f : Flags) (p : Proj) (h : f.workaround = true → p = .codegen) :
    can [] p (script arm f) = some p := by
  rcases f with ⟨a, i, l, r, w⟩
  cases w with
  | false => cases p <;> cases arm <;> cases a <;> cases i <;> cases l <;> cases r <;> decide
  | true =>
    cases h rfl
    cases arm <;> cases a <;> cases i <;> cases l <;> cases r <;> decide

/-- With `-w` the script begins with commands that leave the project file alone, up to its renaming. -/
theorem script_renames (arm : Bool) (f : Flags) (hw : f.workaround = true) : ∃ pre post : List Cmd,
    script arm f = pre ++ .mv (.proj .codegen) (.proj .codegen60) :: post ∧ ∀ c ∈ pre, c.plain = true := by
  rcases f with ⟨a, i, l, r, w⟩
  cases hw
  refine ⟨(script arm ⟨a, i, l, r, true⟩).takeWhile Cmd.plain, ((script arm ⟨a, i, l, r, true⟩).dropWhile Cmd.plain).tail, ?_, ?_⟩
  · cases arm <;> cases a <;> cases i <;> cases l <;> cases r <;> rfl
  · cases arm <;> cases a <;> cases i <;> cases l <;> cases r <;> decide

/-- Without its own name the project file keeps the name it has, whatever happens. -/
theorem stuck_name {arm : Bool} {f : Flags} {src : Nat} {w : Nat → Fate} {d : Disk} {p : Proj} (hn : Named d p)
    (hp : p ≠ .codegen) :
    Named (run arm f src w d).1 p ∧ (f.workaround = true → (run arm f src w d).2 = false) := by
  unfold run
  by_cases hw : f.workaround = true
  · obtain ⟨pre, post, e, hpre⟩ := script_renames arm f hw
    rw [e, List.zipIdx_append, List.map_append, exec_append]
    have h1 : ∀ q : Proj, (exec src d (pre.zipIdx.map fun e => (e.1, w e.2))).1 (.proj q) = d (.proj q) :=
      plain_run fun e he => hpre _ (zip_mem he)
    split
    · have hx : ∀ (w' : Fate) (d' : Disk), d' (.proj .codegen) = none →
          (Cmd.mv (.proj .codegen) (.proj .codegen60)).exec src w' d' = (d', false) := by
        intro w' d' hd
        simp [Cmd.exec, Cmd.effect, hd]
      simp only [List.zipIdx_cons, List.map_cons, exec]
      rw [hx _ _ (by rw [h1]; exact hn.none (Ne.symm hp))]
      exact ⟨fun q => by rw [h1]; exact hn q, fun _ => rfl⟩
    · rename_i hno
      exact ⟨fun q => by rw [h1]; exact hn q, fun _ => by simpa using hno⟩
  · have hw : f.workaround = false := by simpa using hw
    refine ⟨fun q => ?_, fun h => by rw [hw] at h; cases h⟩
    rw [plain_run fun e he => script_plain arm f hw _ (zip_mem he)]
    exact hn q

/-- **C117, partial.** In every state that runs of the script can leave, with any options, any sources and a failure or an
interruption at any command, there is exactly one project file.  If it has its own name, then a run in which nothing goes
wrong completes, whatever the options, and leaves it there.  If not, then a run in which nothing goes wrong completes exactly
without `-w`; and no run whatsoever, successful or not, gives the file its name back. -/
theorem C117_run_again_partial {arm : Bool} {d : Disk} (h : Reach arm d) :
    ∃ p : Proj, (∀ q : Proj, (d (.proj q)).isSome = true ↔ q = p) ∧
      (p = .codegen → ∀ (f : Flags) (src : Nat), (run arm f src smooth d).2 = true ∧
        ∀ q : Proj, ((run arm f src smooth d).1 (.proj q)).isSome = true ↔ q = .codegen) ∧
      (p ≠ .codegen → ∀ (f : Flags) (src : Nat), ((run arm f src smooth d).2 = true ↔ f.workaround = false) ∧
        ∀ w : Nat → Fate, (f.workaround = true → (run arm f src w d).2 = false) ∧
          ∀ q : Proj, ((run arm f src w d).1 (.proj q)).isSome = true ↔ q = p) := by
  have hone : ∃ p, Named d p := by
    induction h with
    | fresh d hf =>
      refine ⟨.codegen, fun q => ?_⟩
      cases q
      · simp [hf.proj]
      · simp [hf.no60]
      · simp [hf.no61]
    | run d f src w _ ih => exact tame_run (fun e he => script_tame arm f _ (zip_mem he)) ih
  obtain ⟨p, hn⟩ := hone
  have hgo : ∀ (f : Flags) (src : Nat), (f.workaround = true → p = .codegen) →
      (run arm f src smooth d).2 = true ∧ Named (run arm f src smooth d).1 p := by
    intro f src hw
    unfold run
    rw [zip_smooth]
    exact can_run (script_can arm f p hw) (by simp) hn
  refine ⟨p, hn, ?_, ?_⟩
  · rintro rfl f src
    exact hgo f src fun _ => rfl
  · intro hp f src
    refine ⟨⟨fun hr => ?_, fun hw => (hgo f src fun h => by rw [hw] at h; cases h).1⟩, fun w => ?_⟩
    · cases hw : f.workaround with
      | false => rfl
      | true =>
        have := (stuck_name (arm := arm) (src := src) (w := smooth) hn hp).2 hw
        rw [hr] at this; cases this
    · exact ⟨(stuck_name hn hp).2, (stuck_name hn hp).1⟩

/-! A run with `-w` in which the binding generator fails. -/

def checkout : Disk := fun f => if f = .proj .codegen then some .other else none
def withW : Flags := ⟨false, false, false, false, true⟩

theorem checkout_fresh : Fresh checkout := ⟨rfl, rfl, rfl⟩

/-- Command 18, `dotnet run`, fails. -/
def generatorFails : Nat → Fate := fun k => if k = 18 then .before else .ok

theorem after_failure : Named (run true withW 1 generatorFails checkout).1 .codegen60 := by
  intro q
  cases q <;> decide

/-- **C117 is false of the code**: after the binding generator failed once under `-w`, the script with `-w` can never
complete again. -/
theorem C117_negation : ¬ CanRunAgain := by
  intro h
  have h1 := h true _ (.run _ withW 1 generatorFails (.fresh _ checkout_fresh)) withW 2
  have h2 := (stuck_name (arm := true) (f := withW) (src := 2) (w := smooth) after_failure (by decide)).2 rfl
  rw [h1] at h2; cases h2

/-- Before the failure it completes, with every combination of options. -/
example (f : Flags) : (run true f 1 smooth checkout).2 = true := by
  obtain ⟨p, hp, h1, h2⟩ := C117_run_again_partial (.fresh _ checkout_fresh : Reach true checkout)
  have : Proj.codegen = p := (hp .codegen).1 rfl
  exact (h1 this.symm f 1).1

/-! ## C118 -/

theorem script_fresh (arm : Bool) (f : Flags) : ∃ K, fresh [] (script arm f) = some K ∧
    File.lib (hostTriple arm) ∈ K ∧ File.root ∈ K ∧ File.managed false ∈ K ∧ (f.linux = true → File.lib .linux ∈ K) ∧
    (f.android = true → File.lib .android64 ∈ K ∧ File.lib .android32 ∈ K) ∧
    (f.ios = true → File.lib .ios ∈ K ∧ File.managed true ∈ K) := by
  rcases f with ⟨a, i, l, r, w⟩
  cases arm <;> cases a <;> cases i <;> cases l <;> cases r <;> cases w <;>
    exact ⟨_, rfl, by decide, by decide, by decide, by decide, by decide, by decide⟩

/-- **C118.** Whatever the options, the sources, the state before and the command at which the run fails or is interrupted:
each library is afterwards as it was before, or made from the current sources, or an empty file where there was none. -/
theorem C118_no_damage (arm : Bool) (f : Flags) (src : Nat) (w : Nat → Fate) (d : Disk) (x : File)
    (hx : ∀ p, x ≠ .proj p) :
    (run arm f src w d).1 x = d x ∨ (run arm f src w d).1 x = some (.made src) ∨
      (d x = none ∧ (run arm f src w d).1 x = some .empty) := by
  obtain ⟨K, hK, _⟩ := script_fresh arm f
  refine (fresh_run (src := src) (d := d) (by rw [zip_fst]; exact hK) (by simp)).1 x ?_
  cases x with
  | proj p => exact absurd rfl (hx p)
  | _ => rfl

/-- **C118.** If a run completes, then the libraries of the host and of all platforms asked for were made from the current
sources, and those of the other platforms are as they were (an empty file if there was none). -/
theorem C118_completed (arm : Bool) (f : Flags) (src : Nat) (w : Nat → Fate) (d : Disk)
    (hc : (run arm f src w d).2 = true) :
    let d' := (run arm f src w d).1
    d' (.lib (hostTriple arm)) = some (.made src) ∧ d' .root = some (.made src) ∧ d' (.managed false) = some (.made src) ∧
    (f.linux = true → d' (.lib .linux) = some (.made src)) ∧
    (f.android = true → d' (.lib .android64) = some (.made src) ∧ d' (.lib .android32) = some (.made src)) ∧
    (f.ios = true → d' (.lib .ios) = some (.made src) ∧ d' (.managed true) = some (.made src)) ∧
    ∀ t : Triple, t ≠ hostTriple arm → (t = .linux → f.linux = false) → (t = .android64 ∨ t = .android32 → f.android = false) →
      (t = .ios → f.ios = false) → (d (.lib t)).isSome = true → d' (.lib t) = d (.lib t) := by
  obtain ⟨K, hK, h1, h2, h3, h4, h5, h6⟩ := script_fresh arm f
  have hF := (fresh_run (src := src) (d := d) (by rw [zip_fst]; exact hK) (by simp)).2 hc
  refine ⟨hF _ h1, hF _ h2, hF _ h3, fun h => hF _ (h4 h), fun h => ⟨hF _ (h5 h).1, hF _ (h5 h).2⟩,
    fun h => ⟨hF _ (h6 h).1, hF _ (h6 h).2⟩, ?_⟩
  intro t ht hl ha hi hd
  refine unwritten_run (fun e he => ?_) hd
  have hm := zip_mem he
  revert hm
  generalize e.1 = c
  revert c
  rcases f with ⟨a, i, l, r, w⟩
  simp only at hl ha hi
  cases t with
  | macArm => cases arm <;> first | exact absurd rfl ht | (clear hK; cases a <;> cases i <;> cases l <;> cases r <;> cases w <;> decide)
  | macIntel => cases arm <;> first | exact absurd rfl ht | (clear hK; cases a <;> cases i <;> cases l <;> cases r <;> cases w <;> decide)
  | linux => cases hl rfl; clear hK; cases arm <;> cases a <;> cases i <;> cases r <;> cases w <;> decide
  | android64 => cases ha (.inl rfl); clear hK; cases arm <;> cases l <;> cases i <;> cases r <;> cases w <;> decide
  | android32 => cases ha (.inr rfl); clear hK; cases arm <;> cases l <;> cases i <;> cases r <;> cases w <;> decide
  | ios => cases hi rfl; clear hK; cases arm <;> cases l <;> cases a <;> cases r <;> cases w <;> decide

/-- A Linux library from older sources is kept by a completed run that does not ask for Linux. -/
example : (run true withW 2 smooth fun f => if f = .lib .linux then some (.made 1) else checkout f).2 = true ∧
    (run true withW 2 smooth fun f => if f = .lib .linux then some (.made 1) else checkout f).1 (.lib .linux) =
      some (.made 1) := by decide

/-! ## C119 -/

/-- Claim C119: after a run that completed, the five library files that the Unity project links to exist. -/
def LinksResolve : Prop :=
  ∀ (arm : Bool) (f : Flags) (src : Nat) (w : Nat → Fate) (d : Disk), (run arm f src w d).2 = true →
    ∀ t ∈ [Triple.macArm, .ios, .android64, .android32, .linux], ((run arm f src w d).1 (.lib t)).isSome = true

/-- **C119, partial.** They do if no `mkdir` in front of a `touch` failed. -/
theorem C119_links_partial (arm : Bool) (f : Flags) (src : Nat) (w : Nat → Fate) (d : Disk)
    (hdir : ∀ k, w k ≠ .dir) (hc : (run arm f src w d).2 = true) (t : Triple)
    (ht : t ∈ [Triple.macArm, .ios, .android64, .android32, .linux]) :
    ((run arm f src w d).1 (.lib t)).isSome = true := by
  obtain ⟨K, hK, _⟩ := script_fresh arm f
  refine placed_run (by rw [zip_fst, hK]; rfl) ?_ rfl hc
  have hm : Cmd.place (.lib t) ∈ script arm f := by
    simp only [List.mem_cons, List.not_mem_nil, or_false] at ht
    unfold script
    simp only [List.append_assoc]
    refine List.mem_append.2 (.inl ?_)
    rcases ht with rfl | rfl | rfl | rfl | rfl <;> simp
  obtain ⟨k, hk⟩ := List.getElem?_of_mem hm
  refine ⟨w k, List.mem_map.2 ⟨(_, k), ?_, rfl⟩, hdir k⟩
  exact List.mk_mem_zipIdx_iff_getElem?.2 hk

/-- Command 7, the placeholder for iOS, whose directory cannot be made. -/
def noDirectory : Nat → Fate := fun k => if k = 7 then .dir else .ok

/-- **C119 is false of the code**: the script ignores that a directory could not be made, reports success, and the link leads
nowhere. -/
theorem C119_negation : ¬ LinksResolve := by
  intro h
  have := h true withW 1 noDirectory checkout (by decide) .ios (by simp)
  revert this
  decide

/-- Nothing wrong, and all five are there. -/
example (t : Triple) (ht : t ∈ [Triple.macArm, .ios, .android64, .android32, .linux]) :
    ((run true withW 1 smooth checkout).1 (.lib t)).isSome = true :=
  C119_links_partial true withW 1 smooth checkout (by intro k h; cases h) (by decide) t ht

end Verif.Props
