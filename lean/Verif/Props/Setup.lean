import Verif.Model.Setup
/-!
# C137: setting up cross-compilation again

cross_compilation/setup.sh, with a failure or an interruption at any command of any run.
-/
namespace Verif.Props
open Verif.Setup

namespace SetupAgain

/-- Nothing goes wrong. -/
def well : Nat → Fate := fun _ => .ok

/-- Claim C137: whatever runs were made before and wherever they stopped, a run in which nothing goes wrong completes, and makes the image from the
present version. -/
def SetupAgain : Prop :=
  ∀ d : Disk, Reach d → ∀ up : Nat, (run up well d).2 = true ∧ (run up well d).1.image = some (up, up)

/-- No clone, or an empty directory for it. -/
def Free (d : Disk) : Prop := d.cross = .absent ∨ d.cross = .empty

theorem run_free {d : Disk} (h : Free d) (up : Nat) (w : Nat → Fate) :
    let r := run up w d
    (r.2 = true ↔ ∀ k < 6, w k = .ok) ∧
    (Free r.1 ↔ (∃ k < 2, w k ≠ .ok) ∨ w 2 = .before) ∧
    (r.1.image = d.image ∨ r.1.image = some (up, up)) ∧ (r.2 = true → r.1.image = some (up, up)) := by
  have h6 : (∀ k < 6, w k = .ok) ↔ w 0 = .ok ∧ w 1 = .ok ∧ w 2 = .ok ∧ w 3 = .ok ∧ w 4 = .ok ∧ w 5 = .ok := by
    constructor
    · intro h; exact ⟨h 0 (by decide), h 1 (by decide), h 2 (by decide), h 3 (by decide), h 4 (by decide), h 5 (by decide)⟩
    · rintro ⟨h0, h1, h2, h3, h4, h5⟩ k hk
      match k, hk with
      | 0, _ => exact h0 | 1, _ => exact h1 | 2, _ => exact h2 | 3, _ => exact h3 | 4, _ => exact h4 | 5, _ => exact h5
      | k + 6, hk => omega
  have h2 : (∃ k < 2, w k ≠ .ok) ↔ w 0 ≠ .ok ∨ w 1 ≠ .ok := by
    constructor
    · rintro ⟨k, hk, h⟩
      match k, hk with
      | 0, _ => exact .inl h | 1, _ => exact .inr h
      | k + 2, hk => omega
    · rintro (h | h)
      · exact ⟨0, by decide, h⟩
      · exact ⟨1, by decide, h⟩
  unfold Free at h
  intro r
  rw [h6, h2]
  show _ ∧ _ ∧ _ ∧ _
  simp only [r, run, script, exec, Cmd.exec, Cmd.effect, Cmd.half, Free]
  cases w 0 <;> simp [h]
  cases w 1 <;> simp [h]
  cases w 2 <;> simp [h]
  cases w 3 <;> simp
  cases w 4 <;> simp
  cases w 5 <;> simp

theorem run_blocked {d : Disk} (h : ¬ Free d) (up : Nat) (w : Nat → Fate) :
    let r := run up w d
    r.2 = false ∧ r.1.cross = d.cross ∧ r.1.subs = d.subs ∧ r.1.image = d.image := by
  unfold Free at h
  intro r
  simp only [r, run, script, exec, Cmd.exec, Cmd.effect, Cmd.half]
  cases w 0 <;> simp
  cases w 1 <;> simp [h]

end SetupAgain
open SetupAgain

/-- **C137, partial.** In every state that runs can leave, with a failure or an interruption at any command and at any version, exactly one of two
things is so.  Either there is no clone in the build directory yet; then a run completes exactly if none of its six commands goes wrong, a completed
run has made the image from the present version, any other leaves the image as it was or made from the present version, and no clone is left exactly
if the run stopped before `git clone` put anything there.  Or there is one; then no run whatsoever completes, or changes the clone or the image.
Once the directory is removed by hand, a run in which nothing goes wrong completes. -/
theorem C137_setup_again_partial {d : Disk} (_ : Reach d) :
    ((Free d ∧ ∀ (up : Nat) (w : Nat → Fate), ((run up w d).2 = true ↔ ∀ k < 6, w k = .ok) ∧
        ((run up w d).2 = true → (run up w d).1.image = some (up, up)) ∧
        ((run up w d).1.image = d.image ∨ (run up w d).1.image = some (up, up)) ∧
        (Free (run up w d).1 ↔ (∃ k < 2, w k ≠ .ok) ∨ w 2 = .before)) ∨
      ¬ Free d ∧ ∀ (up : Nat) (w : Nat → Fate),
        (run up w d).2 = false ∧ (run up w d).1.cross = d.cross ∧ (run up w d).1.image = d.image) ∧
    ∀ up : Nat, (run up well { d with cross := .absent }).2 = true ∧
      (run up well { d with cross := .absent }).1.image = some (up, up) := by
  refine ⟨?_, fun up => ?_⟩
  · by_cases h : Free d
    · exact .inl ⟨h, fun up w => have := run_free h up w; ⟨this.1, this.2.2.2, this.2.2.1, this.2.1⟩⟩
    · exact .inr ⟨h, fun up w => have := run_blocked h up w; ⟨this.1, this.2.1, this.2.2.2⟩⟩
  · have h := run_free (d := { d with cross := .absent }) (.inl rfl) up well
    exact ⟨h.1.2 fun _ _ => rfl, h.2.2.2 (h.1.2 fun _ _ => rfl)⟩

/-- A checkout in which nothing was set up. -/
def SetupAgain.bare : Disk := ⟨false, .absent, none, none⟩

/-- **C137 is false of the code**: the second run fails, even if nothing goes wrong in either. -/
theorem C137_negation : ¬ SetupAgain := by
  intro h
  have := (h _ (.run bare 1 well (.fresh _ rfl)) 2).1
  revert this; decide

/-- The download of the submodules fails in the first run: no later one completes. -/
def SetupAgain.offline : Nat → Fate := fun k => if k = 4 then .before else .ok

example : Reach (run 1 offline bare).1 ∧ ¬ Free (run 1 offline bare).1 ∧ (run 2 well (run 1 offline bare).1).2 = false :=
  ⟨.run _ _ _ (.fresh _ rfl), by unfold Free; decide, by decide⟩
/-- The clone fails in the first run: the next one completes. -/
example : Free (run 1 (fun k => if k = 2 then .before else .ok) bare).1 ∧
    (run 2 well (run 1 (fun k => if k = 2 then .before else .ok) bare).1) = (⟨true, .clone 2, some 2, some (2, 2)⟩, true) :=
  ⟨by unfold Free; decide, by decide⟩

end Verif.Props
