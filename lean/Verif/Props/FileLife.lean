import Verif.Spec.FileLife
import Verif.Props.Genuine
import Verif.Props.Transparent
/-!
# C136: restarting from a file is transparent or an error
-/
namespace Verif.Props
open Verif Verif.Spec Verif.Fb

/-- A reader of a file as the second half of a cycle of its writer. -/
theorem load_is_run {c d : Cycle} {b : Baseline} {bytes file : Bytes} (h : c.save b = .ok bytes) (hl : bytes.length < 2 ^ 31) (hcut : CutTo bytes file)
    {x : List (ContractTy × Idx) × Baseline} (hx : d.load file = .ok x) :
    (Cycle.mk c.calls c.ordC c.ordO d.types d.kind d.sched d.ord d.hord).run b = .ok x := by
  have hs : Cycle.save ⟨c.calls, c.ordC, c.ordO, d.types, d.kind, d.sched, d.ord, d.hord⟩ b = .ok bytes := h
  have h1 := C127_files_are_faithful hs hl
  have h2 : d.load bytes = .ok x := by
    rcases C128_cut_files hcut d with e | e
    · rw [hx] at e; cases e
    · rw [← e, hx]
  rw [← h1]
  exact h2

/-- **C136.** Save all of a baseline to a file, and let any beginning of the file reach the disk before a crash.  Reading it back gives an error, or a
baseline that no program can tell from the one that was saved (with the variables that correspond).  It is no error if the whole file reached
the disk, and an error if at least four bytes are missing. -/
theorem C136_restart {kind : Kind} {evs : List Event} {b : Baseline} {cs : List (ContractTy × Idx)} (hS : Savable kind evs b cs) (hW : Whole b cs)
    (ht : 13 * fieldCount cs + textBytes b cs ≤ 2000000000) (c : Cycle) (hc : c.Fits cs) :
    ∃ bytes : Bytes, c.save b = .ok bytes ∧ ∀ (file : Bytes) (d : Cycle), CutTo bytes file → d.types.Perm (cs.map Prod.fst) → d.kind = b.kind →
      (d.load file = .err "Error while verifying flatbuffer" ∨
        ∃ (cs' : List (ContractTy × Idx)) (b' : Baseline), d.load file = .ok (cs', b') ∧ (∃ φ ψ : Idx → Idx, SameContents b cs b' cs' φ ψ) ∧
          ∀ φ ψ : Idx → Idx, SameContents b cs b' cs' φ ψ → ∀ env env' : Env, List.Forall₂ (StandsFor b cs b' φ ψ) env env' →
            Indistinguishable env b env' b') ∧
      (file = bytes → (d.load file).isOk = true) ∧
      (file.length + 4 ≤ bytes.length → d.load file = .err "Error while verifying flatbuffer") := by
  obtain ⟨bytes, h1, h2⟩ := C127_file_restores hS ht c hc
  have hl := small_file h1 hc hS.size ht
  refine ⟨bytes, h1, fun file d hcut hd hk => ⟨?_, ?_, fun hm => C128_missing_end h1 hl hcut hm d⟩⟩
  · rcases C128_cut_files hcut d with e | e
    · exact Or.inl e
    · refine Or.inr ?_
      obtain ⟨cs', b', φ, ψ, _, r1, r2, _⟩ := h2 d hd
      rw [← e] at r1
      have hr := load_is_run h1 hl hcut r1
      obtain ⟨cs2, b2, q1, _, q2⟩ := C111_transparent hS hW ⟨c.calls, c.ordC, c.ordO, d.types, d.kind, d.sched, d.ord, d.hord⟩ ⟨hc.1, hd⟩ hk
      rw [hr] at q1
      injection q1 with q1
      injection q1 with q3 q4
      subst q3 q4
      exact ⟨cs', b', r1, ⟨φ, ψ, r2⟩, q2⟩
  · rintro rfl
    obtain ⟨cs', b', _, _, _, r1, _⟩ := h2 d hd
    rw [r1]
    rfl

theorem life_of_fileLife {env : Env} {b : Baseline} {is : List Instr} {ss : List Seen} (h : FileLife env b is ss) : Life env b is ss := by
  induction h with
  | last env b is ords => exact .last env b is ords
  | restart env b is ords ss env1 b1 kind evs cs c d bytes file cs' b1' φ ψ env1' is' ss' e1 e2 e3 e4 e5 e6 e7 e8 e9 e10 e11 e12 _ ih =>
    exact .restart env b is ords ss env1 b1 kind evs cs ⟨c.calls, c.ordC, c.ordO, d.types, d.kind, d.sched, d.ord, d.hord⟩ cs' b1' φ ψ env1' is' ss'
      e1 e2 e3 ⟨e4.1, e8⟩ e9 (load_is_run e5 e6 e7 e10) e11 e12 ih

/-- **C136.** A program that is stopped and continued from a file any number of times, whenever its baseline can be saved and reading back is no error, sees
exactly what it would see without ever being stopped. -/
theorem C136_life (kind : Kind) (is : List Instr) (ss : List Seen) (h : FileLife [] (Baseline.new kind) is ss) (ords : Nat → HashOrder) :
    (runProg is ords [] (Baseline.new kind)).1 = ss :=
  C111_life kind is ss (life_of_fileLife h) ords

/-! The program that makes a tag is stopped after five calls, saved to the file of the tag, and goes on from it. -/

example : FileLife [] (Baseline.new .main) (tagProg ++ tagRest) (List.replicate 5 (.result (.ok ())) ++ tagSeen) := by
  obtain ⟨bytes, e0, hall⟩ := C136_restart tag_savable tag_whole (by decide +kernel) _ (mainCycle_fits _)
  obtain ⟨h1, h2, _⟩ := hall bytes (mainCycle [(tagC, h0)]) ⟨[], (List.append_nil _).symm⟩ (List.Perm.refl _) rfl
  rcases h1 with h1 | ⟨cs', b', e1, ⟨φ, ψ, hE⟩, e3⟩
  · have := h2 rfl
    rw [h1] at this
    cases this
  have hobj : h0 ∈ objectsOf tagB h0 := by decide +kernel
  have hm : (tagC, h0) ∈ [(tagC, h0)] := by simp
  obtain ⟨i, hi⟩ := C111_all_stand hE tagC h0 hm h0 hobj 0 ⟨"label", .prim .string⟩ rfl h0 (by decide +kernel)
  obtain ⟨j, hj⟩ := C111_all_stand hE tagC h0 hm h0 hobj 1 ⟨"of", .prim .contractDataHandle⟩ rfl h0 (by decide +kernel)
  have he : List.Forall₂ (StandsFor tagB [(tagC, h0)] b' φ ψ)
      [.inst tagC h0, .con h0, .obj h0, .state (.prim .string) h0, .state (.prim .contractDataHandle) h0]
      [.inst tagC (ψ h0), .con (ψ h0), .obj (φ h0), .state (.prim .string) i, .state (.prim .contractDataHandle) j] :=
    .cons (.inst tagC h0 hm) (.cons (.con tagC h0 hm) (.cons (.obj tagC h0 h0 hm hobj) (.cons hi (.cons hj .nil))))
  have hseen : (runProg tagRest (fun _ => .id) [.inst tagC (ψ h0), .con (ψ h0), .obj (φ h0), .state (.prim .string) i,
      .state (.prim .contractDataHandle) j] b').1 = tagSeen := by
    rw [← e3 φ ψ hE _ _ he tagRest (fun _ => .id) (fun _ => .id)]; rfl
  have hl := small_file e0 (mainCycle_fits _) tag_savable.size (by decide +kernel)
  rw [← hseen]
  exact .restart _ _ _ (fun _ => .id) _ _ _ _ _ _ _ (mainCycle [(tagC, h0)]) bytes bytes _ _ _ _ _ _ _ (by rfl) tag_savable tag_whole (mainCycle_fits _) e0 hl
    ⟨[], (List.append_nil _).symm⟩ (List.Perm.refl _) rfl e1 hE he (.last ..)

end Verif.Props
