import Verif.Props.Transparent
/-!
# C114: saving a part of a baseline

Saving some of the contracts is transparent to programs that use these contracts only.
-/
namespace Verif.Props
open Verif Spec Arena Baseline Store

/-- **C114.** Save some contracts of a baseline (contents that can be saved, referring to nothing else, no time warps on their objects
and no minus zeros in them) and restore them, keeping main or fork.  No program that goes on with the restored baseline, and kept variables of these contracts only, can
tell it from the original, as long as it does not register the id of a contract that was left out and does not count all objects. -/
theorem C114_part_transparent {kind : Kind} {evs : List Event} {b : Baseline} {cs : List (ContractTy × Idx)} (hS : Savable kind evs b cs)
    (hW : ∀ (C : ContractTy) (h o : Idx) (ob : ObjectD), (C, h) ∈ cs → o ∈ objectsOf b h → b.object o = .ok ob → ob.warp = TimeWarp.default)
    (hZ : NoMinusZero b cs) (c : Cycle) (hc : c.Fits cs) (hk : c.kind = b.kind) :
    ∃ (cs' : List (ContractTy × Idx)) (b' : Baseline), c.run b = .ok (cs', b') ∧ (∃ φ ψ : Idx → Idx, SameContents b cs b' cs' φ ψ) ∧
      ∀ φ ψ : Idx → Idx, SameContents b cs b' cs' φ ψ → ∀ env env' : Env, List.Forall₂ (StandsFor b cs b' φ ψ) env env' →
        IndistinguishableTo (OwnOrFree b cs) env b env' b' := by
  obtain ⟨cs', b', φ, ψ, evs', e1, e2, e3⟩ := C78_savable_again hS c hc
  refine ⟨cs', b', e1, ⟨φ, ψ, e2⟩, fun φ ψ hE env env' he is hreg hcnt ords ords' => ?_⟩
  have hk' : b.kind = b'.kind := by rw [history_kind e3.history, hk]
  exact (run_agree_on is hreg hcnt (restore_part hS hW hZ e3 hk' hE (C106_reset_partial e1)) (stands_rel he) ords ords').1

/-- The condition on ids is needed: registering a contract that was left out is an error in the original and succeeds in what is
restored. -/
theorem C114_left_out_shows {b : Baseline} {cs : List (ContractTy × Idx)} {b' : Baseline} {cs' : List (ContractTy × Idx)} {φ ψ : Idx → Idx}
    (hE : SameContents b cs b' cs' φ ψ) (C : ContractTy) (h : Idx) (cd : ContractData) (hr : b.contractData h = .ok cd) (hid : cd.id = C.id)
    (hout : ∀ (D : ContractTy) (k : Idx) (dd : ContractData), (D, k) ∈ cs → b.contractData k = .ok dd → dd.id ≠ C.id)
    (env env' : Env) (ords ords' : Nat → HashOrder) :
    (runProg [.register C] ords env b).1 = [.result (.err "contract already added")] ∧ (runProg [.register C] ords' env' b').1 = [.result (.ok ())] := by
  constructor
  · rcases registerContract_cases b C with ⟨_, e1⟩ | ⟨hno, _⟩
    · simp [runProg, Instr.step, e1, returned, Seen.isPanic, Outcome.isPanic]
    · exact absurd hid (hno h cd (contractData_ok.1 hr))
  · rcases registerContract_cases b' C with ⟨⟨h', cd', g, e⟩, _⟩ | ⟨_, e1⟩
    · obtain ⟨D, k, m, rfl⟩ := hE.conOnto h' cd' (contractData_ok.2 g)
      obtain ⟨dd, dd', g1, g2, g3, _⟩ := hE.contract D k m
      rw [contractData_ok.2 g] at g2; cases g2
      exact absurd (g3.symm.trans e) (hout D k dd m g1)
    · simp [runProg, Instr.step, e1, returned, Seen.isPanic, Outcome.isPanic]

/-! ## A concrete case: the tag of C111 and a number, of which only the tag is saved -/

def partOps : List BOp := tagOps ++ [.register numC, .create numC h1 [.primitive (.u8 7#8)] []]
def partB : Baseline := ((Baseline.new .main).runOps partOps).2
def partEvs : List Event := ((Baseline.new .main).runOps partOps).1
theorem part_history : History .main partEvs partB := runOps_trace _ _

theorem part_events : partEvs = [(.register tagC, .ok (some h0)),
    (.create tagC h0 [.primitive (.string "a"), .primitive (.contractDataHandle h0)] [], .ok (some h0)), (.register numC, .ok (some h1)),
    (.create numC h1 [.primitive (.u8 7#8)] [], .ok (some h1))] := by rfl

theorem part_savable : Savable .main partEvs partB [(tagC, h0)] := by
  have hcs : ∀ (C : ContractTy) (h : Idx), (C, h) ∈ [(tagC, h0)] → C = tagC ∧ h = h0 := by
    intro C h hm; simpa using hm
  have hobj : objectsOf partB h0 = [h0] := by decide +kernel
  refine ⟨part_history, ⟨?_, ?_, ?_, ?_, by decide⟩, ⟨?_, ?_⟩, by decide, by decide, .of_none (by decide), by decide +kernel⟩
  · intro C h hm
    obtain ⟨rfl, rfl⟩ := hcs C h hm
    exact ⟨⟨tagC.id, [h0]⟩, by decide +kernel, rfl⟩
  · rintro C C' h o hm ⟨ss, cs, hc⟩
    obtain ⟨rfl, rfl⟩ := hcs C h hm
    rw [part_events] at hc
    have hne : h0 ≠ h1 := by decide
    simp [hne] at hc; grind
  · intro C h o hm ho
    obtain ⟨rfl, rfl⟩ := hcs C h hm
    rw [hobj] at ho
    have : o = h0 := by simpa using ho
    subst this
    exact ⟨_, rfl⟩
  · intro C h f hm hf
    obtain ⟨rfl, rfl⟩ := hcs C h hm
    simp [tagC] at hf
    rcases hf with rfl | rfl <;> exact ⟨_, rfl⟩
  · intro C h o n f v hm _ hf ht
    obtain ⟨rfl, rfl⟩ := hcs C h hm
    have := List.mem_of_getElem? hf
    simp [tagC] at this
    rcases this with rfl | rfl <;> cases ht
  · intro C h o n f v hm ho hf ht hv
    obtain ⟨rfl, rfl⟩ := hcs C h hm
    rw [hobj] at ho
    have : o = h0 := by simpa using ho
    subst this
    match n, hf with
    | 0, hf => cases hf; cases ht
    | 1, hf =>
      obtain ⟨j, h1, h2⟩ := hv
      have : partB.bindState ⟨1, h0⟩ h0 = .ok h0 := by decide +kernel
      rw [this] at h1; cases h1
      have : partB.state (.prim .contractDataHandle) h0 = .ok h0 := by rfl
      rw [this] at h2; cases h2
      exact ⟨tagC, by simp⟩
    | n + 2, hf => simp [tagC] at hf

theorem part_warps (C : ContractTy) (h o : Idx) (ob : ObjectD) (_ : (C, h) ∈ [(tagC, h0)]) (_ : o ∈ objectsOf partB h) (ho : partB.object o = .ok ob) :
    ob.warp = TimeWarp.default := by
  have := mem_iter.2 (object_ok.1 ho)
  have hw : ∀ x ∈ partB.objects.iter, x.2.warp = TimeWarp.default := by decide +kernel
  exact hw _ this

/-- A program with the tag sees after the restart what it would have seen, although the number is gone. -/
example : ∃ (b' : Baseline) (h o i : Idx), (∃ cs', (mainCycle [(tagC, h0)]).run partB = .ok (cs', b')) ∧
    ∀ ords : Nat → HashOrder, (runProg [.readState 2, .writeState 2 ⟨.prim .string, "b"⟩, .readState 2, .describe 0, .register demoC] ords
      [.con h, .obj o, .state (.prim .string) i] b').1 =
      [.value (.prim .string) "a", .result (.ok ()), .value (.prim .string) "b", .contract tagC.id 1, .result (.ok ())] := by
  obtain ⟨cs', b', e1, ⟨φ, ψ, hE⟩, e3⟩ := C114_part_transparent part_savable part_warps (noMinusZero_of_types (by decide)) _ (mainCycle_fits _) (by rfl)
  have hobj : h0 ∈ objectsOf partB h0 := by decide +kernel
  have hm : (tagC, h0) ∈ [(tagC, h0)] := by simp
  obtain ⟨i, hi⟩ := C111_all_stand hE tagC h0 hm h0 hobj 0 ⟨"label", .prim .string⟩ rfl h0 (by decide +kernel)
  refine ⟨b', ψ h0, φ h0, i, ⟨cs', e1⟩, fun ords => ?_⟩
  rw [← e3 φ ψ hE [.con h0, .obj h0, .state (.prim .string) h0] _ (.cons (.con tagC h0 hm) (.cons (.obj tagC h0 h0 hm hobj) (.cons hi .nil))) _ ?_ ?_ (fun _ => .id) ords]
  · rfl
  · intro C hC
    simp at hC
    subst hC
    right
    intro h cd hc
    have := mem_iter.2 (contractData_ok.1 hc)
    have hw : ∀ x ∈ partB.contracts.iter, x.2.id ≠ demoC.id := by decide +kernel
    exact hw _ this
  · simp

end Verif.Props
