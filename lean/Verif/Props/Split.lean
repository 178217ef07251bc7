import Verif.Proofs.Split
import Verif.Props.Part
import Verif.Props.Shared
/-!
# C115: splitting a baseline

Programs that share a baseline and use separate parts of it can each be given a baseline of their own, restored from a save of their part.
-/
namespace Verif.Props
open Verif Spec Arena Baseline Store

theorem restoreNames_apart {kind : Kind} {evs : List Event} {b : Baseline} {cs cs1 : List (ContractTy × Idx)} (hS : Savable kind evs b cs)
    (hS1 : Savable kind evs b cs1) (hd : ∀ (C D : ContractTy) (h : Idx), (C, h) ∈ cs → (D, h) ∉ cs1) (b' b1' : Baseline) (φ ψ φ1 ψ1 : Idx → Idx) :
    (restoreNames b cs b' φ ψ).flip.Disjoint (restoreNames b cs1 b1' φ1 ψ1).flip := by
  have hB := history_binv hS.history
  have hobj : ∀ (C D : ContractTy) (h k o : Idx), (C, h) ∈ cs → (D, k) ∈ cs1 → o ∈ objectsOf b h → o ∈ objectsOf b k → False := by
    intro C D h k o m m1 l l1
    obtain ⟨ob, hg, hc, _⟩ := savable_object hS m l
    obtain ⟨ob1, hg1, hc1, _⟩ := savable_object hS1 m1 l1
    rw [hg] at hg1; cases hg1
    exact hd C D h m (by rw [← hc, hc1]; exact m1)
  refine ⟨?_, ?_, ?_, ?_⟩
  · rintro C D i i' j ⟨m, _⟩ ⟨m1, _⟩; exact hd C D j m m1
  · rintro i i' j ⟨C, h, m, l, _⟩ ⟨D, k, m1, l1, _⟩; exact hobj C D h k j m m1 l l1
  · rintro t i i' j ⟨C, h, o, n, m, l, ht, g1, _⟩ ⟨D, k, o1, n1, m1, l1, ht1, g2, _⟩
    obtain ⟨rfl, _⟩ := hB.o.aliasS o o1 n n1 t j (savable_owns hS m l ht g1) (savable_owns hS1 m1 l1 ht1 g2)
    exact hobj C D h k o m m1 l l1
  · rintro t i i' j h _; exact h.elim

/-- Different programs with different parts own different ids. -/
theorem own_apart {ι : Type} {kind : Kind} {evs : List Event} {b : Baseline} (hist : History kind evs b) {cs : ι → List (ContractTy × Idx)}
    (hreg : ∀ (p : ι) (C : ContractTy) (h : Idx), (C, h) ∈ cs p → ∃ cd, b.contractData h = .ok cd ∧ cd.id = C.id)
    (hpart : ∀ (p q : ι) (C D : ContractTy) (h : Idx), (C, h) ∈ cs p → (D, h) ∈ cs q → p = q) {calls : List (ι × Instr)}
    (hids : ∀ (p q : ι) (C D : ContractTy), (p, Instr.register C) ∈ calls → (q, Instr.register D) ∈ calls → C.id = D.id → p = q) (q r : ι) (id : ContractId)
    (h1 : OwnOrFree b (cs q) id ∧ ((∃ e ∈ cs q, e.1.id = id) ∨ ∃ C, (q, Instr.register C) ∈ calls ∧ C.id = id))
    (h2 : OwnOrFree b (cs r) id ∧ ((∃ e ∈ cs r, e.1.id = id) ∨ ∃ C, (r, Instr.register C) ∈ calls ∧ C.id = id)) : q = r := by
  have hfree : ∀ (q r : ι) (id : ContractId), OwnOrFree b (cs q) id → (∃ e ∈ cs r, e.1.id = id) → q = r := by
    rintro q r id ho ⟨⟨C, k⟩, m, rfl⟩
    obtain ⟨cd, g, ei⟩ := hreg r C k m
    rcases ho with ⟨⟨D, k1⟩, m1, ef⟩ | hno
    · obtain ⟨cd1, g1, ei1⟩ := hreg q D k1 m1
      have : k1 = k := (history_binv hist).c.idUnique k1 k cd1 cd (contractData_ok.1 g1) (contractData_ok.1 g) (by rw [ei1, ei]; exact ef)
      exact hpart q r D C k (this ▸ m1) m
    · exact absurd ei (hno k cd g)
  rcases h1.2 with z1 | ⟨C, z1, e1⟩
  · exact (hfree r q id h2.1 z1).symm
  · rcases h2.2 with z2 | ⟨D, z2, e2⟩
    · exact hfree q r _ h1.1 z2
    · exact hids q r C D z1 z2 (e1.trans e2.symm)

/-- **C115.** Several programs share a baseline; each has a part of it, contents that can be saved, refer to nothing outside the part and have
no time warps and no minus zeros, and has variables of its part only.  Save every part and restore it into a baseline of its own.  Whatever calls the
programs make from now on, in any order, on the shared baseline, each of them (unless it counts all objects) sees what it sees if it makes
its calls on its own baseline.  Contracts that a program registers are of its part or new, and no two programs register the same. -/
theorem C115_split {ι : Type} [DecidableEq ι] {kind : Kind} {evs : List Event} {b : Baseline} (cs : ι → List (ContractTy × Idx))
    (hS : ∀ p : ι, Savable kind evs b (cs p))
    (hW : ∀ (p : ι) (C : ContractTy) (h o : Idx) (ob : ObjectD), (C, h) ∈ cs p → o ∈ objectsOf b h → b.object o = .ok ob → ob.warp = TimeWarp.default)
    (hZ : ∀ p : ι, NoMinusZero b (cs p)) (hpart : ∀ (p q : ι) (C D : ContractTy) (h : Idx), (C, h) ∈ cs p → (D, h) ∈ cs q → p = q)
    (c : ι → Cycle) (hc : ∀ p : ι, (c p).Fits (cs p)) (hk : ∀ p : ι, (c p).kind = b.kind) :
    ∃ (cs' : ι → List (ContractTy × Idx)) (b' : ι → Baseline),
      (∀ p : ι, (c p).run b = .ok (cs' p, b' p) ∧ ∃ φ ψ : Idx → Idx, SameContents b (cs p) (b' p) (cs' p) φ ψ) ∧
      ∀ φ ψ : ι → Idx → Idx, (∀ p : ι, SameContents b (cs p) (b' p) (cs' p) (φ p) (ψ p)) →
        ∀ env env' : ι → Env, (∀ p : ι, List.Forall₂ (StandsFor b (cs p) (b' p) (φ p) (ψ p)) (env p) (env' p)) →
          ∀ calls : List (ι × Instr), (∀ (p : ι) (C : ContractTy), (p, Instr.register C) ∈ calls → OwnOrFree b (cs p) C.id) →
            (∀ (p q : ι) (C D : ContractTy), (p, Instr.register C) ∈ calls → (q, Instr.register D) ∈ calls → C.id = D.id → p = q) →
              ∀ p : ι, (p, Instr.countObjects) ∉ calls → ∀ ords ords' : Nat → HashOrder,
                ofProg p (runShared calls ords (fun q => some (env q)) b) = (runProg (ofProg p calls) ords' (env' p) (b' p)).1 := by
  have H := fun p => C78_savable_again (hS p) (c p) (hc p)
  choose cs' b' φ0 ψ0 evs' e1 e2 e3 using H
  refine ⟨cs', b', fun p => ⟨e1 p, φ0 p, ψ0 p, e2 p⟩, fun φ ψ hE env env' he calls hreg hids p hcnt ords ords' => ?_⟩
  have hk' : ∀ q : ι, b.kind = (b' q).kind := fun q => by rw [history_kind (e3 q).history, hk q]
  have hP := fun q => restore_part (hS q) (hW q) (hZ q) (e3 q) (hk' q) (hE q) (C106_reset_partial (e1 q))
  refine shared_run (own := fun q id => OwnOrFree b (cs q) id ∧ ((∃ e ∈ cs q, e.1.id = id) ∨ ∃ C, (q, Instr.register C) ∈ calls ∧ C.id = id))
    (own_apart (hS p).history (fun q => (hS q).serializable.registered) hpart hids) p calls
    (fun q C hq => ⟨hreg q C hq, .inr ⟨C, hq, rfl⟩⟩) hcnt (N := fun q => (restoreNames b (cs q) (b' q) (φ q) (ψ q)).flip) (E := env') (B := b')
    (env := fun q => some (env q)) ⟨?_, ?_⟩ (env p) rfl ords ords'
  · intro q e he1
    cases he1
    exact ⟨((hP q).restrict fun id h => h.1).flip, (stands_rel (he q)).flip⟩
  · intro q r e e' _ _ hne
    exact restoreNames_apart (hS q) (hS r) (fun C D h m m1 => hne (hpart q r C D h m m1)) _ _ _ _ _ _

/-! ## A concrete case: the tag and the number of C114 -/

def halves (p : Bool) : List (ContractTy × Idx) := if p then [(tagC, h0)] else [(numC, h1)]

theorem num_savable : Savable .main partEvs partB [(numC, h1)] := by
  have hcs : ∀ (C : ContractTy) (h : Idx), (C, h) ∈ [(numC, h1)] → C = numC ∧ h = h1 := by
    intro C h hm; simpa using hm
  have hobj : objectsOf partB h1 = [h1] := by decide +kernel
  refine ⟨part_history, ⟨?_, ?_, ?_, ?_, by decide⟩, ⟨?_, ?_⟩, by decide, by decide, .of_none (by decide), by decide +kernel⟩
  · intro C h hm
    obtain ⟨rfl, rfl⟩ := hcs C h hm
    exact ⟨⟨numC.id, [h1]⟩, by decide +kernel, rfl⟩
  · rintro C C' h o hm ⟨ss, cs, hc⟩
    obtain ⟨rfl, rfl⟩ := hcs C h hm
    rw [part_events] at hc
    have hne : h1 ≠ h0 := by decide
    simp [hne] at hc; grind
  · intro C h o hm ho
    obtain ⟨rfl, rfl⟩ := hcs C h hm
    rw [hobj] at ho
    have : o = h1 := by simpa using ho
    subst this
    exact ⟨_, rfl⟩
  · intro C h f hm hf
    obtain ⟨rfl, rfl⟩ := hcs C h hm
    simp [numC] at hf
    subst hf; exact ⟨_, rfl⟩
  · intro C h o n f v hm _ hf ht
    obtain ⟨rfl, rfl⟩ := hcs C h hm
    have := List.mem_of_getElem? hf
    simp [numC] at this
    subst this; cases ht
  · intro C h o n f v hm _ hf ht
    obtain ⟨rfl, rfl⟩ := hcs C h hm
    have := List.mem_of_getElem? hf
    simp [numC] at this
    subst this; cases ht

theorem halves_savable (p : Bool) : Savable .main partEvs partB (halves p) := by cases p; exacts [num_savable, part_savable]

theorem halves_apart (p q : Bool) (C D : ContractTy) (h : Idx) (h1 : (C, h) ∈ halves p) (h2 : (D, h) ∈ halves q) : p = q := by
  have hne : h0 ≠ Verif.Props.h1 := by decide
  cases p <;> cases q <;> simp [halves] at h1 h2 <;> first | rfl | exact absurd (h1.2.symm.trans h2.2) hne | exact absurd (h2.2.symm.trans h1.2) hne

def halvesCalls : List (Bool × Instr) :=
  [(true, .readState 0), (false, .writeState 0 ⟨.prim .u8, 9#8⟩), (true, .writeState 0 ⟨.prim .string, "b"⟩), (false, .readState 0),
   (false, .register demoC), (true, .readState 0), (false, .remove numC 1), (true, .readState 0)]

/-- The number, alone in a baseline of its own, is seen as it was seen next to the tag. -/
example : ∃ (b' : Baseline) (i o : Idx), (∃ cs', (mainCycle [(numC, h1)]).run partB = .ok (cs', b')) ∧
    ∀ ords : Nat → HashOrder, (runProg [.writeState 0 ⟨.prim .u8, 9#8⟩, .readState 0, .register demoC, .remove numC 1] ords
      [.state (.prim .u8) i, .obj o] b').1 =
      [.result (.ok ()), .value (.prim .u8) 9#8, .result (.ok ()), .result (.err "the given ObjectHandle doesn't exist in the arena")] := by
  have hW : ∀ (p : Bool) (C : ContractTy) (h o : Idx) (ob : ObjectD), (C, h) ∈ halves p → o ∈ objectsOf partB h → partB.object o = .ok ob →
      ob.warp = TimeWarp.default := by
    intro p C h o ob _ _ ho
    have := mem_iter.2 (object_ok.1 ho)
    have hw : ∀ x ∈ partB.objects.iter, x.2.warp = TimeWarp.default := by decide +kernel
    exact hw _ this
  obtain ⟨cs', b', e1, e2⟩ := C115_split halves halves_savable hW (fun p => noMinusZero_of_types (by cases p <;> decide)) halves_apart (fun p => mainCycle (halves p)) (fun p => mainCycle_fits _) (fun _ => by rfl)
  have e3 := fun p => (e1 p).2
  choose φ ψ hE using e3
  have ht : h0 ∈ objectsOf partB h0 := by decide +kernel
  have hn : h1 ∈ objectsOf partB h1 := by decide +kernel
  obtain ⟨i, hi⟩ := C111_all_stand (hE true) tagC h0 (by simp [halves]) h0 ht 0 ⟨"label", .prim .string⟩ rfl h0 (by decide +kernel)
  obtain ⟨j, hj⟩ := C111_all_stand (hE false) numC h1 (by simp [halves]) h1 hn 0 ⟨"v", .prim .u8⟩ rfl h0 (by decide +kernel)
  refine ⟨b' false, j, φ false h1, ⟨cs' false, (e1 false).1⟩, fun ords => ?_⟩
  have := e2 φ ψ hE (fun p => if p then [.state (.prim .string) h0] else [.state (.prim .u8) h0, .obj h1])
    (fun p => if p then [.state (.prim .string) i] else [.state (.prim .u8) j, .obj (φ false h1)]) ?_ halvesCalls ?_ ?_ false (by simp [halvesCalls])
    (fun _ => .id) ords
  · exact this.symm.trans rfl
  · intro p
    cases p
    · exact .cons hj (.cons (.obj numC h1 h1 (by simp [halves]) hn) .nil)
    · exact .cons hi .nil
  · intro p C hC
    simp [halvesCalls] at hC
    obtain ⟨rfl, rfl⟩ := hC
    right
    intro h cd hc
    have := mem_iter.2 (contractData_ok.1 hc)
    have hw : ∀ x ∈ partB.contracts.iter, x.2.id ≠ demoC.id := by decide +kernel
    exact hw _ this
  · intro p q C D h1 h2 _
    simp [halvesCalls] at h1 h2
    rw [h1.1, h2.1]

end Verif.Props
