import Verif.Proofs.Apart
import Verif.Props.Transparent
/-!
# Programs that share a baseline (C113)

Programs that use different contracts do not disturb each other, whatever the schedule.
-/
namespace Verif.Props
open Verif Verif.Spec Baseline

/-- Every program has just started. -/
def atStart {ι : Type} : ι → Option Env := fun _ => some []

theorem PairedOn.weaken {N : Names} {b b' : Baseline} (h : Paired N b b') (own : ContractId → Prop) : PairedOn ⟨own, False⟩ N b b' :=
  ⟨h.kind, h.cons, h.ty, fun i cd g _ => h.conL i cd g trivial, fun i cd g _ => h.conR i cd g trivial, h.objs, fun _ _ _ z => z.elim,
    fun _ _ _ z => z.elim, h.sts, h.chs⟩

/-- C113.  Any number of programs make their calls on one new baseline, in any order.  If no two of them register the same contract id, a
program that does not count the objects of the whole baseline sees exactly what it would see alone, whatever the others do, also if they
panic, and whatever hash orders anyone meets. -/
theorem C113_programs_do_not_interfere {ι : Type} [DecidableEq ι] (kind : Kind) (calls : List (ι × Instr))
    (hids : ∀ (p q : ι) (C D : ContractTy), (p, Instr.register C) ∈ calls → (q, Instr.register D) ∈ calls → C.id = D.id → p = q)
    (p : ι) (hcount : (p, Instr.countObjects) ∉ calls) (ords ords' : Nat → HashOrder) :
    ofProg p (runShared calls ords atStart (Baseline.new kind)) = (runProg (ofProg p calls) ords' [] (Baseline.new kind)).1 := by
  refine shared_run (own := fun q id => ∃ C, (q, Instr.register C) ∈ calls ∧ C.id = id) ?_ p calls (fun q C hq => ⟨C, hq, rfl⟩) hcount
    (N := fun _ => noNames) (E := fun _ => []) (B := fun _ => Baseline.new kind) (env := atStart) ⟨?_, ?_⟩ [] rfl ords ords'
  · rintro q r id ⟨C, h1, h2⟩ ⟨D, h3, h4⟩; exact hids q r C D h1 h3 (h2.trans h4.symm)
  · intro q e he
    cases he
    exact ⟨PairedOn.weaken (self_sim kind) _, .nil⟩
  · intro q r e e' _ _ _
    exact ⟨fun _ _ _ _ _ h => h.elim, fun _ _ _ h => h.elim, fun _ _ _ _ h => h.elim, fun _ _ _ _ h => h.elim⟩

/-- So no scheduler can be told from another by a program that does not count. -/
theorem C113_any_schedule {ι : Type} [DecidableEq ι] (kind : Kind) (calls calls' : List (ι × Instr))
    (hids : ∀ (p q : ι) (C D : ContractTy), (p, Instr.register C) ∈ calls → (q, Instr.register D) ∈ calls → C.id = D.id → p = q)
    (hids' : ∀ (p q : ι) (C D : ContractTy), (p, Instr.register C) ∈ calls' → (q, Instr.register D) ∈ calls' → C.id = D.id → p = q)
    (p : ι) (hcount : (p, Instr.countObjects) ∉ calls) (hsame : ofProg p calls = ofProg p calls') (ords ords' : Nat → HashOrder) :
    ofProg p (runShared calls ords atStart (Baseline.new kind)) = ofProg p (runShared calls' ords' atStart (Baseline.new kind)) := by
  have hm : ∀ (l : List (ι × Instr)) (i : Instr), (p, i) ∈ l ↔ i ∈ ofProg p l := by
    intro l i
    simp only [ofProg, List.mem_filterMap]
    constructor
    · intro h; exact ⟨(p, i), h, by simp⟩
    · rintro ⟨⟨q, j⟩, h1, h2⟩
      simp only at h2
      split at h2
      · rename_i e; cases h2; exact e ▸ h1
      · cases h2
  have hc' : (p, Instr.countObjects) ∉ calls' := by rw [hm, ← hsame, ← hm]; exact hcount
  rw [C113_programs_do_not_interfere kind calls hids p hcount ords ords', C113_programs_do_not_interfere kind calls' hids' p hc' ords' ords', hsame]

/-! ## A concrete case

Program `true` makes a tag, reads and writes it; program `false` makes a number, then tries to unregister its contract, which panics, and
has ended. -/

def twoCalls : List (Bool × Instr) :=
  [(false, .register numC), (true, .register tagC), (true, .handle 0), (false, .handle 0), (false, .create 0 [⟨.prim .u8, 7#8⟩] []),
   (true, .create 0 [⟨.prim .string, "a"⟩, ⟨.prim .contractDataHandle, (1 : Nat)⟩] []), (true, .bindState 0 0 2), (false, .bindState 0 0 2),
   (true, .bindState 0 1 2), (false, .writeState 3 ⟨.prim .u8, 8#8⟩), (false, .countObjects), (true, .writeState 3 ⟨.prim .string, "b"⟩),
   (false, .unregister numC 1), (true, .readState 3), (true, .readState 4), (true, .same 5 1), (false, .readState 3), (true, .describe 5)]

theorem two_ids (p q : Bool) (C D : ContractTy) (h1 : (p, Instr.register C) ∈ twoCalls) (h2 : (q, Instr.register D) ∈ twoCalls) (h : C.id = D.id) : p = q := by
  simp [twoCalls] at h1 h2
  rcases h1 with ⟨rfl, rfl⟩ | ⟨rfl, rfl⟩ <;> rcases h2 with ⟨rfl, rfl⟩ | ⟨rfl, rfl⟩ <;> first | rfl | (exact absurd h (by decide))

/-- The program with the tags is not disturbed by the panic of the other. -/
example (ords : Nat → HashOrder) : ofProg true (runShared twoCalls ords atStart (Baseline.new .main)) =
    [.result (.ok ()), .result (.ok ()), .result (.ok ()), .result (.ok ()), .result (.ok ()), .result (.ok ()), .value (.prim .string) "b",
     .value (.prim .contractDataHandle) (5 : Nat), .flag true, .contract tagC.id 1] := by
  rw [C113_programs_do_not_interfere .main twoCalls two_ids true (by simp [twoCalls]) ords (fun _ => .id)]
  rfl

/-- The other one panicked (and counted two objects, one of which is not its own). -/
example : ofProg false (runShared twoCalls (fun _ => .id) atStart (Baseline.new .main)) =
    [.result (.ok ()), .result (.ok ()), .result (.ok ()), .result (.ok ()), .result (.ok ()), .count 2,
     .result (.panic "failed to remove object")] := by rfl

/-- Both conditions are needed: a program that counts sees the objects of the others, and of two programs that register the same id the
second gets an error. -/
theorem C113_conditions_needed :
    (∃ calls : List (Bool × Instr), (∀ (p q : Bool) (C D : ContractTy), (p, Instr.register C) ∈ calls → (q, Instr.register D) ∈ calls → C.id = D.id → p = q) ∧
      ∀ ords ords' : Nat → HashOrder, ofProg true (runShared calls ords atStart (Baseline.new .main)) ≠ (runProg (ofProg true calls) ords' [] (Baseline.new .main)).1) ∧
    ∃ calls : List (Bool × Instr), (true, Instr.countObjects) ∉ calls ∧
      ∀ ords ords' : Nat → HashOrder, ofProg true (runShared calls ords atStart (Baseline.new .main)) ≠ (runProg (ofProg true calls) ords' [] (Baseline.new .main)).1 := by
  refine ⟨⟨[(false, .register numC), (false, .create 0 [⟨.prim .u8, 7#8⟩] []), (true, .countObjects)], ?_, ?_⟩,
    [(false, .register numC), (true, .register numC)], by simp, ?_⟩
  · intro p q C D h1 h2 _
    simp at h1 h2
    rw [h1.1, h2.1]
  · intro ords ords' h
    have h1 : ofProg true (runShared [(false, .register numC), (false, .create 0 [⟨.prim .u8, 7#8⟩] []), (true, .countObjects)] ords atStart (Baseline.new .main)) =
      [.count 1] := by rfl
    rw [h1] at h
    have h2 : [Seen.count 1] = [Seen.count 0] := h
    cases h2
  · intro ords ords' h
    have h1 : ofProg true (runShared [(false, .register numC), (true, .register numC)] ords atStart (Baseline.new .main)) =
      [.result (.err "contract already added")] := by rfl
    rw [h1] at h
    have h2 : [Seen.result (.err "contract already added")] = [Seen.result (.ok ())] := h
    cases h2

end Verif.Props
