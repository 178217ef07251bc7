import Verif.Props.Transparent
import Verif.Props.Lost
import Verif.Spec.FloatValue
/-!
# C126: the sign of a zero

flatbuffers leaves out a field that equals its default value, and minus zero equals zero.
-/
namespace Verif.Props
open Verif Spec Arena Baseline Store

/-- Claim C126: saving and restoring keeps every float bit for bit (and everything else that a state can hold). -/
def BitsSurvive : Prop :=
  ∀ (kind : Kind) (evs : List Event) (b : Baseline) (cs : List (ContractTy × Idx)), Savable kind evs b cs →
    ∀ c : Cycle, c.Fits cs → ∀ (cs' : List (ContractTy × Idx)) (b' : Baseline), c.run b = .ok (cs', b') →
      ∃ φ ψ : Idx → Idx, SameExactly b cs b' cs' φ ψ

theorem asRestored_not_minus (φ ψ : Idx → Idx) (p : DynProp) : ¬ MinusZero (asRestored φ ψ p) := by
  cases p with
  | vec q => simp [MinusZero, asRestored]
  | primitive q =>
    cases q <;> simp [MinusZero, asRestored, unsigned32, unsigned64] <;> split <;> simp_all

theorem asRestored_of_signed {φ ψ : Idx → Idx} {p : DynProp} (h : ¬ MinusZero p) : asRestored φ ψ p = mapHandles φ ψ p := by
  cases p with
  | vec q => rfl
  | primitive q =>
    cases q <;> simp [MinusZero] at h <;> simp [asRestored, mapHandles, unsigned32, unsigned64, h]

theorem mapHandles_minus {φ ψ : Idx → Idx} {p : DynProp} (h : MinusZero p) : MinusZero (mapHandles φ ψ p) := by
  rcases h with rfl | rfl
  · exact .inl rfl
  · exact .inr rfl

/-- What has the contents of a saved baseline has no minus zero. -/
theorem same_unsigned {b b' : Baseline} {cs cs' : List (ContractTy × Idx)} {φ ψ : Idx → Idx}
    (h : SameContents b cs b' cs' φ ψ) : NoMinusZero b' cs' := by
  intro C h' o' n f v' hm ho hf hv
  obtain ⟨k, hk, rfl⟩ := (h.instances C h').1 hm
  obtain ⟨cd, cd', g1, g2, _, hobj⟩ := h.contract C k hk
  rw [objectsOf_eq g2] at ho
  obtain ⟨o, hl, rfl⟩ := (hobj o').1 ho
  obtain ⟨v, w, _, a2, a3⟩ := h.values C k o n f hk (by rw [objectsOf_eq g1]; exact hl) hf
  have := holds_fun a2 hv
  subst this
  rw [a3]
  exact asRestored_not_minus _ _ _

/-- **C126, partial.** Contracts that can be saved come back bit for bit exactly when no state of theirs is minus
zero. -/
theorem C126_exact_partial {kind : Kind} {evs : List Event} {b : Baseline} {cs : List (ContractTy × Idx)}
    (hS : Savable kind evs b cs) (c : Cycle) (hc : c.Fits cs) :
    ∃ (cs' : List (ContractTy × Idx)) (b' : Baseline), c.run b = .ok (cs', b') ∧
      ((∃ φ ψ : Idx → Idx, SameExactly b cs b' cs' φ ψ) ↔ NoMinusZero b cs) := by
  obtain ⟨cs', b', φ, ψ, _, e1, e2, _⟩ := C78_savable_again hS c hc
  refine ⟨cs', b', e1, ?_, fun hz => ⟨φ, ψ, ⟨e2.instances, e2.conInj, e2.conOnto, e2.contract, e2.objInj, e2.objOnto,
    e2.object, ?_⟩⟩⟩
  · rintro ⟨φ', ψ', hE⟩ C h o n f v hm ho hf hv hz
    obtain ⟨w, w', a1, a2, a3⟩ := hE.values C h o n f hm ho hf
    have := holds_fun a1 hv
    subst this
    obtain ⟨cd, cd', g1, g2, _, hobj⟩ := hE.contract C h hm
    rw [objectsOf_eq g1] at ho
    have hm' : (C, ψ' h) ∈ cs' := (hE.instances C _).2 ⟨h, hm, rfl⟩
    have ho' : φ' o ∈ objectsOf b' (ψ' h) := by rw [objectsOf_eq g2]; exact (hobj _).2 ⟨o, ho, rfl⟩
    exact same_unsigned e2 C _ _ n f w' hm' ho' hf a2 (by rw [a3]; exact mapHandles_minus hz)
  · intro C h o n f hm ho hf
    obtain ⟨v, v', a1, a2, a3⟩ := e2.values C h o n f hm ho hf
    exact ⟨v, v', a1, a2, a3.trans (asRestored_of_signed (hz C h o n f v hm ho hf a1))⟩

/-- **C126, partial.** The restored baseline has no minus zero, so from then on every cycle keeps it bit for bit. -/
theorem C126_once_partial {kind : Kind} {evs : List Event} {b : Baseline} {cs : List (ContractTy × Idx)}
    (hS : Savable kind evs b cs) (c : Cycle) (hc : c.Fits cs) :
    ∃ (cs' : List (ContractTy × Idx)) (b' : Baseline), c.run b = .ok (cs', b') ∧ NoMinusZero b' cs' ∧
      ∀ c' : Cycle, c'.Fits cs' → ∃ (cs'' : List (ContractTy × Idx)) (b'' : Baseline) (φ ψ : Idx → Idx),
        c'.run b' = .ok (cs'', b'') ∧ SameExactly b' cs' b'' cs'' φ ψ := by
  obtain ⟨cs', b', φ, ψ, evs', e1, e2, e3⟩ := C78_savable_again hS c hc
  refine ⟨cs', b', e1, same_unsigned e2, fun c' hc' => ?_⟩
  obtain ⟨cs'', b'', g1, g2⟩ := C126_exact_partial e3 c' hc'
  obtain ⟨φ', ψ', g3⟩ := g2.2 (same_unsigned e2)
  exact ⟨cs'', b'', φ', ψ', g1, g3⟩

/-- The two properties are floats of the same type that stand for the same number, with the same bits unless they are
zeros. -/
inductive SameNumber : DynProp → DynProp → Prop
  | f32 (v v' : BitVec 32) (num : f32Value v' = f32Value v) (bits : v' = v ∨ f32Value v = .fin 0) :
      SameNumber (.primitive (.f32 v)) (.primitive (.f32 v'))
  | f64 (v v' : BitVec 64) (num : f64Value v' = f64Value v) (bits : v' = v ∨ f64Value v = .fin 0) :
      SameNumber (.primitive (.f64 v)) (.primitive (.f64 v'))

theorem unsigned32_value (v : BitVec 32) : f32Value (unsigned32 v) = f32Value v ∧
    (unsigned32 v = v ∨ f32Value v = .fin 0) := by
  unfold unsigned32
  split
  · rename_i h; subst h
    have h1 : f32Value 0#32 = .fin 0 := by simp [f32Value, ieeeValue]
    have h2 : f32Value 0x80000000#32 = .fin 0 := by simp [f32Value, ieeeValue]
    exact ⟨h1.trans h2.symm, .inr h2⟩
  · exact ⟨rfl, .inl rfl⟩

theorem unsigned64_value (v : BitVec 64) : f64Value (unsigned64 v) = f64Value v ∧
    (unsigned64 v = v ∨ f64Value v = .fin 0) := by
  unfold unsigned64
  split
  · rename_i h; subst h
    have h1 : f64Value 0#64 = .fin 0 := by simp [f64Value, ieeeValue]
    have h2 : f64Value 0x8000000000000000#64 = .fin 0 := by simp [f64Value, ieeeValue]
    exact ⟨h1.trans h2.symm, .inr h2⟩
  · exact ⟨rfl, .inl rfl⟩

/-- **C126, partial.** Whatever is saved, every float comes back as the same number, and with the same bits unless it is
a zero: NaN payloads, infinities and subnormal numbers are kept. -/
theorem C126_number_partial {kind : Kind} {evs : List Event} {b : Baseline} {cs : List (ContractTy × Idx)}
    (hS : Savable kind evs b cs) (c : Cycle) (hc : c.Fits cs) :
    ∃ (cs' : List (ContractTy × Idx)) (b' : Baseline) (φ ψ : Idx → Idx), c.run b = .ok (cs', b') ∧
      SameContents b cs b' cs' φ ψ ∧
      ∀ (C : ContractTy) (h o : Idx) (n : Nat) (f : Field), (C, h) ∈ cs → o ∈ objectsOf b h → C.states[n]? = some f →
        f.ty = .prim .f32 ∨ f.ty = .prim .f64 → ∃ v v' : f.ty.Carrier, Holds b h o n f.ty v ∧
          Holds b' (ψ h) (φ o) n f.ty v' ∧ SameNumber (DynProp.ofTyped f.ty v) (DynProp.ofTyped f.ty v') := by
  obtain ⟨cs', b', φ, ψ, _, e1, e2, _⟩ := C78_savable_again hS c hc
  refine ⟨cs', b', φ, ψ, e1, e2, fun C h o n f hm ho hf ht => ?_⟩
  obtain ⟨v, v', a1, a2, a3⟩ := e2.values C h o n f hm ho hf
  refine ⟨v, v', a1, a2, ?_⟩
  rw [a3]
  obtain ⟨nm, ty⟩ := f
  rcases ht with rfl | rfl
  · exact .f32 _ _ (unsigned32_value v).1 (unsigned32_value v).2
  · exact .f64 _ _ (unsigned64_value v).1 (unsigned64_value v).2

/-! A baseline with a minus zero of either size, a signalling NaN and the smallest subnormal number. -/

def zeroC : ContractTy := ⟨⟨"zeros", 1, 0, 0⟩, [⟨"x", .prim .f32⟩, ⟨"y", .prim .f64⟩], []⟩
def zeroOps : List BOp :=
  [.register zeroC, .create zeroC h0 [.primitive (.f32 0x80000000#32), .primitive (.f64 0x8000000000000000#64)] [],
    .create zeroC h0 [.primitive (.f32 0x7F800001#32), .primitive (.f64 1#64)] []]
def zeroB : Baseline := ((Baseline.new .main).runOps zeroOps).2
def zeroEvs : List Event := ((Baseline.new .main).runOps zeroOps).1

theorem zero_events : zeroEvs = [(.register zeroC, .ok (some h0)),
    (.create zeroC h0 [.primitive (.f32 0x80000000#32), .primitive (.f64 0x8000000000000000#64)] [], .ok (some h0)),
    (.create zeroC h0 [.primitive (.f32 0x7F800001#32), .primitive (.f64 1#64)] [], .ok (some h1))] := by rfl

theorem zero_savable : Savable .main zeroEvs zeroB [(zeroC, h0)] := by
  have hcs : ∀ (C : ContractTy) (h : Idx), (C, h) ∈ [(zeroC, h0)] → C = zeroC ∧ h = h0 := by
    intro C h hm; simpa using hm
  refine ⟨runOps_trace _ _, ⟨?_, ?_, ?_, ?_, by decide⟩, ⟨?_, ?_⟩, by decide, by decide, .of_none (by decide), by decide +kernel⟩
  · intro C h hm
    obtain ⟨rfl, rfl⟩ := hcs C h hm
    exact ⟨⟨zeroC.id, [h1, h0]⟩, by decide +kernel, rfl⟩
  · rintro C C' h o hm ⟨ss, cs, hc⟩
    obtain ⟨rfl, rfl⟩ := hcs C h hm
    rw [zero_events] at hc
    simp at hc; grind
  · intro C h o hm ho
    obtain ⟨rfl, rfl⟩ := hcs C h hm
    rw [show objectsOf zeroB h0 = [h1, h0] from by decide +kernel] at ho
    have : o = h1 ∨ o = h0 := by simpa using ho
    rcases this with rfl | rfl
    · exact ⟨_, rfl⟩
    · exact ⟨_, rfl⟩
  · intro C h f hm hf
    obtain ⟨rfl, rfl⟩ := hcs C h hm
    simp [zeroC] at hf; rcases hf with rfl | rfl <;> exact ⟨_, rfl⟩
  · intro C h o n f v hm _ hf ht
    obtain ⟨rfl, rfl⟩ := hcs C h hm
    have := List.mem_of_getElem? hf
    simp [zeroC] at this; rcases this with rfl | rfl <;> cases ht
  · intro C h o n f v hm _ hf ht
    obtain ⟨rfl, rfl⟩ := hcs C h hm
    have := List.mem_of_getElem? hf
    simp [zeroC] at this; rcases this with rfl | rfl <;> cases ht

theorem zero_minus : ¬ NoMinusZero zeroB [(zeroC, h0)] := by
  intro h
  exact h zeroC h0 h0 0 ⟨"x", .prim .f32⟩ (0x80000000#32 : BitVec 32) (by simp) (by decide +kernel) rfl
    ⟨⟨0, 0⟩, by decide +kernel, by decide +kernel⟩ (.inl rfl)

/-- **C126 is false of the code**: minus zero is restored as zero. -/
theorem C126_negation : ¬ BitsSurvive := by
  intro hA
  obtain ⟨cs', b', e1, e2⟩ := C126_exact_partial zero_savable _ (demoCycle_fits _)
  exact zero_minus (e2.1 (hA .main zeroEvs zeroB _ zero_savable _ (demoCycle_fits _) cs' b' e1))

/-- The restored numbers of this baseline, bit for bit. -/
example : ∃ (cs' : List (ContractTy × Idx)) (b' : Baseline) (h' o o' : Idx),
    (demoCycle [(zeroC, h0)]).run zeroB = .ok (cs', b') ∧
    Holds b' h' o 0 (.prim .f32) (0#32 : BitVec 32) ∧ Holds b' h' o 1 (.prim .f64) (0#64 : BitVec 64) ∧
    Holds b' h' o' 0 (.prim .f32) (0x7F800001#32 : BitVec 32) ∧ Holds b' h' o' 1 (.prim .f64) (1#64 : BitVec 64) := by
  obtain ⟨cs', b', φ, ψ, _, e1, e2, _⟩ := C78_savable_again zero_savable _ (demoCycle_fits _)
  have key : ∀ (o : Idx) (n : Nat) (f : Field) (v : f.ty.Carrier), o ∈ objectsOf zeroB h0 → zeroC.states[n]? = some f →
      Holds zeroB h0 o n f.ty v → ∃ v' : f.ty.Carrier, Holds b' (ψ h0) (φ o) n f.ty v' ∧
        DynProp.ofTyped f.ty v' = asRestored φ ψ (DynProp.ofTyped f.ty v) := by
    intro o n f v ho hf hv
    obtain ⟨w, w', a1, a2, a3⟩ := e2.values zeroC h0 o n f (by simp) ho hf
    have := holds_fun a1 hv
    subst this
    exact ⟨w', a2, a3⟩
  refine ⟨cs', b', ψ h0, φ h0, φ h1, e1, ?_, ?_, ?_, ?_⟩
  · obtain ⟨v', k1, k2⟩ := key h0 0 ⟨"x", .prim .f32⟩ (0x80000000#32 : BitVec 32) (by decide +kernel) rfl
      ⟨⟨0, 0⟩, by decide +kernel, by decide +kernel⟩
    injection k2 with k2; injection k2 with k2; subst k2; exact k1
  · obtain ⟨v', k1, k2⟩ := key h0 1 ⟨"y", .prim .f64⟩ (0x8000000000000000#64 : BitVec 64) (by decide +kernel) rfl
      ⟨⟨0, 0⟩, by decide +kernel, by decide +kernel⟩
    injection k2 with k2; injection k2 with k2; subst k2; exact k1
  · obtain ⟨v', k1, k2⟩ := key h1 0 ⟨"x", .prim .f32⟩ (0x7F800001#32 : BitVec 32) (by decide +kernel) rfl
      ⟨⟨1, 0⟩, by decide +kernel, by decide +kernel⟩
    injection k2 with k2; injection k2 with k2; subst k2; exact k1
  · obtain ⟨v', k1, k2⟩ := key h1 1 ⟨"y", .prim .f64⟩ (1#64 : BitVec 64) (by decide +kernel) rfl
      ⟨⟨1, 0⟩, by decide +kernel, by decide +kernel⟩
    injection k2 with k2; injection k2 with k2; subst k2; exact k1

end Verif.Props
