import Verif.Model.UnityColor
/-!
# C71: the colour sent to the platform
-/
namespace Verif.Props
open Verif

/-- Specification: the 16-bit channels laid out red, green, blue, alpha from the top of the 64-bit word. -/
def rgba64 (r g b a : BitVec 16) : BitVec 64 := ((r ++ g) ++ b) ++ a

/-- The full statement of C71: the colour is the four channels side by side. -/
def ColorFaithful : Prop := ∀ r g b a : BitVec 16, unityColor r g b a = rgba64 r g b a

theorem unityColor_bit (r g b a : BitVec 16) (i : Nat) (hi : i < 64) :
    (unityColor r g b a).getLsbD i =
      if i < 16 then (g.getLsbD i || a.getLsbD i)
      else if i < 32 then (r.getLsbD (i - 16) || b.getLsbD (i - 16))
      else (r.getLsbD 15 || b.getLsbD 15) := by
  have key : ∀ j : Nat, j < 32 → (csShl (csInt r) 48 ||| csShl (csInt g) 32 ||| csShl (csInt b) 16 ||| csInt a).getLsbD j =
      if j < 16 then (g.getLsbD j || a.getLsbD j) else (r.getLsbD (j - 16) || b.getLsbD (j - 16)) := by
    intro j hj
    simp only [csShl, csInt, BitVec.getLsbD_or, BitVec.getLsbD_shiftLeft, BitVec.truncate_eq_setWidth, BitVec.getLsbD_setWidth]
    by_cases h16 : j < 16
    · simp [h16, hj]
    · have hg : g.getLsbD j = false := BitVec.getLsbD_of_ge _ _ (by omega)
      have ha : a.getLsbD j = false := BitVec.getLsbD_of_ge _ _ (by omega)
      simp [h16, hj, hg, ha, show j - 16 < 32 by omega]
  unfold unityColor csUlong
  rw [BitVec.getLsbD_signExtend]
  simp only [hi, decide_true, Bool.true_and]
  by_cases h32 : i < 32
  · rw [if_pos h32, key i h32]
    by_cases h16 : i < 16 <;> simp [h16, h32]
  · rw [if_neg h32, BitVec.msb_eq_getLsbD_last, key 31 (by omega)]
    simp [h32, show ¬ i < 16 by omega]

theorem rgba64_bit (r g b a : BitVec 16) (i : Nat) (_hi : i < 64) :
    (rgba64 r g b a).getLsbD i =
      if i < 16 then a.getLsbD i else if i < 32 then b.getLsbD (i - 16)
      else if i < 48 then g.getLsbD (i - 32) else r.getLsbD (i - 48) := by
  unfold rgba64
  simp only [BitVec.getLsbD_append]
  by_cases h1 : i < 16
  · simp [h1]
  · by_cases h2 : i < 32
    · simp [h1, h2, show i - 16 < 16 by omega]
    · by_cases h3 : i < 48
      · simp only [h1, h2, h3, show ¬ i - 16 < 16 by omega, show i - 16 - 16 = i - 32 by omega, show i - 32 < 16 by omega, if_true, if_false]
        first | done | rfl
      · simp [h1, h2, h3, show ¬ i - 16 < 16 by omega, show ¬ i - 16 - 16 < 16 by omega, show i - 16 - 16 - 16 = i - 48 by omega]

/-- **C71 is false of the code:** red and blue (and green and alpha) end up in the same bits, so different colours are sent as the
same number: opaque red and opaque blue, for instance. -/
theorem C71_negation : ¬ ColorFaithful ∧
    (∀ r g b a : BitVec 16, unityColor r g b a = unityColor b a r g) ∧
    unityColor 0xFFFF 0 0 0xFFFF = unityColor 0 0 0xFFFF 0xFFFF := by
  refine ⟨fun h => ?_, ?_, by decide⟩
  · have := h 1 0 0 0
    revert this
    decide
  · intro r g b a
    apply BitVec.eq_of_getLsbD_eq
    intro i hi
    rw [unityColor_bit _ _ _ _ _ hi, unityColor_bit _ _ _ _ _ hi]
    simp only [Bool.or_comm]

/-- **C71, partial: exactly what is sent, and exactly when it is right.**  The low half is green-or-alpha, the next sixteen bits are
red-or-blue, and the upper half is thirty-two copies of the top bit of red-or-blue.  The result is the intended word exactly
for opaque white and for colours without red and green whose blue is below one half. -/
theorem C71_color_word_partial (r g b a : BitVec 16) :
    (unityColor r g b a).extractLsb' 0 16 = (g ||| a) ∧
    (unityColor r g b a).extractLsb' 16 16 = (r ||| b) ∧
    (unityColor r g b a).extractLsb' 32 32 = (if (r ||| b).msb then BitVec.allOnes 32 else 0#32) ∧
    (unityColor r g b a = rgba64 r g b a ↔
      (r = 0 ∧ g = 0 ∧ b.toNat < 32768) ∨ (r = 65535 ∧ g = 65535 ∧ b = 65535 ∧ a = 65535)) := by
  refine ⟨?_, ?_, ?_, ?_⟩
  · apply BitVec.eq_of_getLsbD_eq
    intro i hi
    rw [BitVec.getLsbD_extractLsb', Nat.zero_add, unityColor_bit _ _ _ _ _ (by omega)]
    simp [hi]
  · apply BitVec.eq_of_getLsbD_eq
    intro i hi
    rw [BitVec.getLsbD_extractLsb', unityColor_bit _ _ _ _ _ (by omega)]
    simp [hi, show ¬ 16 + i < 16 by omega, show 16 + i < 32 by omega, show 16 + i - 16 = i by omega]
  · apply BitVec.eq_of_getLsbD_eq
    intro i hi
    rw [BitVec.getLsbD_extractLsb', unityColor_bit _ _ _ _ _ (by omega)]
    have hm : (r ||| b).msb = (r.getLsbD 15 || b.getLsbD 15) := by simp [BitVec.msb_eq_getLsbD_last]
    rw [hm]
    simp only [hi, decide_true, Bool.true_and, show ¬ 32 + i < 16 by omega, show ¬ 32 + i < 32 by omega, if_false]
    cases hb : (r.getLsbD 15 || b.getLsbD 15) with
    | false => simp
    | true => rw [if_pos rfl, BitVec.getLsbD_allOnes]; simp [hi]
  · constructor
    · intro e
      have bit : ∀ i : Nat, i < 64 → _ := fun i hi => by
        have := congrArg (fun w : BitVec 64 => w.getLsbD i) e
        simp only [unityColor_bit _ _ _ _ _ hi, rgba64_bit _ _ _ _ _ hi] at this
        exact this
      have hr : ∀ j : Nat, j < 16 → r.getLsbD j = (r.getLsbD 15 || b.getLsbD 15) := by
        intro j hj
        have := bit (48 + j) (by omega)
        simp only [show ¬ 48 + j < 16 by omega, show ¬ 48 + j < 32 by omega, show ¬ 48 + j < 48 by omega, if_false,
          show 48 + j - 48 = j by omega] at this
        exact this.symm
      have hg : ∀ j : Nat, j < 16 → g.getLsbD j = (r.getLsbD 15 || b.getLsbD 15) := by
        intro j hj
        have := bit (32 + j) (by omega)
        simp only [show ¬ 32 + j < 16 by omega, show ¬ 32 + j < 32 by omega, show 32 + j < 48 by omega, if_false, if_true,
          show 32 + j - 32 = j by omega] at this
        exact this.symm
      have hb : ∀ j : Nat, j < 16 → (r.getLsbD j || b.getLsbD j) = b.getLsbD j := by
        intro j hj
        have := bit (16 + j) (by omega)
        simp only [show ¬ 16 + j < 16 by omega, show 16 + j < 32 by omega, if_false, if_true,
          show 16 + j - 16 = j by omega] at this
        exact this
      have ha : ∀ j : Nat, j < 16 → (g.getLsbD j || a.getLsbD j) = a.getLsbD j := by
        intro j hj
        have := bit j (by omega)
        simp only [hj, if_true] at this
        exact this
      have zero : ∀ x : BitVec 16, (∀ j : Nat, j < 16 → x.getLsbD j = false) → x = 0 := fun x hx =>
        BitVec.eq_of_getLsbD_eq fun i hi => by rw [hx i hi]; simp
      have ones : ∀ x : BitVec 16, (∀ j : Nat, j < 16 → x.getLsbD j = true) → x = 65535 := fun x hx =>
        BitVec.eq_of_getLsbD_eq fun i hi => by
          rw [hx i hi, show (65535 : BitVec 16) = BitVec.allOnes 16 by decide, BitVec.getLsbD_allOnes, decide_eq_true hi]
      cases hs : (r.getLsbD 15 || b.getLsbD 15) with
      | false =>
        refine .inl ⟨zero r fun j hj => by rw [hr j hj, hs], zero g fun j hj => by rw [hg j hj, hs], ?_⟩
        have h15 : b.msb = false := by
          rw [BitVec.msb_eq_getLsbD_last]
          exact (Bool.or_eq_false_iff.1 hs).2
        rw [BitVec.msb_eq_decide] at h15
        simpa using h15
      | true =>
        have r1 : ∀ j : Nat, j < 16 → r.getLsbD j = true := fun j hj => by rw [hr j hj, hs]
        have g1 : ∀ j : Nat, j < 16 → g.getLsbD j = true := fun j hj => by rw [hg j hj, hs]
        refine .inr ⟨ones r r1, ones g g1, ones b fun j hj => ?_, ones a fun j hj => ?_⟩
        · rw [← hb j hj, r1 j hj]; rfl
        · rw [← ha j hj, g1 j hj]; rfl
    · rintro (⟨rfl, rfl, hb⟩ | ⟨rfl, rfl, rfl, rfl⟩)
      · have h15 : b.getLsbD 15 = false := by
          have : b.msb = false := by rw [BitVec.msb_eq_decide]; simpa using hb
          rw [BitVec.msb_eq_getLsbD_last] at this
          exact this
        apply BitVec.eq_of_getLsbD_eq
        intro i hi
        rw [unityColor_bit _ _ _ _ _ hi, rgba64_bit _ _ _ _ _ hi]
        rw [h15]
        by_cases h1 : i < 16
        · simp [h1]
        · by_cases h2 : i < 32 <;> simp [h1, h2]
      · decide

/-- A dark blue arrives intact; full red does not. -/
example : unityColor 0 0 0x1234 0xFFFF = rgba64 0 0 0x1234 0xFFFF ∧ unityColor 0xFFFF 0 0 0xFFFF ≠ rgba64 0xFFFF 0 0 0xFFFF := by
  decide

end Verif.Props
