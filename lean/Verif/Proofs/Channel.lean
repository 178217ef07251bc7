import Verif.Model.Channel
import Verif.Proofs.Types
import Mathlib.Tactic.NormNum
import Mathlib.Tactic.Ring
import Mathlib.Tactic.Positivity
import Mathlib.Data.Finset.Prod
/-! # Lemmas about channels and tweening -/
namespace Verif
open Spec

theorem int_compare_ne_gt (x y : Int) : compare x y ≠ .gt ↔ x ≤ y := by
  rw [Ne, compare_gt_iff_gt]; omega

theorem int_compare_swap (x y : Int) : (compare x y).swap = compare y x := by
  rcases lt_trichotomy x y with h | h | h
  · rw [compare_lt_iff_lt.2 h, compare_gt_iff_gt.2 h]; rfl
  · subst h; simp
  · rw [compare_lt_iff_lt.2 h, compare_gt_iff_gt.2 h]; rfl

/-- Without NaNs the keyframe comparison is the comparison of the order keys. -/
theorem keyframeCmp_eq {α : Type} (a b : Keyframe α) (ha : ¬ F64NaN a.time) (hb : ¬ F64NaN b.time) :
    keyframeCmp a b = compare (fmt64.key a.time) (fmt64.key b.time) := by
  have ha' : fmt64.isNaN a.time = false := by
    rw [← Bool.not_eq_true, fmt64_isNaN]; exact ha
  have hb' : fmt64.isNaN b.time = false := by
    rw [← Bool.not_eq_true, fmt64_isNaN]; exact hb
  simp [keyframeCmp, FloatFmt.partialCmp, ha', hb']

theorem keyframeCmp_total {α : Type} (ks : List (Keyframe α)) (h : ∀ k ∈ ks, ¬ F64NaN k.time) :
    TotalOn keyframeCmp ks := by
  constructor
  · intro a ha b hb
    rw [keyframeCmp_eq a b (h a ha) (h b hb), keyframeCmp_eq b a (h b hb) (h a ha)]
    exact (int_compare_swap _ _).symm
  · intro a ha b hb c hc h1 h2
    rw [keyframeCmp_eq a b (h a ha) (h b hb)] at h1
    rw [keyframeCmp_eq b c (h b hb) (h c hc)] at h2
    rw [keyframeCmp_eq a c (h a ha) (h c hc)]
    rw [int_compare_ne_gt] at *
    omega

/-! ## Rounding -/
namespace F32Round
variable (R : F32Round)

theorem exact {x : ℚ} (h : F32Repr x) : R.rnd x = x := by
  have := R.nearest x x h
  simp only [sub_self, abs_zero] at this
  have h0 : R.rnd x - x = 0 := abs_eq_zero.1 (le_antisymm this (abs_nonneg _))
  linarith

theorem mono {x y : ℚ} (h : x ≤ y) : R.rnd x ≤ R.rnd y := by
  rcases eq_or_lt_of_le h with rfl | h
  · exact le_rfl
  by_contra hc
  have hc : R.rnd y < R.rnd x := not_le.1 hc
  have h1 := R.nearest x (R.rnd y) (R.repr y)
  have h2 := R.nearest y (R.rnd x) (R.repr x)
  rw [abs_le_abs_iff_sq] at h1 h2
  nlinarith
where
  abs_le_abs_iff_sq {a b : ℚ} : |a| ≤ |b| ↔ a ^ 2 ≤ b ^ 2 := sq_le_sq.symm

end F32Round

theorem F32Repr.of_le (m e : ℤ) (hm : |m| ≤ 2 ^ 24) (h1 : -149 ≤ e) (h2 : e ≤ 103) : F32Repr (m * (2 : ℚ) ^ e) := by
  rcases lt_or_eq_of_le hm with h | h
  · exact ⟨m, e, h, h1, by omega, rfl⟩
  · have h2' : (2 : ℚ) ^ (e + 1) = 2 ^ e * 2 := by rw [zpow_add₀ (by norm_num : (2 : ℚ) ≠ 0)]; norm_num
    rcases eq_or_eq_neg_of_abs_eq h with rfl | rfl
    · exact ⟨2 ^ 23, e + 1, by norm_num, by omega, by omega, by rw [h2']; push_cast; ring⟩
    · exact ⟨-(2 ^ 23), e + 1, by norm_num, by omega, by omega, by rw [h2']; push_cast; ring⟩

theorem f32Repr_int (n : ℤ) (h : |n| ≤ 2 ^ 24) : F32Repr n := by
  simpa using F32Repr.of_le n 0 h (by norm_num) (by norm_num)

/-- A round-to-nearest function exists (the binary32 numbers are finitely many). -/
theorem exists_F32Round : Nonempty F32Round := by
  classical
  obtain ⟨S, hS⟩ : ∃ S : Finset ℚ, ∀ y : ℚ, y ∈ S ↔ F32Repr y := by
    refine ⟨((Finset.Ioo (-(2 ^ 24) : ℤ) (2 ^ 24)) ×ˢ (Finset.Icc (-149 : ℤ) 104)).image
      (fun p => (p.1 : ℚ) * (2 : ℚ) ^ p.2), fun y => ?_⟩
    simp only [Finset.mem_image, Finset.mem_product, Finset.mem_Icc, Finset.mem_Ioo, F32Repr, abs_lt]
    constructor
    · rintro ⟨⟨m, e⟩, ⟨⟨h1, h2⟩, h3, h4⟩, rfl⟩; exact ⟨m, e, ⟨h1, h2⟩, h3, h4, rfl⟩
    · rintro ⟨m, e, ⟨h1, h2⟩, h3, h4, rfl⟩; exact ⟨(m, e), ⟨⟨h1, h2⟩, h3, h4⟩, rfl⟩
  have hne : S.Nonempty := ⟨0, (hS 0).2 ⟨0, 0, by norm_num, by norm_num, by norm_num, by norm_num⟩⟩
  choose f hf1 hf2 using fun x : ℚ => Finset.exists_min_image S (fun y => |y - x|) hne
  exact ⟨⟨f, fun x => (hS _).1 (hf1 x), fun x y hy => hf2 x y ((hS y).2 hy)⟩⟩

/-- A number with a 25-bit odd significand is not a binary32 number. -/
theorem not_f32Repr_16777217 : ¬ F32Repr ((16777217 : ℤ) : ℚ) := by
  rintro ⟨m, e, hm, h1, h2, h⟩
  rcases le_or_gt e 0 with he | he
  · -- m = 16777217 * 2^(-e) is too big
    obtain ⟨k, rfl⟩ := Int.exists_eq_neg_ofNat he
    have h3 : (m : ℚ) = 16777217 * (2 : ℚ) ^ k := by
      rw [zpow_neg, zpow_natCast] at h
      have : ((2 : ℚ) ^ k) ≠ 0 := by positivity
      field_simp at h
      push_cast at h
      linarith
    have h4 : m = 16777217 * 2 ^ k := by exact_mod_cast h3
    have h5 : (1 : ℤ) ≤ 2 ^ k := one_le_pow₀ (by norm_num)
    have := (abs_lt.1 hm).2
    omega
  · -- 16777217 is odd
    obtain ⟨k, rfl⟩ := Int.eq_ofNat_of_zero_le he.le
    obtain ⟨j, rfl⟩ : ∃ j, k = j + 1 := ⟨k - 1, by omega⟩
    rw [zpow_natCast] at h
    have h3 : (16777217 : ℤ) = m * 2 ^ (j + 1) := by exact_mod_cast h
    rw [pow_succ] at h3
    have : (16777217 : ℤ) = 2 * (m * 2 ^ j) := by rw [h3]; ring
    omega

end Verif
