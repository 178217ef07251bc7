import Verif.Model.TimeFloat
import Verif.Proofs.Channel
import Verif.Proofs.Time
import Mathlib.Data.Int.Log
import Mathlib.Tactic.FieldSimp
/-! # Rounding lemmas for the float views of time -/
namespace Verif

theorem F64Round.exact (R : F64Round) {x : ℚ} (h : F64Repr x) : R.rnd x = x := by
  have := R.nearest x x h
  simp only [sub_self, abs_zero] at this
  have h0 : R.rnd x - x = 0 := abs_eq_zero.1 (le_antisymm this (abs_nonneg _))
  linarith

/-- A round-to-nearest function to binary64 exists. -/
theorem exists_F64Round : Nonempty F64Round := by
  classical
  obtain ⟨S, hS⟩ : ∃ S : Finset ℚ, ∀ y : ℚ, y ∈ S ↔ F64Repr y := by
    refine ⟨((Finset.Ioo (-(2 ^ 53) : ℤ) (2 ^ 53)) ×ˢ (Finset.Icc (-1074 : ℤ) 971)).image
      (fun p => (p.1 : ℚ) * (2 : ℚ) ^ p.2), fun y => ?_⟩
    simp only [Finset.mem_image, Finset.mem_product, Finset.mem_Icc, Finset.mem_Ioo, F64Repr, abs_lt]
    constructor
    · rintro ⟨⟨m, e⟩, ⟨⟨h1, h2⟩, h3, h4⟩, rfl⟩; exact ⟨m, e, ⟨h1, h2⟩, h3, h4, rfl⟩
    · rintro ⟨m, e, ⟨h1, h2⟩, h3, h4, rfl⟩; exact ⟨(m, e), ⟨⟨h1, h2⟩, h3, h4⟩, rfl⟩
  have hne : S.Nonempty := ⟨0, (hS 0).2 ⟨0, 0, by norm_num, by norm_num, by norm_num, by norm_num⟩⟩
  choose f hf1 hf2 using fun x : ℚ => Finset.exists_min_image S (fun y => |y - x|) hne
  exact ⟨⟨f, fun x => (hS _).1 (hf1 x), fun x y hy => hf2 x y ((hS y).2 hy)⟩⟩

/-- A non-zero binary32 number of absolute value at least one has an exponent of at least -24. -/
theorem F32Repr.exp {x : ℚ} (h : F32Repr x) (h1 : 1 ≤ |x|) :
    ∃ m e : ℤ, |m| < 2 ^ 24 ∧ -24 ≤ e ∧ e ≤ 104 ∧ x = m * (2 : ℚ) ^ e := by
  obtain ⟨m, e, hm, he, he', rfl⟩ := h
  refine ⟨m, e, hm, ?_, he', rfl⟩
  by_contra hc
  have he2 : e ≤ -25 := by omega
  have hp : (2 : ℚ) ^ e ≤ (2 : ℚ) ^ (-25 : ℤ) := zpow_le_zpow_right₀ (by norm_num) he2
  have hpos : (0 : ℚ) < (2 : ℚ) ^ e := zpow_pos (by norm_num) e
  rw [abs_mul, abs_of_pos hpos] at h1
  have hmq : (|(m : ℚ)|) ≤ 2 ^ 24 := by exact_mod_cast hm.le
  have : |(m : ℚ)| * (2 : ℚ) ^ e ≤ 2 ^ 24 * (2 : ℚ) ^ (-25 : ℤ) :=
    mul_le_mul hmq hp hpos.le (by norm_num)
  norm_num at this
  linarith

theorem F32Repr.zero : F32Repr 0 := ⟨0, 0, by norm_num, by norm_num, by norm_num, by norm_num⟩

theorem F32Round.err_le_self (R : F32Round) (x : ℚ) : |R.rnd x - x| ≤ |x| := by
  simpa using R.nearest x 0 F32Repr.zero

/-- Rounding an integer does not bring a non-zero one below one. -/
theorem F32Round.one_le (R : F32Round) {n : ℤ} (hn : n ≠ 0) : 1 ≤ |R.rnd n| := by
  have h1 : F32Repr 1 := by simpa using f32Repr_int 1 (by norm_num)
  have hm1 : F32Repr (-1) := by simpa using f32Repr_int (-1) (by norm_num)
  rcases lt_or_gt_of_ne hn with h | h
  · have : R.rnd n ≤ R.rnd (-1) := R.mono (by exact_mod_cast (by omega : n ≤ -1))
    rw [R.exact hm1] at this
    rw [abs_of_neg (by linarith)]; linarith
  · have : R.rnd 1 ≤ R.rnd n := R.mono (by exact_mod_cast (by omega : 1 ≤ n))
    rw [R.exact h1] at this
    rw [abs_of_pos (by linarith)]; exact this

/-- The rounded integer divided by 1024 is representable. -/
theorem F32Round.div_repr (R : F32Round) (n : ℤ) : F32Repr (R.rnd n / 1024) := by
  by_cases hn : n = 0
  · subst hn
    rw [show ((0 : ℤ) : ℚ) = 0 by norm_num, R.exact F32Repr.zero]
    simpa using F32Repr.zero
  · obtain ⟨m, e, hm, he, he', hx⟩ := (R.repr n).exp (R.one_le hn)
    refine ⟨m, e - 10, hm, by omega, by omega, ?_⟩
    rw [hx, zpow_sub₀ (by norm_num : (2 : ℚ) ≠ 0)]
    norm_num
    ring

theorem F32Repr.r1024 : F32Repr 1024 := by simpa using f32Repr_int 1024 (by norm_num)

/-- Dividing after rounding is rounding after dividing. -/
theorem F32Round.div_exact (R : F32Round) (n : ℤ) : R.rnd (R.rnd n / R.rnd 1024) = R.rnd n / 1024 := by
  rw [R.exact F32Repr.r1024, R.exact (R.div_repr n)]

/-- … and the result is a nearest binary32 number. -/
theorem F32Round.div_nearest (R : F32Round) (n : ℤ) (hn : |n| ≤ 2 ^ 31) (y : ℚ) (hy : F32Repr y) :
    |R.rnd n / 1024 - n / 1024| ≤ |y - n / 1024| := by
  have e1 : |R.rnd n / 1024 - n / 1024| = |R.rnd n - n| / 1024 := by
    rw [← sub_div, abs_div]; norm_num
  have e2 : |y - n / 1024| = |y * 1024 - n| / 1024 := by
    rw [show y - n / 1024 = (y * 1024 - n) / 1024 by ring, abs_div]; norm_num
  rw [e1, e2]
  apply div_le_div_of_nonneg_right _ (by norm_num)
  obtain ⟨m, e, hm, he, he', rfl⟩ := hy
  by_cases hc : e ≤ 93
  · apply R.nearest
    refine ⟨m, e + 10, hm, by omega, by omega, ?_⟩
    rw [zpow_add₀ (by norm_num : (2 : ℚ) ≠ 0)]
    norm_num
    ring
  · by_cases hm0 : m = 0
    · subst hm0; simpa using R.err_le_self n
    · have hp : (2 : ℚ) ^ (40 : ℤ) ≤ (2 : ℚ) ^ e := zpow_le_zpow_right₀ (by norm_num) (by omega)
      have hm1 : (1 : ℚ) ≤ |(m : ℚ)| := by exact_mod_cast Int.one_le_abs hm0
      have hpos : (0 : ℚ) < (2 : ℚ) ^ e := zpow_pos (by norm_num) e
      have h1 : (2 : ℚ) ^ (40 : ℤ) ≤ |(m : ℚ) * (2 : ℚ) ^ e * 1024| := by
        rw [abs_mul, abs_mul, abs_of_pos hpos, abs_of_pos (by norm_num : (0 : ℚ) < 1024)]
        nlinarith
      have hnq : |(n : ℚ)| ≤ 2 ^ 31 := by exact_mod_cast hn
      have h2 := abs_sub_abs_le_abs_sub ((m : ℚ) * (2 : ℚ) ^ e * 1024) n
      have h3 := R.err_le_self n
      have h4 : (2 : ℚ) ^ (40 : ℤ) = 1099511627776 := by norm_num
      rw [h4] at h1
      norm_num at hnq
      linarith

/-- Relative error of rounding in the middle of the range. -/
theorem F32Round.rel_err (R : F32Round) {x : ℚ} (hlo : (2 : ℚ) ^ (-100 : ℤ) ≤ |x|) (hhi : |x| < (2 : ℚ) ^ (100 : ℤ)) :
    |R.rnd x - x| ≤ |x| / 2 ^ 23 := by
  have hx0 : 0 < |x| := lt_of_lt_of_le (zpow_pos (by norm_num) _) hlo
  have l1 : ((2 : ℕ) : ℚ) ^ Int.log 2 |x| ≤ |x| := Int.zpow_log_le_self (by norm_num) hx0
  have l2 : |x| < ((2 : ℕ) : ℚ) ^ (Int.log 2 |x| + 1) := Int.lt_zpow_succ_log_self (by norm_num) _
  generalize Int.log 2 |x| = k at l1 l2
  push_cast at l1 l2
  have hk1 : -101 < k := by
    by_contra hc
    have : (2 : ℚ) ^ (k + 1) ≤ (2 : ℚ) ^ (-100 : ℤ) := zpow_le_zpow_right₀ (by norm_num) (by omega)
    linarith
  have hk2 : k < 100 := by
    by_contra hc
    have : (2 : ℚ) ^ (100 : ℤ) ≤ (2 : ℚ) ^ k := zpow_le_zpow_right₀ (by norm_num) (by omega)
    linarith
  have hu : (0 : ℚ) < (2 : ℚ) ^ (k - 23) := zpow_pos (by norm_num) _
  have hk : (2 : ℚ) ^ k = 2 ^ 23 * (2 : ℚ) ^ (k - 23) := by
    rw [zpow_sub₀ (by norm_num : (2 : ℚ) ≠ 0)]; norm_num; ring
  have hk' : (2 : ℚ) ^ (k + 1) = 2 ^ 24 * (2 : ℚ) ^ (k - 23) := by
    rw [zpow_add₀ (by norm_num : (2 : ℚ) ≠ 0), hk]; norm_num; ring
  have hf1 := Int.floor_le (x / (2 : ℚ) ^ (k - 23))
  have hf2 := Int.lt_floor_add_one (x / (2 : ℚ) ^ (k - 23))
  have hxu : |x / (2 : ℚ) ^ (k - 23)| < 2 ^ 24 := by
    rw [abs_div, abs_of_pos hu, div_lt_iff₀ hu]; linarith
  rw [abs_lt] at hxu
  have hrepr : F32Repr (⌊x / (2 : ℚ) ^ (k - 23)⌋ * (2 : ℚ) ^ (k - 23)) := by
    refine F32Repr.of_le _ (k - 23) ?_ (by omega) (by omega)
    rw [abs_le]
    constructor
    · apply Int.le_floor.2
      push_cast; linarith [hxu.1]
    · have : (⌊x / (2 : ℚ) ^ (k - 23)⌋ : ℚ) ≤ 2 ^ 24 := by linarith [hxu.2]
      exact_mod_cast this
  refine (R.nearest x _ hrepr).trans ?_
  have hx : x = x / (2 : ℚ) ^ (k - 23) * (2 : ℚ) ^ (k - 23) := by field_simp
  have h1 : |⌊x / (2 : ℚ) ^ (k - 23)⌋ * (2 : ℚ) ^ (k - 23) - x| ≤ (2 : ℚ) ^ (k - 23) := by
    generalize x / (2 : ℚ) ^ (k - 23) = q at *
    generalize (2 : ℚ) ^ (k - 23) = u at *
    rw [hx, abs_le]
    constructor <;> nlinarith
  refine h1.trans ?_
  rw [le_div_iff₀ (by norm_num)]
  linarith

end Verif
