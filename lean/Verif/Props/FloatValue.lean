import Verif.Proofs.FloatValue
import Verif.Props.Channel
import Verif.Props.Engine
import Verif.Props.Types
import Verif.Props.TimeFloat
/-!
# C31, C37, C38, C39, C44, C74 in terms of numbers

The model compares floats by their bit patterns and rounds to a set of rational numbers.  Here both are tied to what IEEE 754 says a bit
pattern means (`Spec/FloatValue`), for all 2^32 and 2^64 patterns.
-/
namespace Verif.Props
open Verif Verif.Spec Verif.FV

/-! ## Comparisons -/

theorem nan32_iff (x : BitVec 32) : fmt32.isNaN x = true ↔ f32Value x = .nan := by
  rw [f32Value_key]
  by_cases h : fmt32.isNaN x = true
  · rw [if_pos h]; exact iff_of_true h rfl
  · rw [if_neg h]; exact iff_of_false h (ofKey_ne_nan _ _ _ _)

theorem nan64_iff (x : BitVec 64) : fmt64.isNaN x = true ↔ f64Value x = .nan := by
  rw [f64Value_key]
  by_cases h : fmt64.isNaN x = true
  · rw [if_pos h]; exact iff_of_true h rfl
  · rw [if_neg h]; exact iff_of_false h (ofKey_ne_nan _ _ _ _)

theorem FLt_nan_left (y : FTime) : ¬ FLt .nan y := by cases y <;> exact id
theorem FLt_nan_right (x : FTime) : ¬ FLt x .nan := by cases x <;> exact id

theorem cmp64 (x y : BitVec 64) (hx : ¬ fmt64.isNaN x = true) (hy : ¬ fmt64.isNaN y = true) :
    (FLt (f64Value x) (f64Value y) ↔ fmt64.key x < fmt64.key y) ∧ (FEq (f64Value x) (f64Value y) ↔ fmt64.key x = fmt64.key y) := by
  rw [f64Value_key, f64Value_key, if_neg hx, if_neg hy]
  exact ofKey_iff (zpow_pos (by norm_num) _) (by norm_num) (key_bound64 x hx).1 (key_bound64 x hx).2 (key_bound64 y hy).1 (key_bound64 y hy).2

theorem cmp32 (x y : BitVec 32) (hx : ¬ fmt32.isNaN x = true) (hy : ¬ fmt32.isNaN y = true) :
    (FLt (f32Value x) (f32Value y) ↔ fmt32.key x < fmt32.key y) ∧ (FEq (f32Value x) (f32Value y) ↔ fmt32.key x = fmt32.key y) := by
  rw [f32Value_key, f32Value_key, if_neg hx, if_neg hy]
  exact ofKey_iff (zpow_pos (by norm_num) _) (by norm_num) (key_bound32 x hx).1 (key_bound32 x hx).2 (key_bound32 y hy).1 (key_bound32 y hy).2

theorem feq32_number (x y : BitVec 32) : fmt32.feq x y = true ↔ FEq (f32Value x) (f32Value y) := by
  unfold FloatFmt.feq
  by_cases hx : fmt32.isNaN x = true
  · rw [hx]; simp [FEq, (nan32_iff x).1 hx]
  · by_cases hy : fmt32.isNaN y = true
    · rw [hy]
      simp only [Bool.not_true, Bool.and_false, Bool.false_and, Bool.false_eq_true, false_iff, FEq]
      rintro ⟨h1, h2⟩
      exact h2 (h1.trans ((nan32_iff y).1 hy))
    · rw [(cmp32 x y hx hy).2]
      simp only [Bool.not_eq_true] at hx hy
      simp [hx, hy]

theorem feq64_number (x y : BitVec 64) : fmt64.feq x y = true ↔ FEq (f64Value x) (f64Value y) := by
  unfold FloatFmt.feq
  by_cases hx : fmt64.isNaN x = true
  · rw [hx]; simp [FEq, (nan64_iff x).1 hx]
  · by_cases hy : fmt64.isNaN y = true
    · rw [hy]
      simp only [Bool.not_true, Bool.and_false, Bool.false_and, Bool.false_eq_true, false_iff, FEq]
      rintro ⟨h1, h2⟩
      exact h2 (h1.trans ((nan64_iff y).1 hy))
    · rw [(cmp64 x y hx hy).2]
      simp only [Bool.not_eq_true] at hx hy
      simp [hx, hy]

/-- **C37** in numbers: the comparison of keyframe times, for every pair of bit patterns, is the comparison of the numbers they stand for,
and undefined exactly when one of them is a NaN. -/
theorem C37_times_are_numbers (x y : BitVec 64) :
    (fmt64.partialCmp x y = some .lt ↔ FLt (f64Value x) (f64Value y)) ∧
    (fmt64.partialCmp x y = some .eq ↔ FEq (f64Value x) (f64Value y)) ∧
    (fmt64.partialCmp x y = some .gt ↔ FLt (f64Value y) (f64Value x)) ∧
    (fmt64.partialCmp x y = none ↔ f64Value x = .nan ∨ f64Value y = .nan) := by
  unfold FloatFmt.partialCmp
  by_cases hx : fmt64.isNaN x = true
  · have hx' := (nan64_iff x).1 hx
    rw [hx, hx']
    simp [FEq, FLt_nan_left, FLt_nan_right]
  · by_cases hy : fmt64.isNaN y = true
    · have hy' := (nan64_iff y).1 hy
      rw [hy, hy']
      simp only [Bool.or_true, if_true, reduceCtorEq, false_iff, true_iff, or_true, FLt_nan_left, FLt_nan_right, not_false_eq_true, true_and, and_true, FEq]
      rintro ⟨h1, h2⟩
      exact h2 h1
    · have h1 := cmp64 x y hx hy
      have h2 := cmp64 y x hy hx
      have nx : f64Value x ≠ .nan := fun h => hx ((nan64_iff x).2 h)
      have ny : f64Value y ≠ .nan := fun h => hy ((nan64_iff y).2 h)
      simp only [Bool.not_eq_true] at hx hy
      rw [hx, hy, h1.1, h1.2, h2.1]
      simp only [Bool.or_self, Bool.false_eq_true, if_false, Option.some.injEq, reduceCtorEq, false_iff, not_or, compare_lt_iff_lt,
        compare_eq_iff_eq, compare_gt_iff_gt, gt_iff_lt, true_and]
      exact ⟨nx, ny⟩

theorem timeLe_number (x y : BitVec 64) : TimeLe x y ↔ FLe (f64Value x) (f64Value y) := by
  unfold TimeLe FLe
  rw [← fmt64_key, ← fmt64_key, ← fmt64_isNaN, ← fmt64_isNaN]
  by_cases hx : fmt64.isNaN x = true
  · simp [hx, (nan64_iff x).1 hx, FEq, FLt_nan_left]
  · by_cases hy : fmt64.isNaN y = true
    · have hy' := (nan64_iff y).1 hy
      have hxy : ¬ FEq (f64Value x) (f64Value y) := by
        rintro ⟨h1, h2⟩
        exact h2 (h1.trans hy')
      rw [hy'] at hxy ⊢
      simp [hy, hxy, FLt_nan_right]
    · rw [(cmp64 x y hx hy).1, (cmp64 x y hx hy).2]
      exact ⟨fun h => lt_or_eq_of_le h.2.2, fun h => ⟨hx, hy, le_of_lt_or_eq h⟩⟩

/-- **C37** in numbers: if no keyframe time is a NaN, `Channel::new` returns the keyframes in the order of their times as numbers. -/
theorem C37_sorted_by_number {α : Type} (impl : SortImpl (Keyframe α)) (ks : List (Keyframe α))
    (h : ∀ k ∈ ks, f64Value k.time ≠ .nan) :
    ∃ out, channelNew impl ks = some out ∧ out.Perm ks ∧ out.Pairwise (fun a b => FLe (f64Value a.time) (f64Value b.time)) := by
  obtain ⟨out, h1, h2, h3⟩ := C37_sorted_permutation impl ks (fun k hk hn => h k hk ((nan64_iff _).1 ((fmt64_isNaN _).2 hn)))
  exact ⟨out, h1, h2, h3.imp fun hab => (timeLe_number _ _).1 hab⟩

/-- **C31** in numbers: an assertion on a live float state succeeds iff the state and the asserted value are the same number. -/
theorem C31_numbers (r : Realm) (i : Idx) :
    (∀ x y : BitVec 32, (r.baseline .fork).state (.prim .f32) i = .ok x →
      ((Engine.applyCollaction r [.state (.assert ⟨.prim .f32, i⟩ (.primitive (.f32 y)))]).2 =
        .accepted [.state (.assert ⟨.prim .f32, i⟩ (.primitive (.f32 y)))] ↔ FEq (f32Value x) (f32Value y))) ∧
    (∀ x y : BitVec 64, (r.baseline .fork).state (.prim .f64) i = .ok x →
      ((Engine.applyCollaction r [.state (.assert ⟨.prim .f64, i⟩ (.primitive (.f64 y)))]).2 =
        .accepted [.state (.assert ⟨.prim .f64, i⟩ (.primitive (.f64 y)))] ↔ FEq (f64Value x) (f64Value y))) := by
  refine ⟨fun x y hx => ?_, fun x y hx => ?_⟩
  · rw [C31_f32 r i x y hx, ← feq32_number, feq32_iff]; rfl
  · rw [C31_f64 r i x y hx, ← feq64_number, feq64_iff]; rfl

/-- **C44** in numbers: two dynamic floats of the same width are equal iff they are the same number. -/
theorem C44_numbers :
    (∀ x y : BitVec 32, (DynProp.primitive (.f32 x)).beq (.primitive (.f32 y)) = true ↔ FEq (f32Value x) (f32Value y)) ∧
    (∀ x y : BitVec 64, (DynProp.primitive (.f64 x)).beq (.primitive (.f64 y)) = true ↔ FEq (f64Value x) (f64Value y)) := by
  refine ⟨fun x y => ?_, fun x y => ?_⟩
  · rw [← feq32_number]; rfl
  · rw [← feq64_number]; rfl

/-! ## Values -/

/-- **C38**, about its model: the set of numbers that `f32` arithmetic rounds to is the set of values of the finite `f32` bit patterns. -/
theorem C38_binary32_numbers (q : ℚ) : F32Repr q ↔ ∃ x : BitVec 32, f32Value x = .fin q := by
  have h := ieee_finite_iff 23 8 (by norm_num) q
  norm_num at h
  unfold F32Repr
  norm_num
  rw [← h]
  constructor
  · rintro ⟨n, hn, hv⟩
    exact ⟨BitVec.ofNat 32 n, by unfold f32Value; rw [BitVec.toNat_ofNat, Nat.mod_eq_of_lt (by norm_num; omega)]; exact hv⟩
  · rintro ⟨x, hv⟩
    exact ⟨x.toNat, by have := x.isLt; norm_num at this; omega, hv⟩

/-- **C74**, about its model: likewise for `f64`. -/
theorem C74_binary64_numbers (q : ℚ) : F64Repr q ↔ ∃ x : BitVec 64, f64Value x = .fin q := by
  have h := ieee_finite_iff 52 11 (by norm_num) q
  norm_num at h
  unfold F64Repr
  norm_num
  rw [← h]
  constructor
  · rintro ⟨n, hn, hv⟩
    exact ⟨BitVec.ofNat 64 n, by unfold f64Value; rw [BitVec.toNat_ofNat, Nat.mod_eq_of_lt (by norm_num; omega)]; exact hv⟩
  · rintro ⟨x, hv⟩
    exact ⟨x.toNat, by have := x.isLt; norm_num at this; omega, hv⟩

/-! ## Jump tweening on bit patterns -/

theorem truncIsZero_iff (q : ℚ) : (FTime.fin q).truncIsZero = true ↔ |q| < 1 := by
  unfold FTime.truncIsZero
  simp only [decide_eq_true_eq]
  by_cases h : 0 ≤ q
  · rw [if_pos h, Int.floor_eq_zero_iff, abs_of_nonneg h]
    exact ⟨fun h => h.2, fun h' => ⟨h, h'⟩⟩
  · have h' : q < 0 := not_le.1 h
    rw [if_neg h, abs_of_neg h', Int.ceil_eq_zero_iff]
    constructor
    · rintro ⟨h1, _⟩; linarith
    · intro h1; exact ⟨by linarith, h'.le⟩

theorem ofKey_trunc {p : Nat} {I one : Int} {u : ℚ} (hu : 0 < u) (h1 : sunits p one * u = 1) (h0 : 0 < one) (hI : one < I) (j : Int) :
    (ofKey p I u j).truncIsZero = true ↔ |j| < one := by
  have neg : ∀ i : Int, sunits p (-i) = -sunits p i := by
    intro i
    unfold sunits
    rcases lt_trichotomy i 0 with h | h | h
    · rw [if_pos (by omega), if_neg (by omega), neg_neg]
    · subst h; simp [units_zero]
    · rw [if_neg (by omega), if_pos (by omega), neg_neg]
  unfold ofKey
  by_cases e1 : j = I
  · rw [if_pos e1]
    refine iff_of_false (fun h => by cases h) ?_
    rw [abs_of_pos (by omega)]; omega
  · rw [if_neg e1]
    by_cases e2 : j = -I
    · rw [if_pos e2]
      refine iff_of_false (fun h => by cases h) ?_
      rw [abs_of_neg (by omega)]; omega
    · rw [if_neg e2, truncIsZero_iff, abs_lt, abs_lt]
      have hm : ∀ a b : Int, sunits p a * u < sunits p b * u ↔ a < b := by
        intro a b
        rw [mul_lt_mul_iff_of_pos_right hu]
        rcases lt_trichotomy a b with h | h | h
        · exact iff_of_true (sunits_strict p h) h
        · subst h; exact iff_of_false (lt_irrefl _) (lt_irrefl _)
        · exact iff_of_false (not_lt.2 (sunits_strict p h).le) (by omega)
      have hn1 : sunits p (-one) * u = -1 := by rw [neg, neg_mul, h1]
      rw [← h1]
      nth_rw 1 [h1]
      rw [← hn1, hm, hm]

/-- **C39** on bit patterns: for every one of the 2^32 `f32` and 2^64 `f64` times, the start value is returned iff the magnitude bits are below
those of 1.0, that is, for every time strictly between -1 and 1; the target is returned for all others, the infinities and NaNs included. -/
theorem C39_jump_bits {α : Type} (a b : α) :
    (∀ x : BitVec 32, jumpEase a b (f32Value x) = if x.toNat % 2 ^ 31 < 0x3f800000 then a else b) ∧
    (∀ x : BitVec 64, jumpEase a b (f64Value x) = if x.toNat % 2 ^ 63 < 0x3ff0000000000000 then a else b) ∧
    (∀ (x : BitVec 32) (q : ℚ), f32Value x = .fin q → (x.toNat % 2 ^ 31 < 0x3f800000 ↔ |q| < 1)) ∧
    (∀ (x : BitVec 64) (q : ℚ), f64Value x = .fin q → (x.toNat % 2 ^ 63 < 0x3ff0000000000000 ↔ |q| < 1)) := by
  have u32 : sunits 23 1065353216 * (2 : ℚ) ^ (-149 : ℤ) = 1 := by
    unfold sunits
    rw [if_pos (by norm_num), show (1065353216 : ℤ).toNat = 127 * 2 ^ 23 + 0 from rfl, units_eq 23 127 0 (by norm_num)]
    norm_num
  have u64 : sunits 52 4607182418800017408 * (2 : ℚ) ^ (-1074 : ℤ) = 1 := by
    unfold sunits
    rw [if_pos (by norm_num), show (4607182418800017408 : ℤ).toNat = 1023 * 2 ^ 52 + 0 from rfl, units_eq 52 1023 0 (by norm_num),
      if_neg (by norm_num)]
    have h : (2 : ℚ) ^ 1074 = 2 ^ 52 * 2 ^ 1022 := by rw [← pow_add]
    rw [zpow_neg, show (1074 : ℤ) = ((1074 : ℕ) : ℤ) from rfl, zpow_natCast, h]
    push_cast
    have h2 : (2 : ℚ) ^ 1022 ≠ 0 := pow_ne_zero _ (by norm_num)
    generalize (2 : ℚ) ^ 1022 = w at *
    field_simp
    norm_num
  have t32 : ∀ x : BitVec 32, (f32Value x).truncIsZero = true ↔ x.toNat % 2 ^ 31 < 0x3f800000 := by
    intro x
    rw [f32Value_key]
    by_cases h : fmt32.isNaN x = true
    · rw [if_pos h]
      refine iff_of_false (fun h => by cases h) ?_
      unfold FloatFmt.isNaN at h
      rw [fmt32_magNat, show fmt32.inf.toNat = 2139095040 from rfl] at h
      simp only [decide_eq_true_eq] at h
      omega
    · rw [if_neg h, ofKey_trunc (zpow_pos (by norm_num) _) u32 (by norm_num) (by norm_num), fmt32_key]
      split
      · rw [abs_neg, Nat.abs_cast]; omega
      · rw [Nat.abs_cast]; omega
  have t64 : ∀ x : BitVec 64, (f64Value x).truncIsZero = true ↔ x.toNat % 2 ^ 63 < 0x3ff0000000000000 := by
    intro x
    rw [f64Value_key]
    by_cases h : fmt64.isNaN x = true
    · rw [if_pos h]
      refine iff_of_false (fun h => by cases h) ?_
      unfold FloatFmt.isNaN at h
      rw [fmt64_magNat, show fmt64.inf.toNat = 9218868437227405312 from rfl] at h
      simp only [decide_eq_true_eq] at h
      omega
    · rw [if_neg h, ofKey_trunc (zpow_pos (by norm_num) _) u64 (by norm_num) (by norm_num), fmt64_key]
      split
      · rw [abs_neg, Nat.abs_cast]; omega
      · rw [Nat.abs_cast]; omega
  refine ⟨fun x => ?_, fun x => ?_, fun x q h => ?_, fun x q h => ?_⟩
  · unfold jumpEase
    by_cases h : x.toNat % 2 ^ 31 < 0x3f800000
    · rw [if_pos ((t32 x).2 h), if_pos h]
    · rw [if_neg (fun e => h ((t32 x).1 e)), if_neg h]
  · unfold jumpEase
    by_cases h : x.toNat % 2 ^ 63 < 0x3ff0000000000000
    · rw [if_pos ((t64 x).2 h), if_pos h]
    · rw [if_neg (fun e => h ((t64 x).1 e)), if_neg h]
  · rw [← t32, h, truncIsZero_iff]
  · rw [← t64, h, truncIsZero_iff]

/-- Values one knows: 1, -2.5, the smallest subnormal, minus zero, infinities, a NaN. -/
example : f32Value 0x3f800000#32 = .fin 1 ∧ f32Value 0xc0200000#32 = .fin (-5 / 2) ∧ f32Value 1#32 = .fin (1 / 2 ^ 149) ∧
    f32Value 0x80000000#32 = .fin 0 ∧ f32Value 0xff800000#32 = .inf true ∧ f32Value 0x7fc00000#32 = .nan ∧
    f64Value 0x3fb999999999999a#64 = .fin (3602879701896397 / 36028797018963968) := by
  refine ⟨?_, ?_, ?_, ?_, ?_, ?_, ?_⟩ <;> norm_num [f32Value, f64Value, ieeeValue]

end Verif.Props
