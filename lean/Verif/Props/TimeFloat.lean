import Verif.Proofs.TimeFloat
/-! # C74, C75: floating-point views of scales and times

Specification: a float accessor is right if it returns a binary32 (binary64) number nearest to the exact rational value. -/
namespace Verif.Props
open Verif

/-- `x` is a binary32 number nearest to `q`. -/
def NearestF32 (x q : ℚ) : Prop := F32Repr x ∧ ∀ y : ℚ, F32Repr y → |x - q| ≤ |y - q|

private theorem i32_abs (t : BitVec 32) : |t.toInt| ≤ 2 ^ 31 := by
  have := i32_bounds t
  simp only [i32Min, i32Max] at this
  rw [abs_le]; omega

private theorem denom : (TimeScale.denominator.toNat : ℚ) = 1024 := by
  have : TimeScale.denominator.toNat = 1024 := by decide
  rw [this]; norm_num

/-- **C74**: `as_f64` is exactly the scale, numerator over 1024, for every scale, so different scales give different
numbers. -/
theorem C74_as_f64_exact (R : F64Round) (s : TimeScale) : s.asF64 R = (s.toInt : ℚ) / 1024 := by
  have hs := i32_abs s
  have h1 : F64Repr (s.toInt : ℚ) := ⟨s.toInt, 0, hs.trans_lt (by norm_num), by norm_num, by norm_num, by simp⟩
  have h2 : F64Repr (1024 : ℚ) := ⟨1024, 0, by norm_num, by norm_num, by norm_num, by norm_num⟩
  have h3 : F64Repr ((s.toInt : ℚ) / 1024) := ⟨s.toInt, -10, hs.trans_lt (by norm_num), by norm_num, by norm_num, by
    rw [zpow_neg]; norm_num; ring⟩
  unfold TimeScale.asF64
  rw [denom, R.exact h1, R.exact h2, R.exact h3]

/-- **C74**: different scales have different `as_f64`, and a larger scale a larger one. -/
theorem C74_as_f64_order (R : F64Round) (s t : TimeScale) :
    (s.asF64 R = t.asF64 R ↔ s = t) ∧ (s.asF64 R ≤ t.asF64 R ↔ s.toInt ≤ t.toInt) := by
  simp only [C74_as_f64_exact]
  constructor
  · constructor
    · intro h
      have h' : (s.toInt : ℚ) = t.toInt := by linarith
      exact BitVec.eq_of_toInt_eq (by exact_mod_cast h')
    · rintro rfl; rfl
  · rw [div_le_div_iff_of_pos_right (by norm_num)]
    exact_mod_cast Iff.rfl

/-- **C74**: `as_f32` is a binary32 number nearest to the scale (two roundings in the code, but they do not compound); it
is exact for numerators of at most 24 bits, and order is never reversed. -/
theorem C74_as_f32_nearest (R : F32Round) (s : TimeScale) :
    NearestF32 (s.asF32 R) ((s.toInt : ℚ) / 1024) ∧
    (|s.toInt| ≤ 2 ^ 24 → s.asF32 R = (s.toInt : ℚ) / 1024) ∧
    ∀ t : TimeScale, s.toInt ≤ t.toInt → s.asF32 R ≤ t.asF32 R := by
  have key : ∀ u : TimeScale, u.asF32 R = R.rnd (u.toInt : ℚ) / 1024 := fun u => by
    unfold TimeScale.asF32; rw [denom, R.div_exact]
  simp only [key]
  refine ⟨⟨R.div_repr _, fun y hy => R.div_nearest _ (i32_abs s) y hy⟩, ?_, ?_⟩
  · intro h; rw [R.exact (f32Repr_int _ h)]
  · intro t h
    exact div_le_div_of_nonneg_right (R.mono (by exact_mod_cast h)) (by norm_num)

/-- **C74**: the default scale is exactly 1, in both precisions; halving and doubling are exact. -/
theorem C74_default (R : F32Round) (R' : F64Round) :
    TimeScale.default.asF32 R = 1 ∧ TimeScale.default.asF64 R' = 1 := by
  have h : TimeScale.default.toInt = 1024 := by decide
  rw [(C74_as_f32_nearest R _).2.1 (by rw [h]; norm_num), C74_as_f64_exact, h]
  norm_num

/-- **C74**: the widening accessors keep the number. -/
theorem C74_widening (t : Ticks) (s : TimeScale) :
    t.asMillisI64.toInt = t.asMillis ∧ s.numeratorAsI64.toInt = s.toInt := by
  unfold Ticks.asMillisI64 TimeScale.numeratorAsI64 Ticks.asMillis
  exact ⟨BitVec.toInt_signExtend_of_le (by decide), BitVec.toInt_signExtend_of_le (by decide)⟩

/-- Both rounding functions exist, and -1.5 is a scale that as_f32 renders exactly. -/
example : ∃ (R : F32Round) (R' : F64Round), TimeScale.asF32 R (BitVec.ofInt 32 (-1536)) = -3 / 2 ∧
    TimeScale.asF64 R' (BitVec.ofInt 32 (-1536)) = -3 / 2 := by
  obtain ⟨R⟩ := exists_F32Round
  obtain ⟨R'⟩ := exists_F64Round
  have h : (BitVec.ofInt 32 (-1536)).toInt = -1536 := by decide
  refine ⟨R, R', ?_, ?_⟩
  · rw [(C74_as_f32_nearest R _).2.1 (by rw [h]; norm_num), h]; norm_num
  · rw [C74_as_f64_exact, h]; norm_num

/-- **C75, false of the code**, for *every* time but zero and every rounding: `as_secs_f32` is not the nearest binary32
number to the number of seconds (it divides by 1024, not by `ticks_per_second`). -/
theorem C75_negation_not_seconds (R : F32Round) (t : Ticks) (ht : t ≠ 0#32) :
    ¬ NearestF32 (t.asSecsF32 R) ((t.asMillis : ℚ) / Ticks.ticksPerSecond) := by
  rintro ⟨_, h⟩
  have hn0 : t.toInt ≠ 0 := fun e => ht (BitVec.eq_of_toInt_eq (by rw [e]; rfl))
  have hb := i32_abs t
  unfold Ticks.asSecsF32 Ticks.asMillis Ticks.ticksPerSecond at h
  rw [R.div_exact] at h
  generalize t.toInt = n at *
  have hn1 : (1 : ℚ) ≤ |(n : ℚ)| := by exact_mod_cast Int.one_le_abs hn0
  have hn2 : |(n : ℚ)| ≤ 2 ^ 31 := by exact_mod_cast hb
  have e100 : (2 : ℚ) ^ (100 : ℤ) = 1267650600228229401496703205376 := by norm_num
  have em100 : (2 : ℚ) ^ (-100 : ℤ) ≤ 1 / 1000 := by
    rw [zpow_neg, e100]; norm_num
  have h1 : |R.rnd n - n| ≤ |(n : ℚ)| / 2 ^ 23 :=
    R.rel_err (em100.trans (by linarith)) (by rw [e100]; norm_num at hn2; linarith)
  have ha : |(n : ℚ) / 1000| = |(n : ℚ)| / 1000 := by rw [abs_div]; norm_num
  have h2 : |R.rnd (n / 1000) - n / 1000| ≤ |(n : ℚ) / 1000| / 2 ^ 23 :=
    R.rel_err (em100.trans (by rw [ha]; linarith)) (by rw [ha, e100]; norm_num at hn2; linarith)
  have h3 := h _ (R.repr (n / 1000))
  push_cast at h3
  have h4 : |R.rnd n / 1024 - n / 1024| ≤ |(n : ℚ)| / 2 ^ 23 / 1024 := by
    rw [← sub_div, abs_div, abs_of_pos (by norm_num : (0 : ℚ) < 1024)]
    exact div_le_div_of_nonneg_right h1 (by norm_num)
  have h5 : |(n : ℚ) / 1000 - n / 1024| = |(n : ℚ)| * (3 / 128000) := by
    rw [show (n : ℚ) / 1000 - n / 1024 = n * (3 / 128000) by ring, abs_mul]; norm_num
  have h6 : |(n : ℚ) / 1000 - n / 1024| ≤ |R.rnd n / 1024 - n / 1000| + |R.rnd n / 1024 - n / 1024| := by
    have := abs_sub_le ((n : ℚ) / 1000) (R.rnd n / 1024) (n / 1024)
    rwa [abs_sub_comm ((n : ℚ) / 1000) (R.rnd n / 1024)] at this
  rw [ha] at h2
  norm_num at h2 h4 h5 h6 h3
  linarith

/-- A time that is not zero, and a rounding. -/
example : ∃ R : F32Round, ¬ NearestF32 (Ticks.asSecsF32 R (Ticks.new 1000#32)) (Ticks.asMillis (Ticks.new 1000#32) / Ticks.ticksPerSecond) :=
  exists_F32Round.elim fun R => ⟨R, C75_negation_not_seconds R _ (by decide)⟩

/-- **C75, partial**: what `as_secs_f32` returns instead: the binary32 number nearest to ticks over 1024, never in reverse
order, with the sign of the time; it agrees with `as_secs` where that is exact. -/
theorem C75_as_secs_f32_partial (R : F32Round) (t : Ticks) :
    NearestF32 (t.asSecsF32 R) ((t.asMillis : ℚ) / 1024) ∧
    (∀ u : Ticks, t.asMillis ≤ u.asMillis → t.asSecsF32 R ≤ u.asSecsF32 R) ∧
    (0 < t.asSecsF32 R ↔ 0 < t.asMillis) ∧ (t.asSecsF32 R = 0 ↔ t.asMillis = 0) ∧
    (|t.asMillis| ≤ 2 ^ 24 → ⌊t.asSecsF32 R⌋ = t.asSecs.toInt) := by
  have key : ∀ u : Ticks, u.asSecsF32 R = R.rnd (u.toInt : ℚ) / 1024 := fun u => by
    unfold Ticks.asSecsF32; rw [R.div_exact]
  have hm : ∀ a b : ℤ, a ≤ b → R.rnd (a : ℚ) / 1024 ≤ R.rnd (b : ℚ) / 1024 := fun a b h =>
    div_le_div_of_nonneg_right (R.mono (by exact_mod_cast h)) (by norm_num)
  have h0 : R.rnd ((0 : ℤ) : ℚ) = 0 := R.exact (by simpa using F32Repr.zero)
  have h1 : ∀ n : ℤ, n ≠ 0 → R.rnd (n : ℚ) ≠ 0 := fun n hn e => by
    have := R.one_le hn; rw [e] at this; norm_num at this
  simp only [key]
  unfold Ticks.asMillis
  refine ⟨⟨R.div_repr _, fun y hy => R.div_nearest _ (i32_abs t) y hy⟩, fun u h => hm _ _ h, ?_, ?_, ?_⟩
  · constructor
    · intro h
      by_contra hc
      have := hm t.toInt 0 (by omega)
      rw [h0] at this; norm_num at this; linarith
    · intro h
      have := R.mono (x := 0) (y := (t.toInt : ℚ)) (by exact_mod_cast h.le)
      rw [show (0 : ℚ) = ((0 : ℤ) : ℚ) by norm_num, h0] at this
      have := lt_of_le_of_ne this (Ne.symm (h1 _ (by omega)))
      linarith
  · constructor
    · intro h
      by_contra hc
      exact h1 _ hc (by linarith)
    · intro h; rw [h, h0]; norm_num
  · intro h
    rw [R.exact (f32Repr_int _ h), Ticks.toInt_asSecs]
    rw [show (1024 : ℚ) = ((1024 : ℕ) : ℚ) by norm_num, Rat.floor_intCast_div_natCast]
    rfl

example : (Ticks.new 5000#32).asMillis ≤ 2 ^ 24 ∧ (Ticks.asSecs (Ticks.new 5000#32)).toInt = 4 := by decide

end Verif.Props
