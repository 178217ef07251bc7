import Verif.Proofs.Time
/-! # C32–C36: tick arithmetic and time warps

Specification: integer arithmetic on the signed values, `saturate` to the i32 range. -/
namespace Verif.Props
open Verif

/-- Specification: the nearest integer in `-2^31 .. 2^31-1`. -/
def saturate (x : Int) : Int := max (-2147483648) (min 2147483647 x)

theorem saturate_eq (x : Int) : saturate x = clamp32 x := by
  unfold saturate clamp32 i32Min i32Max; (repeat' split) <;> omega

/-- C32: addition and subtraction of ticks are exact integer arithmetic, saturated. -/
theorem C32_add_sub_saturate (a b : Ticks) :
    (Ticks.add a b).asMillis = saturate (a.asMillis + b.asMillis) ∧
    (Ticks.sub a b).asMillis = saturate (a.asMillis - b.asMillis) := by
  simp only [saturate_eq]
  exact ⟨Ticks.toInt_add a b, Ticks.toInt_sub a b⟩

/-- C32: they agree with exact arithmetic exactly when the exact result is representable. -/
theorem C32_exact_iff_fits (a b : Ticks) :
    ((Ticks.add a b).asMillis = a.asMillis + b.asMillis ↔
      -2147483648 ≤ a.asMillis + b.asMillis ∧ a.asMillis + b.asMillis ≤ 2147483647) ∧
    ((Ticks.sub a b).asMillis = a.asMillis - b.asMillis ↔
      -2147483648 ≤ a.asMillis - b.asMillis ∧ a.asMillis - b.asMillis ≤ 2147483647) := by
  rw [(C32_add_sub_saturate a b).1, (C32_add_sub_saturate a b).2]
  unfold saturate; omega

/-- C32: addition is commutative and 0 is neutral on both sides; subtracting 0 does nothing and
`a - a = 0`. -/
theorem C32_add_comm_zero (a b : Ticks) :
    Ticks.add a b = Ticks.add b a ∧ Ticks.add a (Ticks.new 0#32) = a ∧
    Ticks.add (Ticks.new 0#32) a = a ∧ Ticks.sub a (Ticks.new 0#32) = a ∧
    Ticks.sub a a = Ticks.new 0#32 := by
  have hb := i32_bounds a
  refine ⟨?_, ?_, ?_, ?_, ?_⟩ <;> apply BitVec.eq_of_toInt_eq <;>
    simp only [Ticks.toInt_add, Ticks.toInt_sub, Ticks.new, BitVec.toInt_zero]
  · rw [Int.add_comm]
  · rw [Int.add_zero]; exact clamp32_of_fits hb.1 hb.2
  · rw [Int.zero_add]; exact clamp32_of_fits hb.1 hb.2
  · rw [Int.sub_zero]; exact clamp32_of_fits hb.1 hb.2
  · rw [Int.sub_self]; decide

example : (Ticks.add 0x7fffffff#32 1#32).asMillis = 2147483647 ∧
    (Ticks.sub 0x80000000#32 1#32).asMillis = -2147483648 ∧
    (Ticks.sub 5#32 12#32).asMillis = -7 := by decide

/-- C33: the default warp maps every channel time to itself. -/
theorem C33_default_warp_identity (t : ChannelTime) : TimeWarp.default.apply t = t := by
  apply BitVec.eq_of_toInt_eq
  have hb := i32_bounds t
  rw [TimeWarp.toInt_apply]
  have h1 : TimeWarp.default.offset.toInt = 0 := by decide
  have h2 : TimeWarp.default.scale.toInt = 1024 := by decide
  rw [h1, h2, Int.sub_zero, clamp32_of_fits hb.1 hb.2, Int.mul_ediv_cancel _ (by decide)]
  exact bmod32_of_fits hb.1 hb.2

/-- Specification of warping: `floor((parent - offset) * scale / 1024)` over the integers (`/` on `Int`
rounds towards minus infinity for a positive divisor). -/
def exactWarp (w : TimeWarp) (p : ChannelTime) : Int :=
  (p.asMillis - w.offset.asMillis) * w.scale.toInt / 1024

/-- A value of the i32 range. -/
def FitsI32 (x : Int) : Prop := -2147483648 ≤ x ∧ x ≤ 2147483647

instance (x : Int) : Decidable (FitsI32 x) := inferInstanceAs (Decidable (_ ∧ _))

/-- C34 (full claim, false of the code): a time one scale-doubling away from the maximum wraps to a
negative number instead of saturating. -/
theorem C34_negation_wraps :
    ¬ ∀ (w : TimeWarp) (p : ChannelTime), (w.apply p).asMillis = saturate (exactWarp w p) := by
  intro h
  exact absurd (h ⟨0#32, 2048#32⟩ 0x40000000#32) (by decide)

/-- C34 (full claim, false of the code): even when the exact result fits, a difference that does not
fit is saturated *before* scaling, so the result is off. -/
theorem C34_negation_presaturated :
    ¬ ∀ (w : TimeWarp) (p : ChannelTime), FitsI32 (exactWarp w p) →
      (w.apply p).asMillis = exactWarp w p := by
  intro h
  exact absurd (h ⟨(-1 : Int) |> BitVec.ofInt 32, 1#32⟩ 0x7fffffff#32 (by decide)) (by decide)

/-- C34, partial: the warp is exact whenever the difference and the exact result both fit in an i32.
Missing (and false): saturation otherwise. -/
theorem C34_warp_exact_partial (w : TimeWarp) (p : ChannelTime)
    (hd : FitsI32 (p.asMillis - w.offset.asMillis)) (hr : FitsI32 (exactWarp w p)) :
    (w.apply p).asMillis = exactWarp w p := by
  unfold exactWarp FitsI32 Ticks.asMillis at *
  rw [TimeWarp.toInt_apply, clamp32_of_fits (x := p.toInt - w.offset.toInt) (by simp only [i32Min]; omega) (by simp only [i32Max]; omega)]
  exact bmod32_of_fits (by simp only [i32Min]; omega) (by simp only [i32Max]; omega)

/-- C34: what the code computes for every input: saturate the difference, floor, then wrap modulo
2^32 — so a result is wrong by a multiple of 2^32 only. -/
theorem C34_warp_total_partial (w : TimeWarp) (p : ChannelTime) :
    FitsI32 (w.apply p).asMillis ∧
    ∃ k : Int, (w.apply p).asMillis =
      saturate (p.asMillis - w.offset.asMillis) * w.scale.toInt / 1024 + k * 4294967296 := by
  refine ⟨?_, ?_⟩
  · have := i32_bounds (w.apply p)
    unfold FitsI32 Ticks.asMillis; simp only [i32Min, i32Max] at this; omega
  · unfold Ticks.asMillis
    rw [TimeWarp.toInt_apply, saturate_eq]
    generalize (clamp32 (p.toInt - w.offset.toInt) * w.scale.toInt / 1024) = x
    refine ⟨(x.bmod (2 ^ 32) - x) / 4294967296, ?_⟩
    have := Int.bmod_def x (2 ^ 32)
    rw [this]
    have hdm := Int.emod_add_mul_ediv x 4294967296
    simp only [Nat.reducePow]
    split <;> omega

example : FitsI32 (Ticks.asMillis 4096#32 - Ticks.asMillis 5000#32) ∧
    exactWarp ⟨5000#32, BitVec.ofInt 32 (-512)⟩ 4096#32 = 452 ∧
    (TimeWarp.apply ⟨5000#32, BitVec.ofInt 32 (-512)⟩ 4096#32).asMillis = 452 := by decide

/-- C35 (full claim, false of the code): with a fast-forward scale, time runs backwards. -/
theorem C35_negation_runs_backwards :
    ¬ ∀ (w : TimeWarp) (p q : ChannelTime), 0 ≤ w.scale.toInt → p.asMillis ≤ q.asMillis →
      (w.apply p).asMillis ≤ (w.apply q).asMillis := by
  intro h
  exact absurd (h ⟨0#32, 2048#32⟩ 0#32 0x40000000#32 (by decide) (by decide)) (by decide)

/-- What the code computes, as long as it does not wrap: floor of the scaled *saturated* difference. -/
theorem warp_of_fits (w : TimeWarp) (p : ChannelTime)
    (h : FitsI32 (saturate (p.asMillis - w.offset.asMillis) * w.scale.toInt / 1024)) :
    (w.apply p).asMillis = saturate (p.asMillis - w.offset.asMillis) * w.scale.toInt / 1024 := by
  unfold Ticks.asMillis FitsI32 at *
  rw [TimeWarp.toInt_apply, ← saturate_eq]
  exact bmod32_of_fits (by simp only [i32Min]; omega) (by simp only [i32Max]; omega)

theorem saturate_mono {x y : Int} (h : x ≤ y) : saturate x ≤ saturate y := by unfold saturate; omega

/-- C35, partial: with a non-negative scale order is preserved between any two parent times whose
warped values are representable, and reversed with a non-positive scale. -/
theorem C35_order_partial (w : TimeWarp) (p q : ChannelTime) (hpq : p.asMillis ≤ q.asMillis)
    (hp : FitsI32 (saturate (p.asMillis - w.offset.asMillis) * w.scale.toInt / 1024))
    (hq : FitsI32 (saturate (q.asMillis - w.offset.asMillis) * w.scale.toInt / 1024)) :
    (0 ≤ w.scale.toInt → (w.apply p).asMillis ≤ (w.apply q).asMillis) ∧
    (w.scale.toInt ≤ 0 → (w.apply q).asMillis ≤ (w.apply p).asMillis) := by
  rw [warp_of_fits w p hp, warp_of_fits w q hq]
  have hm : saturate (p.asMillis - w.offset.asMillis) ≤ saturate (q.asMillis - w.offset.asMillis) :=
    saturate_mono (by omega)
  constructor
  · intro hs
    exact Int.ediv_le_ediv (by decide) (Int.mul_le_mul_of_nonneg_right hm hs)
  · intro hs
    exact Int.ediv_le_ediv (by decide) (Int.mul_le_mul_of_nonpos_right hm hs)

theorem scaled_fits {d s : Int} (hd : FitsI32 d) (h1 : -1023 ≤ s) (h2 : s ≤ 1024) :
    FitsI32 (d * s / 1024) := by
  unfold FitsI32 at *
  have hx : d * s ≤ 2147483647 * 1024 + 1023 ∧ -2147483648 * 1024 ≤ d * s := by
    rcases Int.le_total 0 s with hs | hs
    · have a1 := Int.mul_le_mul_of_nonneg_right hd.2 hs
      have a2 := Int.mul_le_mul_of_nonneg_right hd.1 hs
      omega
    · have a1 := Int.mul_le_mul_of_nonpos_right hd.2 hs
      have a2 := Int.mul_le_mul_of_nonpos_right hd.1 hs
      omega
  omega

/-- C35, partial (no hypothesis on the times): with a scale that does not speed time up
(0 to 1×) order is preserved for *all* parent times and offsets; with a reversing scale slower than
-1× it is reversed for all. -/
theorem C35_order_slow_scales_partial (w : TimeWarp) (p q : ChannelTime)
    (hpq : p.asMillis ≤ q.asMillis) :
    (0 ≤ w.scale.toInt → w.scale.toInt ≤ 1024 → (w.apply p).asMillis ≤ (w.apply q).asMillis) ∧
    (-1024 < w.scale.toInt → w.scale.toInt ≤ 0 → (w.apply q).asMillis ≤ (w.apply p).asMillis) := by
  have hsat : ∀ x : Int, FitsI32 (saturate x) := by intro x; unfold FitsI32 saturate; omega
  constructor
  · intro h0 h1
    exact (C35_order_partial w p q hpq (scaled_fits (hsat _) (by omega) h1)
      (scaled_fits (hsat _) (by omega) h1)).1 h0
  · intro h0 h1
    exact (C35_order_partial w p q hpq (scaled_fits (hsat _) (by omega) (by omega))
      (scaled_fits (hsat _) (by omega) (by omega))).2 h1

/-- The parent time `d` after the offset, if there is one. -/
def parentAt (w : TimeWarp) (d : Int) : ChannelTime := BitVec.ofInt 32 (w.offset.asMillis + d)

theorem parentAt_millis {w : TimeWarp} {d : Int} (h : FitsI32 (w.offset.asMillis + d)) :
    (parentAt w d).asMillis = w.offset.asMillis + d := by
  unfold parentAt Ticks.asMillis at *
  unfold FitsI32 at h
  rw [BitVec.toInt_ofInt]
  exact bmod32_of_fits (by simp only [i32Min]; omega) (by simp only [i32Max]; omega)

/-- The warp at a parent time that is `d` after the offset, when the exact value is within one range of the `i32`. -/
theorem warp_at {w : TimeWarp} {d x : Int} (hp : FitsI32 (w.offset.asMillis + d)) (hd : FitsI32 d)
    (hx : d * w.scale.toInt / 1024 = x) :
    (FitsI32 x → (w.apply (parentAt w d)).asMillis = x) ∧
    (2147483648 ≤ x → x < 2147483648 + 4294967296 → (w.apply (parentAt w d)).asMillis = x - 4294967296) ∧
    (x < -2147483648 → -2147483648 - 4294967296 ≤ x → (w.apply (parentAt w d)).asMillis = x + 4294967296) := by
  have he : (w.apply (parentAt w d)).asMillis = x.bmod (2 ^ 32) := by
    unfold Ticks.asMillis
    rw [TimeWarp.toInt_apply, ← saturate_eq]
    have := parentAt_millis hp
    unfold Ticks.asMillis at this
    have hs : saturate ((parentAt w d).toInt - w.offset.toInt) = d := by
      unfold FitsI32 at hd
      rw [this, Int.add_comm, Int.add_sub_cancel]; unfold saturate; omega
    rw [hs, hx]
  rw [he]
  unfold FitsI32
  refine ⟨fun h => ?_, fun h1 h2 => ?_, fun h1 h2 => ?_⟩ <;> rw [Int.bmod_def] <;> split <;> omega

/-- Division with rest. -/
theorem ediv_bounds {N s : Int} (hs : 0 < s) : N / s * s ≤ N ∧ N < N / s * s + s := by
  have h1 := Int.emod_add_mul_ediv N s
  have h2 := Int.emod_nonneg N (by omega : s ≠ 0)
  have h3 := Int.emod_lt_of_pos N hs
  rw [Int.mul_comm] at h1
  omega

/-- **C35, partial: exactly when it holds.** A warp preserves the order of all parent times if and only if its scale is
from 0 to 1×; it reverses the order of all parent times if and only if its scale is from 0 down to just above -1×, or is
-1× and the offset is negative.  Every other warp puts some two parent times in the wrong order. -/
theorem C35_order_exact_partial (w : TimeWarp) :
    ((∀ p q : ChannelTime, p.asMillis ≤ q.asMillis → (w.apply p).asMillis ≤ (w.apply q).asMillis) ↔
      0 ≤ w.scale.toInt ∧ w.scale.toInt ≤ 1024) ∧
    ((∀ p q : ChannelTime, p.asMillis ≤ q.asMillis → (w.apply q).asMillis ≤ (w.apply p).asMillis) ↔
      (-1024 < w.scale.toInt ∧ w.scale.toInt ≤ 0) ∨ (w.scale.toInt = -1024 ∧ w.offset.asMillis < 0)) := by
  have ho : FitsI32 w.offset.asMillis := by
    unfold FitsI32 Ticks.asMillis
    have := w.offset.toInt_lt; have := w.offset.le_toInt; omega
  have hsr : FitsI32 w.scale.toInt := by
    unfold FitsI32
    have := w.scale.toInt_lt; have := w.scale.le_toInt; omega
  have hle : ∀ {c d : Int}, FitsI32 (w.offset.asMillis + c) → FitsI32 (w.offset.asMillis + d) → c ≤ d →
      (parentAt w c).asMillis ≤ (parentAt w d).asMillis := by
    intro c d h1 h2 h; rw [parentAt_millis h1, parentAt_millis h2]; omega
  generalize hs : w.scale.toInt = s at *
  generalize hoo : w.offset.asMillis = o at *
  have at' : ∀ {d x : Int}, FitsI32 (o + d) → FitsI32 d → d * s / 1024 = x →
    (FitsI32 x → (w.apply (parentAt w d)).asMillis = x) ∧
    (2147483648 ≤ x → x < 2147483648 + 4294967296 → (w.apply (parentAt w d)).asMillis = x - 4294967296) ∧
    (x < -2147483648 → -2147483648 - 4294967296 ≤ x → (w.apply (parentAt w d)).asMillis = x + 4294967296) := by
    intro d x h1 h2 h3; exact warp_at (by rw [hoo]; exact h1) h2 (by rw [hs]; exact h3)
  unfold FitsI32 at *
  have at0 : (w.apply (parentAt w 0)).asMillis = 0 := (at' (by omega) (by omega) (by simp)).1 (by omega)
  have at1 : -2147483648 ≤ o + 1 ∧ o + 1 ≤ 2147483647 → (w.apply (parentAt w 1)).asMillis = s / 1024 := fun h =>
    (at' h (by omega) (by rw [Int.one_mul])).1 (by omega)
  have atm : -2147483648 ≤ o + -1 ∧ o + -1 ≤ 2147483647 → (w.apply (parentAt w (-1))).asMillis = (-s) / 1024 := fun h =>
    (at' h (by omega) (by rw [Int.neg_one_mul])).1 (by omega)
  constructor
  · constructor
    · intro hm
      have hm' : ∀ {c d : Int}, (-2147483648 ≤ o + c ∧ o + c ≤ 2147483647) → (-2147483648 ≤ o + d ∧ o + d ≤ 2147483647) →
          c ≤ d → (w.apply (parentAt w c)).asMillis ≤ (w.apply (parentAt w d)).asMillis :=
        fun h1 h2 h => hm _ _ (hle h1 h2 h)
      refine ⟨?_, ?_⟩
      · by_cases h1 : o < 2147483647
        · have := hm' (c := 0) (d := 1) (by omega) (by omega) (by omega)
          rw [at0, at1 (by omega)] at this; omega
        · by_cases h2 : s = -2147483648
          · have := hm' (c := -1) (d := 0) (by omega) (by omega) (by omega)
            rw [at0, atm (by omega)] at this; omega
          · have := hm' (c := -1024) (d := 0) (by omega) (by omega) (by omega)
            rw [at0, (at' (x := -s) (by omega) (by omega) (by omega)).1 (by omega)] at this; omega
      · refine Decidable.byContradiction fun hn => ?_
        by_cases h1 : 0 ≤ o
        · -- the last time that wraps below
          obtain ⟨b1, b2⟩ := ediv_bounds (N := -2199023255553) (s := s) (by omega)
          generalize hd : (-2199023255553 : Int) / s = d at *
          have d1 : -2147483648 ≤ d := by
            rw [← hd]; exact Int.le_ediv_of_mul_le (by omega) (by omega)
          have d2 : d < 0 := by rw [← hd]; exact Int.ediv_neg_of_neg_of_pos (by omega) (by omega)
          have e1 : (d + 1) * s = d * s + s := by rw [Int.add_mul, Int.one_mul]
          have e2 : (d + 1) * s ≤ 0 := Int.mul_nonpos_of_nonpos_of_nonneg (by omega) (by omega)
          have := hm' (c := d) (d := d + 1) (by omega) (by omega) (by omega)
          rw [(at' (d := d) (x := d * s / 1024) (by omega) (by omega) rfl).2.2 (by omega) (by omega),
            (at' (d := d + 1) (x := (d + 1) * s / 1024) (by omega) (by omega) rfl).1 (by omega)] at this
          omega
        · -- the first time that wraps above
          obtain ⟨b1, b2⟩ := ediv_bounds (N := 2199023255552 + s - 1) (s := s) (by omega)
          generalize hd : (2199023255552 + s - 1 : Int) / s = d at *
          have d1 : d ≤ 2147483647 := by
            refine Decidable.byContradiction fun hd' => ?_
            have := Int.mul_le_mul_of_nonneg_right (by omega : 2147483648 ≤ d) (by omega : 0 ≤ s)
            omega
          have d2 : 0 < d := by
            refine Decidable.byContradiction fun hd' => ?_
            have := Int.mul_nonpos_of_nonpos_of_nonneg (by omega : d ≤ 0) (by omega : 0 ≤ s)
            omega
          have e1 : (d - 1) * s = d * s - s := by rw [Int.sub_mul, Int.one_mul]
          have e2 : 0 ≤ (d - 1) * s := Int.mul_nonneg (by omega) (by omega)
          have := hm' (c := d - 1) (d := d) (by omega) (by omega) (by omega)
          rw [(at' (d := d) (x := d * s / 1024) (by omega) (by omega) rfl).2.1 (by omega) (by omega),
            (at' (d := d - 1) (x := (d - 1) * s / 1024) (by omega) (by omega) rfl).1 (by omega)] at this
          omega
    · rintro ⟨h0, h1⟩ p q hpq
      exact (C35_order_slow_scales_partial w p q hpq).1 (by omega) (by omega)
  · constructor
    · intro hm
      have hm' : ∀ {c d : Int}, (-2147483648 ≤ o + c ∧ o + c ≤ 2147483647) → (-2147483648 ≤ o + d ∧ o + d ≤ 2147483647) →
          c ≤ d → (w.apply (parentAt w d)).asMillis ≤ (w.apply (parentAt w c)).asMillis :=
        fun h1 h2 h => hm _ _ (hle h1 h2 h)
      have hs0 : s ≤ 0 := by
        by_cases h1 : -2147483648 < o
        · have := hm' (c := -1) (d := 0) (by omega) (by omega) (by omega)
          rw [at0, atm (by omega)] at this; omega
        · have := hm' (c := 0) (d := 1024) (by omega) (by omega) (by omega)
          rw [at0, (at' (x := s) (by omega) (by omega) (by omega)).1 (by omega)] at this; omega
      by_cases h1024 : s = -1024
      · right
        refine ⟨h1024, ?_⟩
        refine Decidable.byContradiction fun hn => ?_
        have := hm' (c := -2147483648) (d := 0) (by omega) (by omega) (by omega)
        rw [at0, (at' (x := 2147483648) (by omega) (by omega) (by omega)).2.1 (by omega) (by omega)] at this
        omega
      · left
        refine ⟨?_, hs0⟩
        refine Decidable.byContradiction fun hn => ?_
        obtain ⟨u, hu⟩ : ∃ u : Int, s = -u := ⟨-s, by omega⟩
        have hneg : ∀ d : Int, d * s = -(d * u) := by intro d; rw [hu, Int.mul_neg]
        by_cases h1 : 0 ≤ o
        · -- the last time that wraps above
          obtain ⟨b1, b2⟩ := ediv_bounds (N := 2199023255552 + u - 1) (s := u) (by omega)
          generalize hd : (2199023255552 + u - 1 : Int) / u = d at *
          have d1 : d ≤ 2147483648 := by
            refine Decidable.byContradiction fun hd' => ?_
            have := Int.mul_le_mul_of_nonneg_right (by omega : 2147483649 ≤ d) (by omega : 0 ≤ u)
            omega
          have d2 : 0 < d := by
            refine Decidable.byContradiction fun hd' => ?_
            have := Int.mul_nonpos_of_nonpos_of_nonneg (by omega : d ≤ 0) (by omega : 0 ≤ u)
            omega
          have e0 : (-d) * s = d * u := by rw [hneg, Int.neg_mul, Int.neg_neg]
          have e1 : (-d + 1) * s = d * u - u := by rw [Int.add_mul, Int.one_mul, e0]; omega
          have e2 : 0 ≤ (d - 1) * u := Int.mul_nonneg (by omega) (by omega)
          rw [Int.sub_mul, Int.one_mul] at e2
          have := hm' (c := -d) (d := -d + 1) (by omega) (by omega) (by omega)
          rw [(at' (d := -d) (x := d * u / 1024) (by omega) (by omega) (by rw [e0])).2.1 (by omega) (by omega),
            (at' (d := -d + 1) (x := (d * u - u) / 1024) (by omega) (by omega) (by rw [e1])).1 (by omega)] at this
          omega
        · -- the first time that wraps below
          obtain ⟨b1, b2⟩ := ediv_bounds (N := 2199023255552) (s := u) (by omega)
          generalize hd : (2199023255552 : Int) / u = d at *
          have d1 : d + 1 ≤ 2147483647 := by
            refine Decidable.byContradiction fun hd' => ?_
            have := Int.mul_le_mul_of_nonneg_right (by omega : 2147483647 ≤ d) (by omega : 0 ≤ u)
            omega
          have d2 : 0 ≤ d := by rw [← hd]; exact Int.ediv_nonneg (by omega) (by omega)
          have e0 : d * s = -(d * u) := hneg d
          have e1 : (d + 1) * s = -(d * u) - u := by rw [Int.add_mul, Int.one_mul, e0]; omega
          have e2 : 0 ≤ d * u := Int.mul_nonneg d2 (by omega)
          have := hm' (c := d) (d := d + 1) (by omega) (by omega) (by omega)
          rw [(at' (d := d) (x := -(d * u) / 1024) (by omega) (by omega) (by rw [e0])).1 (by omega),
            (at' (d := d + 1) (x := (-(d * u) - u) / 1024) (by omega) (by omega) (by rw [e1])).2.2 (by omega) (by omega)] at this
          omega
    · rintro (⟨h0, h1⟩ | ⟨h0, h1⟩) p q hpq
      · exact (C35_order_slow_scales_partial w p q hpq).2 (by omega) (by omega)
      · have hp := p.toInt_lt; have hp' := p.le_toInt
        have hq := q.toInt_lt; have hq' := q.le_toInt
        unfold Ticks.asMillis at hpq hoo
        refine (C35_order_partial w p q hpq ?_ ?_).2 (by omega)
        · rw [hs, h0]; unfold FitsI32 saturate Ticks.asMillis; rw [hoo]; omega
        · rw [hs, h0]; unfold FitsI32 saturate Ticks.asMillis; rw [hoo]; omega

example : (0 : Int) ≤ (512#32 : TimeScale).toInt ∧ (512#32 : TimeScale).toInt ≤ 1024 ∧
    (TimeWarp.apply ⟨0#32, 512#32⟩ 0x7fffffff#32).asMillis = 1073741823 := by decide

/-- Specification: whole seconds, truncated towards zero, with `ticks_per_second` ticks per second. -/
def wholeSeconds (t : Ticks) : Int := t.asMillis.tdiv Ticks.ticksPerSecond

/-- C36 (false of the code): 64 000 ticks are 64 seconds, `as_secs` says 62. -/
theorem C36_negation_not_seconds : ¬ ∀ t : Ticks, (Ticks.asSecs t).toInt = wholeSeconds t := by
  intro h
  exact absurd (h 64000#32) (by decide)

/-- C36 (false of the code): the result is not truncated either: one tick before zero is already -1. -/
theorem C36_negation_negative : (Ticks.asSecs (BitVec.ofInt 32 (-1))).toInt = -1 ∧
    wholeSeconds (BitVec.ofInt 32 (-1)) = 0 := by decide

/-- C36: no positive time of 128 seconds or more is reported correctly. -/
theorem C36_negation_every_large (t : Ticks) (h : 128000 ≤ t.asMillis) :
    (Ticks.asSecs t).toInt < wholeSeconds t := by
  unfold wholeSeconds Ticks.asMillis Ticks.ticksPerSecond at *
  rw [Ticks.toInt_asSecs]
  rw [Int.tdiv_eq_ediv_of_nonneg (by omega)]
  omega

/-- C36, partial: `as_secs` is `floor(ticks / 1024)`; it is monotone and never more than the true number
of seconds for non-negative times, and correct for every time from 0 to below one second. -/
theorem C36_as_secs_partial (t u : Ticks) :
    (Ticks.asSecs t).toInt = t.asMillis / 1024 ∧
    (t.asMillis ≤ u.asMillis → (Ticks.asSecs t).toInt ≤ (Ticks.asSecs u).toInt) ∧
    (0 ≤ t.asMillis → (Ticks.asSecs t).toInt ≤ wholeSeconds t) ∧
    (0 ≤ t.asMillis → t.asMillis < 1000 → (Ticks.asSecs t).toInt = wholeSeconds t) := by
  unfold wholeSeconds Ticks.asMillis Ticks.ticksPerSecond
  rw [Ticks.toInt_asSecs, Ticks.toInt_asSecs]
  refine ⟨rfl, by omega, ?_, ?_⟩
  · intro h; rw [Int.tdiv_eq_ediv_of_nonneg h]; omega
  · intro h h'; rw [Int.tdiv_eq_ediv_of_nonneg h]; omega

/-- **C36, partial: exactly when it holds.** `as_secs` is right at a time of `n` whole seconds exactly when the time lies in
the `n`-th run of 1024 ticks as well; outside 42 seconds after and 85 seconds before zero it never is, and both bounds are
sharp. -/
theorem C36_exact_partial :
    (∀ t : Ticks, (Ticks.asSecs t).toInt = wholeSeconds t ↔
      1024 * wholeSeconds t ≤ t.asMillis ∧ t.asMillis < 1024 * (wholeSeconds t + 1)) ∧
    (∀ t : Ticks, 42000 ≤ t.asMillis ∨ t.asMillis ≤ -85000 → (Ticks.asSecs t).toInt ≠ wholeSeconds t) ∧
    (∃ t : Ticks, t.asMillis = 41999 ∧ (Ticks.asSecs t).toInt = wholeSeconds t) ∧
    (∃ t : Ticks, t.asMillis = -84999 ∧ (Ticks.asSecs t).toInt = wholeSeconds t) := by
  refine ⟨fun t => ?_, fun t h => ?_, ⟨41999#32, by decide⟩, ⟨BitVec.ofInt 32 (-84999), by decide⟩⟩
  · unfold wholeSeconds Ticks.asMillis Ticks.ticksPerSecond
    rw [Ticks.toInt_asSecs]; omega
  · unfold wholeSeconds Ticks.asMillis Ticks.ticksPerSecond at *
    rw [Ticks.toInt_asSecs]
    rcases h with h | h
    · rw [Int.tdiv_eq_ediv_of_nonneg (by omega)]; omega
    · obtain ⟨n, hn⟩ : ∃ n : Int, t.toInt = -n := ⟨-t.toInt, by omega⟩
      rw [hn, Int.neg_tdiv, Int.tdiv_eq_ediv_of_nonneg (by omega)]; omega

example : (Ticks.asSecs 64000#32).toInt = 62 ∧ wholeSeconds 64000#32 = 64 ∧
    (128000 : Int) ≤ Ticks.asMillis 200000#32 := by decide

end Verif.Props
