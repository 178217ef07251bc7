import Mathlib.Tactic.Linarith
import Mathlib.Tactic.Ring
import Mathlib.Tactic.FieldSimp
import Mathlib.Tactic.NormNum
import Mathlib.Tactic.Positivity
import Mathlib.Order.Monotone.Basic
import Mathlib.Algebra.Order.Field.Power
import Verif.Spec.FloatValue
import Verif.Proofs.Types
import Verif.Proofs.TimeFloat
/-! # The bit-pattern order of floats is the order of their values -/
namespace Verif
namespace FV
open Spec

/-- The magnitude `k` in units of the smallest positive number. -/
def units (p k : Nat) : Nat := if k / 2 ^ p = 0 then k % 2 ^ p else (2 ^ p + k % 2 ^ p) * 2 ^ (k / 2 ^ p - 1)

theorem units_eq (p e m : Nat) (hm : m < 2 ^ p) : units p (e * 2 ^ p + m) = if e = 0 then m else (2 ^ p + m) * 2 ^ (e - 1) := by
  have h1 : (e * 2 ^ p + m) / 2 ^ p = e := by
    rw [Nat.add_comm, Nat.add_mul_div_right _ _ (Nat.two_pow_pos p), Nat.div_eq_of_lt hm, Nat.zero_add]
  have h2 : (e * 2 ^ p + m) % 2 ^ p = m := by
    rw [Nat.add_comm, Nat.add_mul_mod_self_right, Nat.mod_eq_of_lt hm]
  unfold units
  rw [h1, h2]

theorem units_strict (p : Nat) : StrictMono (units p) := by
  refine strictMono_nat_of_lt_succ fun k => ?_
  have hp := Nat.two_pow_pos p
  obtain ⟨e, m, hm, rfl⟩ : ∃ e m, m < 2 ^ p ∧ k = e * 2 ^ p + m :=
    ⟨k / 2 ^ p, k % 2 ^ p, Nat.mod_lt _ hp, by rw [Nat.mul_comm]; exact (Nat.div_add_mod k (2 ^ p)).symm⟩
  rw [units_eq p e m hm]
  by_cases hlast : m + 1 < 2 ^ p
  · rw [Nat.add_assoc, units_eq p e (m + 1) hlast]
    by_cases he : e = 0
    · rw [if_pos he, if_pos he]; omega
    · rw [if_neg he, if_neg he]
      exact Nat.mul_lt_mul_of_pos_right (by omega) (Nat.two_pow_pos _)
  · have hm' : m + 1 = 2 ^ p := by omega
    have h1 : e * 2 ^ p + m + 1 = (e + 1) * 2 ^ p + 0 := by have := Nat.add_mul e 1 (2 ^ p); omega
    rw [h1, units_eq p (e + 1) 0 hp, if_neg (Nat.succ_ne_zero e)]
    by_cases he : e = 0
    · subst he; rw [if_pos rfl]; simp; omega
    · rw [if_neg he]
      obtain ⟨d, rfl⟩ : ∃ d, e = d + 1 := ⟨e - 1, by omega⟩
      simp only [Nat.add_sub_cancel, Nat.add_zero]
      rw [show (2 : Nat) ^ (d + 1) = 2 * 2 ^ d from by rw [pow_succ]; ring]
      have := Nat.two_pow_pos d
      have h2 : (2 ^ p + m) * 2 ^ d < (2 ^ p + 2 ^ p) * 2 ^ d := Nat.mul_lt_mul_of_pos_right (by omega) this
      calc (2 ^ p + m) * 2 ^ d < (2 ^ p + 2 ^ p) * 2 ^ d := h2
        _ = 2 ^ p * (2 * 2 ^ d) := by ring

/-- Signed units. -/
def sunits (p : Nat) (j : Int) : ℚ := if 0 ≤ j then (units p j.toNat : ℚ) else -(units p (-j).toNat : ℚ)

theorem units_zero (p : Nat) : units p 0 = 0 := by
  have := units_eq p 0 0 (Nat.two_pow_pos p)
  simpa using this

theorem sunits_strict (p : Nat) {i j : Int} (h : i < j) : sunits p i < sunits p j := by
  have mono := units_strict p
  unfold sunits
  by_cases hi : 0 ≤ i
  · rw [if_pos hi, if_pos (by omega)]
    exact_mod_cast mono (show i.toNat < j.toNat by omega)
  · rw [if_neg hi]
    have h0 : 0 < units p (-i).toNat := by
      have := mono (show 0 < (-i).toNat by omega)
      rwa [units_zero] at this
    have h0q : (0 : ℚ) < (units p (-i).toNat : ℚ) := by exact_mod_cast h0
    by_cases hj : 0 ≤ j
    · rw [if_pos hj]
      have : (0 : ℚ) ≤ (units p j.toNat : ℚ) := by positivity
      linarith
    · rw [if_neg hj]
      have : (units p (-j).toNat : ℚ) < (units p (-i).toNat : ℚ) := by exact_mod_cast mono (show (-j).toNat < (-i).toNat by omega)
      linarith

/-- The value with sign-magnitude key `j`, where infinity has key `I`. -/
def ofKey (p : Nat) (I : Int) (u : ℚ) (j : Int) : FTime :=
  if j = I then .inf false else if j = -I then .inf true else .fin (sunits p j * u)

theorem ofKey_lt {p : Nat} {I : Int} {u : ℚ} (hu : 0 < u) (hI : 0 < I) {i j : Int} (hi : -I ≤ i) (hj : j ≤ I) (h : i < j) :
    FLt (ofKey p I u i) (ofKey p I u j) := by
  unfold ofKey
  rw [if_neg (show ¬ i = I by omega), if_neg (show ¬ j = -I by omega)]
  by_cases h1 : i = -I
  · rw [if_pos h1]
    by_cases h2 : j = I
    · rw [if_pos h2]; exact ⟨rfl, rfl⟩
    · rw [if_neg h2]; rfl
  · rw [if_neg h1]
    by_cases h2 : j = I
    · rw [if_pos h2]; rfl
    · rw [if_neg h2]
      exact mul_lt_mul_of_pos_right (sunits_strict p h) hu

theorem FLt_irrefl (x : FTime) : ¬ FLt x x := by
  cases x with
  | nan => exact id
  | inf n => rintro ⟨h1, h2⟩; rw [h1] at h2; cases h2
  | fin q => exact lt_irrefl q

theorem FLt_asymm {x y : FTime} (h : FLt x y) : ¬ FLt y x := by
  cases x <;> cases y <;> simp only [FLt] at h ⊢
  · rintro ⟨h1, h2⟩; rw [h.1] at h2; cases h2
  · rw [h]; exact fun e => by cases e
  · rw [h]; exact fun e => by cases e
  · exact not_lt.2 h.le

theorem ofKey_ne_nan (p : Nat) (I : Int) (u : ℚ) (j : Int) : ofKey p I u j ≠ .nan := by
  unfold ofKey
  split
  · exact fun e => by cases e
  · split <;> exact fun e => by cases e

theorem ofKey_iff {p : Nat} {I : Int} {u : ℚ} (hu : 0 < u) (hI : 0 < I) {i j : Int} (hi : -I ≤ i) (hi' : i ≤ I) (hj : -I ≤ j) (hj' : j ≤ I) :
    (FLt (ofKey p I u i) (ofKey p I u j) ↔ i < j) ∧ (FEq (ofKey p I u i) (ofKey p I u j) ↔ i = j) := by
  have ne : ∀ {a b : Int}, FLt (ofKey p I u a) (ofKey p I u b) → ofKey p I u a ≠ ofKey p I u b := by
    intro a b h e
    rw [e] at h
    exact FLt_irrefl _ h
  rcases lt_trichotomy i j with h | h | h
  · have hl := ofKey_lt (p := p) hu hI hi hj' h
    exact ⟨iff_of_true hl h, iff_of_false (fun e => ne hl e.1) (by omega)⟩
  · subst h
    exact ⟨iff_of_false (FLt_irrefl _) (by omega), iff_of_true ⟨rfl, ofKey_ne_nan _ _ _ _⟩ rfl⟩
  · have hl := ofKey_lt (p := p) hu hI hj hi' h
    exact ⟨iff_of_false (FLt_asymm hl) (by omega), iff_of_false (fun e => ne hl e.1.symm) (by omega)⟩

/-- A bit pattern's value from its fields. -/
theorem ieeeValue_fields (p eb s e m : Nat) (he : e < 2 ^ eb) (hm : m < 2 ^ p) :
    ieeeValue p eb (s * 2 ^ (p + eb) + (e * 2 ^ p + m)) =
      if e = 2 ^ eb - 1 then (if m = 0 then .inf (decide (s ≠ 0)) else .nan)
      else .fin ((if s = 0 then 1 else -1) * ((units p (e * 2 ^ p + m) : ℚ) * (2 : ℚ) ^ (2 - 2 ^ (eb - 1) - p : ℤ))) := by
  have hp := Nat.two_pow_pos p
  have hk : e * 2 ^ p + m < 2 ^ (p + eb) := by
    rw [Nat.pow_add]
    have : (e + 1) * 2 ^ p ≤ 2 ^ eb * 2 ^ p := Nat.mul_le_mul_right _ he
    rw [Nat.add_mul, Nat.one_mul] at this
    rw [Nat.mul_comm (2 ^ p)]
    omega
  have h1 : (s * 2 ^ (p + eb) + (e * 2 ^ p + m)) / 2 ^ (p + eb) = s := by
    rw [Nat.add_comm, Nat.add_mul_div_right _ _ (Nat.two_pow_pos _), Nat.div_eq_of_lt hk, Nat.zero_add]
  have h0 : s * 2 ^ (p + eb) + (e * 2 ^ p + m) = (s * 2 ^ eb + e) * 2 ^ p + m := by
    rw [Nat.pow_add]; ring
  have h2 : (s * 2 ^ (p + eb) + (e * 2 ^ p + m)) / 2 ^ p % 2 ^ eb = e := by
    rw [h0, Nat.add_comm _ m, Nat.add_mul_div_right _ _ hp, Nat.div_eq_of_lt hm, Nat.zero_add, Nat.add_comm,
      Nat.add_mul_mod_self_right, Nat.mod_eq_of_lt he]
  have h3 : (s * 2 ^ (p + eb) + (e * 2 ^ p + m)) % 2 ^ p = m := by
    rw [h0, Nat.add_comm, Nat.add_mul_mod_self_right, Nat.mod_eq_of_lt hm]
  unfold ieeeValue
  simp only [h1, h2, h3]
  by_cases hl : e = 2 ^ eb - 1
  · rw [if_pos hl, if_pos hl]
  · rw [if_neg hl, if_neg hl, units_eq p e m hm]
    have two : (2 : ℚ) ≠ 0 := by norm_num
    have hpp : ((2 : ℚ) ^ (p : ℤ)) = 2 ^ p := zpow_natCast 2 p
    by_cases he0 : e = 0
    · rw [if_pos he0, if_pos he0, zpow_sub₀ two _ (p : ℤ), hpp]
      congr 1
      ring
    · rw [if_neg he0, if_neg he0]
      congr 1
      obtain ⟨d, rfl⟩ : ∃ d, e = d + 1 := ⟨e - 1, by omega⟩
      have hz : ((2 : ℚ) ^ (((d + 1 : ℕ) : ℤ) - (2 ^ (eb - 1) - 1))) = 2 ^ d * (2 : ℚ) ^ (2 - 2 ^ (eb - 1) : ℤ) := by
        rw [← zpow_natCast (2 : ℚ) d, ← zpow_add₀ two]
        congr 1
        push_cast
        ring
      rw [hz, zpow_sub₀ two _ (p : ℤ), hpp]
      simp only [Nat.add_sub_cancel]
      push_cast
      field_simp

/-- A bit pattern's value from its sign-magnitude key. -/
theorem ieeeValue_key (p eb n : Nat) (heb : 0 < eb) (hn : n < 2 * 2 ^ (p + eb)) :
    ieeeValue p eb n = if (2 ^ eb - 1) * 2 ^ p < n % 2 ^ (p + eb) then .nan
      else ofKey p (((2 ^ eb - 1) * 2 ^ p : ℕ) : ℤ) ((2 : ℚ) ^ (2 - 2 ^ (eb - 1) - p : ℤ))
        (if 2 ^ (p + eb) ≤ n then -((n % 2 ^ (p + eb) : ℕ) : ℤ) else ((n % 2 ^ (p + eb) : ℕ) : ℤ)) := by
  have hp := Nat.two_pow_pos p
  have hE : 2 ≤ 2 ^ eb := by
    calc 2 = 2 ^ 1 := rfl
      _ ≤ 2 ^ eb := Nat.pow_le_pow_right (by omega) heb
  obtain ⟨s, k, hs, hk, rfl⟩ : ∃ s k, s < 2 ∧ k < 2 ^ (p + eb) ∧ n = s * 2 ^ (p + eb) + k :=
    ⟨n / 2 ^ (p + eb), n % 2 ^ (p + eb), Nat.div_lt_of_lt_mul (by omega), Nat.mod_lt _ (Nat.two_pow_pos _), by
      rw [Nat.mul_comm]; exact (Nat.div_add_mod n _).symm⟩
  have hkm : (s * 2 ^ (p + eb) + k) % 2 ^ (p + eb) = k := by
    rw [Nat.add_comm, Nat.add_mul_mod_self_right, Nat.mod_eq_of_lt hk]
  have hsg : 2 ^ (p + eb) ≤ s * 2 ^ (p + eb) + k ↔ s ≠ 0 := by
    constructor
    · rintro h rfl; omega
    · intro h
      have : s = 1 := by omega
      subst this; omega
  rw [hkm]
  have hkE : k < 2 ^ eb * 2 ^ p := by rw [Nat.pow_add, Nat.mul_comm] at hk; exact hk
  obtain ⟨e, m, he, hm, rfl⟩ : ∃ e m, e < 2 ^ eb ∧ m < 2 ^ p ∧ k = e * 2 ^ p + m :=
    ⟨k / 2 ^ p, k % 2 ^ p, Nat.div_lt_of_lt_mul (by rwa [Nat.mul_comm]), Nat.mod_lt _ hp, by rw [Nat.mul_comm]; exact (Nat.div_add_mod k _).symm⟩
  rw [ieeeValue_fields p eb s e m he hm]
  by_cases hl : e = 2 ^ eb - 1
  · subst hl
    rw [if_pos rfl]
    by_cases hm0 : m = 0
    · subst hm0
      rw [if_pos rfl, if_neg (by omega), Nat.add_zero]
      have hI : 0 < (2 ^ eb - 1) * 2 ^ p := Nat.mul_pos (by omega) hp
      rw [Nat.add_zero] at hsg
      unfold ofKey
      by_cases h0 : s = 0
      · rw [if_neg (fun h => (hsg.1 h) h0), if_pos rfl]; simp [h0]
      · rw [if_pos (hsg.2 h0), if_neg (by omega), if_pos rfl]; simp [h0]
    · rw [if_neg hm0, if_pos (by omega)]
  · rw [if_neg hl]
    have hlt : e * 2 ^ p + m < (2 ^ eb - 1) * 2 ^ p := by
      have : (e + 1) * 2 ^ p ≤ (2 ^ eb - 1) * 2 ^ p := Nat.mul_le_mul_right _ (by omega)
      rw [Nat.add_mul, Nat.one_mul] at this
      omega
    rw [if_neg (Nat.not_lt.2 hlt.le)]
    generalize e * 2 ^ p + m = k at *
    generalize (2 ^ eb - 1) * 2 ^ p = I at *
    generalize (2 : ℚ) ^ (2 - 2 ^ (eb - 1) - p : ℤ) = u
    unfold ofKey
    by_cases h0 : s = 0
    · rw [if_neg (fun h => (hsg.1 h) h0), if_neg (show ¬ (k : ℤ) = I by omega), if_neg (show ¬ (k : ℤ) = -I by omega), if_pos h0]
      unfold sunits
      rw [if_pos (by omega), Int.toNat_natCast, one_mul]
    · rw [if_pos (hsg.2 h0), if_neg (show ¬ -(k : ℤ) = I by omega), if_neg (show ¬ -(k : ℤ) = -I by omega), if_neg h0]
      unfold sunits
      by_cases hk0 : k = 0
      · subst hk0; simp [units_zero]
      · rw [if_neg (by omega), neg_neg, Int.toNat_natCast]
        congr 1
        ring

theorem f32Value_key (x : BitVec 32) : f32Value x = if fmt32.isNaN x = true then .nan
    else ofKey 23 2139095040 ((2 : ℚ) ^ (-149 : ℤ)) (fmt32.key x) := by
  have hx := x.isLt
  have h := ieeeValue_key 23 8 x.toNat (by norm_num) (by norm_num at hx ⊢; omega)
  unfold f32Value
  rw [h]
  norm_num [FloatFmt.isNaN, fmt32_magNat, fmt32_key, show fmt32.inf.toNat = 2139095040 from rfl]

theorem f64Value_key (x : BitVec 64) : f64Value x = if fmt64.isNaN x = true then .nan
    else ofKey 52 9218868437227405312 ((2 : ℚ) ^ (-1074 : ℤ)) (fmt64.key x) := by
  have hx := x.isLt
  have h := ieeeValue_key 52 11 x.toNat (by norm_num) (by norm_num at hx ⊢; omega)
  unfold f64Value
  rw [h]
  norm_num [FloatFmt.isNaN, fmt64_magNat, fmt64_key, show fmt64.inf.toNat = 9218868437227405312 from rfl]

theorem key_bound32 (x : BitVec 32) (h : ¬ fmt32.isNaN x = true) : -2139095040 ≤ fmt32.key x ∧ fmt32.key x ≤ 2139095040 := by
  unfold FloatFmt.isNaN at h
  rw [show fmt32.inf.toNat = 2139095040 from rfl] at h
  simp only [decide_eq_true_eq] at h
  unfold FloatFmt.key
  split <;> omega

theorem key_bound64 (x : BitVec 64) (h : ¬ fmt64.isNaN x = true) : -9218868437227405312 ≤ fmt64.key x ∧ fmt64.key x ≤ 9218868437227405312 := by
  unfold FloatFmt.isNaN at h
  rw [show fmt64.inf.toNat = 9218868437227405312 from rfl] at h
  simp only [decide_eq_true_eq] at h
  unfold FloatFmt.key
  split <;> omega

/-! ## The finite values -/

theorem exists_units (p a d : Nat) (ha : a < 2 ^ (p + 1)) :
    ∃ e m, e ≤ d + 1 ∧ m < 2 ^ p ∧ units p (e * 2 ^ p + m) = a * 2 ^ d := by
  have hp2 : 2 ^ (p + 1) = 2 * 2 ^ p := by rw [pow_succ]; ring
  induction d generalizing a with
  | zero =>
    by_cases h : a < 2 ^ p
    · exact ⟨0, a, by omega, h, by rw [units_eq p 0 a h, if_pos rfl, pow_zero, Nat.mul_one]⟩
    · exact ⟨1, a - 2 ^ p, by omega, by omega, by
        rw [units_eq p 1 _ (by omega), if_neg (by omega), Nat.add_sub_cancel' (by omega)]⟩
  | succ d ih =>
    by_cases h : a < 2 ^ p
    · obtain ⟨e, m, h1, h2, h3⟩ := ih (2 * a) (by omega)
      exact ⟨e, m, by omega, h2, by rw [h3, pow_succ]; ring⟩
    · exact ⟨d + 2, a - 2 ^ p, by omega, by omega, by
        rw [units_eq p (d + 2) _ (by omega), if_neg (by omega), Nat.add_sub_cancel' (by omega)]; rfl⟩

theorem ieee_finite_iff (p eb : Nat) (heb : 2 ≤ eb) (q : ℚ) :
    (∃ n, n < 2 * 2 ^ (p + eb) ∧ ieeeValue p eb n = .fin q) ↔
    ∃ m e : ℤ, |m| < 2 ^ (p + 1) ∧ (2 - 2 ^ (eb - 1) - p : ℤ) ≤ e ∧ e ≤ (2 - 2 ^ (eb - 1) - p : ℤ) + (2 ^ eb - 3) ∧ q = m * (2 : ℚ) ^ e := by
  have hp := Nat.two_pow_pos p
  have hE : 4 ≤ 2 ^ eb := by
    calc 4 = 2 ^ 2 := rfl
      _ ≤ 2 ^ eb := Nat.pow_le_pow_right (by omega) heb
  have hEz : ((2 ^ eb : ℕ) : ℤ) = 2 ^ eb := by push_cast; rfl
  have hPz : ((2 ^ p : ℕ) : ℤ) = 2 ^ p := by push_cast; rfl
  have hp2 : (2 : ℤ) ^ (p + 1) = 2 * 2 ^ p := by rw [pow_succ]; ring
  have two : (2 : ℚ) ≠ 0 := by norm_num
  generalize hc : (2 - 2 ^ (eb - 1) - p : ℤ) = c
  constructor
  · rintro ⟨n, hn, hv⟩
    obtain ⟨s, e, m, he, hm, rfl⟩ : ∃ s e m, e < 2 ^ eb ∧ m < 2 ^ p ∧ n = s * 2 ^ (p + eb) + (e * 2 ^ p + m) := by
      refine ⟨n / 2 ^ (p + eb), n % 2 ^ (p + eb) / 2 ^ p, n % 2 ^ (p + eb) % 2 ^ p, ?_, Nat.mod_lt _ hp, ?_⟩
      · refine Nat.div_lt_of_lt_mul ?_
        rw [← Nat.pow_add]; exact Nat.mod_lt _ (Nat.two_pow_pos _)
      · have h1 := Nat.div_add_mod n (2 ^ (p + eb))
        have h2 := Nat.div_add_mod (n % 2 ^ (p + eb)) (2 ^ p)
        rw [Nat.mul_comm] at h1 h2
        omega
    rw [ieeeValue_fields p eb s e m he hm, units_eq p e m hm, hc] at hv
    by_cases hl : e = 2 ^ eb - 1
    · rw [if_pos hl] at hv
      split at hv <;> cases hv
    · rw [if_neg hl] at hv
      injection hv with hv
      obtain ⟨σ, hσ, hσq⟩ : ∃ σ : ℤ, |σ| = 1 ∧ ((if s = 0 then 1 else -1 : ℚ)) = σ := by
        by_cases h : s = 0
        · exact ⟨1, by norm_num, by simp [h]⟩
        · exact ⟨-1, by norm_num, by simp [h]⟩
      rw [hσq] at hv
      by_cases he0 : e = 0
      · rw [if_pos he0] at hv
        refine ⟨σ * m, c, ?_, le_refl _, by omega, ?_⟩
        · rw [abs_mul, hσ, one_mul, abs_of_nonneg (by positivity)]
          omega
        · rw [← hv]; push_cast; ring
      · rw [if_neg he0] at hv
        obtain ⟨d, rfl⟩ : ∃ d, e = d + 1 := ⟨e - 1, by omega⟩
        refine ⟨σ * (2 ^ p + m), c + d, ?_, by omega, by omega, ?_⟩
        · rw [abs_mul, hσ, one_mul, abs_of_nonneg (by positivity)]
          omega
        · rw [← hv, zpow_add₀ two, zpow_natCast]
          simp only [Nat.add_sub_cancel]
          push_cast
          ring
  · rintro ⟨m, e, hm, h1, h2, rfl⟩
    obtain ⟨d, rfl⟩ : ∃ d : ℕ, e = c + d := ⟨(e - c).toNat, by omega⟩
    obtain ⟨a, ha⟩ : ∃ a : ℕ, |m| = a := ⟨m.natAbs, (Int.natCast_natAbs m).symm⟩
    obtain ⟨f, g, hf, hg, hu⟩ := exists_units p a d (by
      rw [ha] at hm
      exact_mod_cast hm)
    have hfE : f < 2 ^ eb := by omega
    have hfl : f ≠ 2 ^ eb - 1 := by omega
    have hlt : f * 2 ^ p + g < 2 ^ (p + eb) := by
      rw [Nat.pow_add, Nat.mul_comm (2 ^ p)]
      have : (f + 1) * 2 ^ p ≤ 2 ^ eb * 2 ^ p := Nat.mul_le_mul_right _ hfE
      rw [Nat.add_mul, Nat.one_mul] at this
      omega
    refine ⟨(if 0 ≤ m then 0 else 1) * 2 ^ (p + eb) + (f * 2 ^ p + g), ?_, ?_⟩
    · split <;> omega
    · rw [ieeeValue_fields p eb _ f g hfE hg, if_neg hfl, hu, hc]
      congr 1
      rw [zpow_add₀ two, zpow_natCast]
      by_cases h0 : 0 ≤ m
      · rw [if_pos h0, if_pos rfl]
        rw [abs_of_nonneg h0] at ha
        rw [ha]; push_cast; ring
      · rw [if_neg h0, if_neg (by omega)]
        rw [abs_of_neg (by omega)] at ha
        have hma : m = -(a : ℤ) := by omega
        rw [hma]; push_cast; ring

end FV
end Verif
