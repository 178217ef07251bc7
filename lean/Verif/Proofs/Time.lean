import Verif.Model.Time
/-! # Lemmas about tick arithmetic -/
namespace Verif

theorem i32_bounds (x : BitVec 32) : i32Min ≤ x.toInt ∧ x.toInt ≤ i32Max := by
  have h1 := BitVec.le_toInt x
  have h2 := BitVec.toInt_lt (x := x)
  simp only [i32Min, i32Max]; omega

theorem clamp32_bounds (x : Int) : i32Min ≤ clamp32 x ∧ clamp32 x ≤ i32Max := by
  unfold clamp32 i32Min i32Max; (repeat' split) <;> omega

theorem clamp32_of_fits {x : Int} (h1 : i32Min ≤ x) (h2 : x ≤ i32Max) : clamp32 x = x := by
  unfold clamp32; (repeat' split) <;> omega

theorem clamp32_mono {x y : Int} (h : x ≤ y) : clamp32 x ≤ clamp32 y := by
  unfold clamp32 i32Min i32Max; (repeat' split) <;> omega

theorem bmod32_of_fits {x : Int} (h1 : i32Min ≤ x) (h2 : x ≤ i32Max) : x.bmod (2 ^ 32) = x := by
  simp only [i32Min, i32Max] at *
  apply Int.bmod_eq_of_le <;> omega

theorem toInt_ofInt_of_fits {x : Int} (h1 : i32Min ≤ x) (h2 : x ≤ i32Max) :
    (BitVec.ofInt 32 x).toInt = x := by
  rw [BitVec.toInt_ofInt]; exact bmod32_of_fits h1 h2

namespace Ticks

theorem toInt_add (a b : Ticks) : (add a b).toInt = clamp32 (a.toInt + b.toInt) := by
  unfold add; exact toInt_ofInt_of_fits (clamp32_bounds _).1 (clamp32_bounds _).2

theorem toInt_sub (a b : Ticks) : (sub a b).toInt = clamp32 (a.toInt - b.toInt) := by
  unfold sub; exact toInt_ofInt_of_fits (clamp32_bounds _).1 (clamp32_bounds _).2

theorem toInt_asSecs (t : Ticks) : (asSecs t).toInt = t.toInt / 1024 := by
  simp [asSecs, BitVec.toInt_sshiftRight, Int.shiftRight_eq_div_pow]

theorem prod_bounds (a s : BitVec 32) :
    -(2 ^ 62 : Int) ≤ a.toInt * s.toInt ∧ a.toInt * s.toInt ≤ 2 ^ 62 := by
  have ha := i32_bounds a
  have hs := i32_bounds s
  simp only [i32Min, i32Max] at *
  have h : (a.toInt * s.toInt).natAbs ≤ 2147483648 * 2147483648 := by
    rw [Int.natAbs_mul]; exact Nat.mul_le_mul (by omega) (by omega)
  omega

theorem toInt_mul (a s : BitVec 32) :
    (mul a s).toInt = (a.toInt * s.toInt / 1024).bmod (2 ^ 32) := by
  unfold mul
  have hp := prod_bounds a s
  have hprod : (BitVec.signExtend 64 a * BitVec.signExtend 64 s).toInt = a.toInt * s.toInt := by
    rw [BitVec.toInt_mul, BitVec.toInt_signExtend_of_le (by omega), BitVec.toInt_signExtend_of_le (by omega)]
    apply Int.bmod_eq_of_le <;> omega
  have hsh : ((BitVec.signExtend 64 a * BitVec.signExtend 64 s).sshiftRight 10).toInt
      = a.toInt * s.toInt / 1024 := by
    rw [BitVec.toInt_sshiftRight, hprod, Int.shiftRight_eq_div_pow]; rfl
  rw [BitVec.truncate_eq_setWidth, BitVec.toInt_setWidth, ← hsh]
  generalize ((BitVec.signExtend 64 a * BitVec.signExtend 64 s).sshiftRight 10) = v
  rw [BitVec.toInt_eq_toNat_bmod]
  rw [Int.bmod_bmod_of_dvd (by decide)]

end Ticks

/-- The value `TimeWarp::apply` computes: saturated difference, floor of the scaled value, wrapped. -/
theorem TimeWarp.toInt_apply (w : TimeWarp) (p : ChannelTime) :
    (w.apply p).toInt =
      (clamp32 (p.toInt - w.offset.toInt) * w.scale.toInt / 1024).bmod (2 ^ 32) := by
  unfold TimeWarp.apply; rw [Ticks.toInt_mul, Ticks.toInt_sub]

end Verif
