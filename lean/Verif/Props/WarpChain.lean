import Mathlib.Data.Rat.Floor
import Mathlib.Tactic.Linarith
import Mathlib.Tactic.Ring
import Mathlib.Tactic.NormNum
import Mathlib.Tactic.Positivity
import Verif.Props.Time
/-!
# C87: warping through a hierarchy of objects

`ChannelTime::warp` called once for every object on the way down from the realm.
-/
namespace Verif.Props
open Verif

/-- The time after warping by each of `ws` in turn. -/
def warpChain (ws : List TimeWarp) (t : ChannelTime) : ChannelTime := ws.foldl (fun t w => w.apply t) t

/-- Specification: the exact time, with no rounding and no bounds. -/
def exactChain : List TimeWarp → ℚ → ℚ
  | [], x => x
  | w :: ws, x => exactChain ws ((x - w.offset.asMillis) * (w.scale.toInt / 1024))

/-- Specification: no step leaves the range of an `i32`. -/
def ChainFits : List TimeWarp → ChannelTime → Prop
  | [], _ => True
  | w :: ws, t => FitsI32 (t.asMillis - w.offset.asMillis) ∧ FitsI32 (exactWarp w t) ∧ ChainFits ws (w.apply t)

/-- Specification: an error of `b` ticks before the first warp, magnified by each scale, with up to one more tick for each step. -/
def chainError : List TimeWarp → ℚ → ℚ
  | [], b => b
  | w :: ws, b => chainError ws (b * |(w.scale.toInt : ℚ) / 1024| + 1)

theorem exactWarp_floor (w : TimeWarp) (t : ChannelTime) :
    ((exactWarp w t : Int) : ℚ) ≤ (t.asMillis - w.offset.asMillis) * (w.scale.toInt / 1024) ∧
    (t.asMillis - w.offset.asMillis) * (w.scale.toInt / 1024) < ((exactWarp w t : Int) : ℚ) + 1 := by
  have h : exactWarp w t = (t.asMillis - w.offset.asMillis) * w.scale.toInt / 1024 := rfl
  have h1 : (t.asMillis - w.offset.asMillis) * w.scale.toInt / 1024 * 1024 ≤ (t.asMillis - w.offset.asMillis) * w.scale.toInt := Int.ediv_mul_le _ (by decide)
  have h2 : (t.asMillis - w.offset.asMillis) * w.scale.toInt < ((t.asMillis - w.offset.asMillis) * w.scale.toInt / 1024 + 1) * 1024 :=
    Int.lt_ediv_add_one_mul_self _ (by decide)
  rw [← h] at h1 h2
  have h1' : ((exactWarp w t : Int) : ℚ) * 1024 ≤ ((t.asMillis : ℚ) - w.offset.asMillis) * w.scale.toInt := by exact_mod_cast h1
  have h2' : ((t.asMillis : ℚ) - w.offset.asMillis) * w.scale.toInt < (((exactWarp w t : Int) : ℚ) + 1) * 1024 := by exact_mod_cast h2
  constructor <;> linarith

theorem chain_error_aux : ∀ (ws : List TimeWarp) (t : ChannelTime) (x b : ℚ), ChainFits ws t → |(t.asMillis : ℚ) - x| ≤ b →
    |((warpChain ws t).asMillis : ℚ) - exactChain ws x| ≤ chainError ws b
  | [], t, x, b, _, h => h
  | w :: ws, t, x, b, hf, h => by
    obtain ⟨h1, h2, h3⟩ := hf
    have hw := C34_warp_exact_partial w t h1 h2
    refine chain_error_aux ws (w.apply t) _ _ h3 ?_
    rw [hw]
    obtain ⟨k1, k2⟩ := exactWarp_floor w t
    have e : (t.asMillis - w.offset.asMillis : ℚ) * (w.scale.toInt / 1024) - (x - w.offset.asMillis) * (w.scale.toInt / 1024) =
      (t.asMillis - x) * (w.scale.toInt / 1024) := by ring
    have hm : |((t.asMillis : ℚ) - x) * (w.scale.toInt / 1024)| ≤ b * |(w.scale.toInt : ℚ) / 1024| := by
      rw [abs_mul]
      exact mul_le_mul_of_nonneg_right h (abs_nonneg _)
    rw [← e] at hm
    rw [abs_le] at hm ⊢
    constructor <;> linarith [hm.1, hm.2]

/-- **C87.** As long as no step overflows, the time computed through a hierarchy of any depth differs from the exact one by no more than one tick for
every step, magnified by the scales further down. -/
theorem C87_nested_error (ws : List TimeWarp) (t : ChannelTime) (h : ChainFits ws t) :
    |((warpChain ws t).asMillis : ℚ) - exactChain ws t.asMillis| ≤ chainError ws 0 :=
  chain_error_aux ws t _ 0 h (by simp)

theorem chainError_slow : ∀ (ws : List TimeWarp) (b : ℚ), 0 ≤ b → (∀ w ∈ ws, |w.scale.toInt| ≤ 1024) → chainError ws b ≤ b + ws.length
  | [], b, _, _ => by simp [chainError]
  | w :: ws, b, hb, h => by
    have h1 : |(w.scale.toInt : ℚ) / 1024| ≤ 1 := by
      rw [abs_div, abs_of_pos (by norm_num : (0 : ℚ) < 1024), div_le_one (by norm_num)]
      have := h w (by simp)
      exact_mod_cast this
    have h2 : b * |(w.scale.toInt : ℚ) / 1024| ≤ b := mul_le_of_le_one_right hb h1
    have h3 := chainError_slow ws (b * |(w.scale.toInt : ℚ) / 1024| + 1) (by positivity) (fun v hv => h v (by simp [hv]))
    simp only [chainError, List.length_cons]
    push_cast
    linarith

/-- **C87.** If no object runs faster than its parent, the error is at most one tick for every step. -/
theorem C87_nested_error_slow (ws : List TimeWarp) (t : ChannelTime) (h : ChainFits ws t) (hs : ∀ w ∈ ws, |w.scale.toInt| ≤ 1024) :
    |((warpChain ws t).asMillis : ℚ) - exactChain ws t.asMillis| ≤ ws.length := by
  have := chainError_slow ws 0 (le_refl 0) hs
  rw [zero_add] at this
  exact (C87_nested_error ws t h).trans this

/-- **C87.** If no object runs backwards, the time computed is never ahead of the exact one. -/
theorem C87_nested_never_ahead (ws : List TimeWarp) (t : ChannelTime) (h : ChainFits ws t) (hs : ∀ w ∈ ws, 0 ≤ w.scale.toInt) :
    ((warpChain ws t).asMillis : ℚ) ≤ exactChain ws t.asMillis := by
  have key : ∀ (ws : List TimeWarp) (t : ChannelTime) (x : ℚ), ChainFits ws t → (∀ w ∈ ws, 0 ≤ w.scale.toInt) → (t.asMillis : ℚ) ≤ x →
      ((warpChain ws t).asMillis : ℚ) ≤ exactChain ws x := by
    intro ws
    induction ws with
    | nil => intro t x _ _ h; exact h
    | cons w ws ih =>
      intro t x hf hs hx
      obtain ⟨h1, h2, h3⟩ := hf
      have hw := C34_warp_exact_partial w t h1 h2
      refine ih (w.apply t) _ h3 (fun v hv => hs v (by simp [hv])) ?_
      rw [hw]
      refine (exactWarp_floor w t).1.trans ?_
      refine mul_le_mul_of_nonneg_right (by linarith) ?_
      have := hs w (by simp)
      have : (0 : ℚ) ≤ w.scale.toInt := by exact_mod_cast this
      positivity
  exact key ws t _ h hs (le_refl _)

/-- **C87.** At normal speed nothing is lost at all: the offsets of a hierarchy of any depth add up. -/
theorem C87_nested_offsets_add (ws : List TimeWarp) (t : ChannelTime) (hs : ∀ w ∈ ws, w.scale = TimeScale.default)
    (h : ∀ k, FitsI32 (t.asMillis - ((ws.take k).map fun w => w.offset.asMillis).sum)) :
    (warpChain ws t).asMillis = t.asMillis - (ws.map fun w => w.offset.asMillis).sum := by
  induction ws generalizing t with
  | nil => simp [warpChain]
  | cons w ws ih =>
    have h1 : FitsI32 (t.asMillis - w.offset.asMillis) := by
      have := h 1
      simpa using this
    have hsc : w.scale.toInt = 1024 := by rw [hs w (by simp)]; decide
    have he : exactWarp w t = t.asMillis - w.offset.asMillis := by
      change (t.asMillis - w.offset.asMillis) * w.scale.toInt / 1024 = _
      rw [hsc, Int.mul_ediv_cancel _ (by decide)]
    have hw := C34_warp_exact_partial w t h1 (by rw [he]; exact h1)
    rw [he] at hw
    have hi := ih (w.apply t) (fun v hv => hs v (by simp [hv])) (fun k => by
      have := h (k + 1)
      simp only [List.take_succ_cons, List.map_cons, List.sum_cons] at this
      rw [hw, Int.sub_sub]; exact this)
    change (warpChain ws (w.apply t)).asMillis = _
    rw [hi, hw, List.map_cons, List.sum_cons, Int.sub_sub]

/-- **C87.** If no object runs backwards or faster than its parent, a later time stays a later (or equal) one through a hierarchy of any depth, overflow
or not. -/
theorem C87_nested_order (ws : List TimeWarp) (p q : ChannelTime) (hs : ∀ w ∈ ws, 0 ≤ w.scale.toInt ∧ w.scale.toInt ≤ 1024)
    (h : p.asMillis ≤ q.asMillis) : (warpChain ws p).asMillis ≤ (warpChain ws q).asMillis := by
  induction ws generalizing p q with
  | nil => exact h
  | cons w ws ih =>
    refine ih _ _ (fun v hv => hs v (by simp [hv])) ?_
    exact (C35_order_slow_scales_partial w p q h).1 (hs w (by simp)).1 (hs w (by simp)).2

/-! Concrete cases: half speed, then double speed, loses the odd tick; three levels. -/
example : (warpChain [⟨0#32, 512#32⟩, ⟨0#32, 2048#32⟩] 7#32).asMillis = 6 ∧ exactChain [⟨0#32, 512#32⟩, ⟨0#32, 2048#32⟩] 7 = 7 ∧
    chainError [⟨0#32, 512#32⟩, ⟨0#32, 2048#32⟩] 0 = 3 := by
  refine ⟨by decide, ?_, ?_⟩
  · have h1 : (512#32 : BitVec 32).toInt = 512 := by decide
    have h2 : (2048#32 : BitVec 32).toInt = 2048 := by decide
    have h3 : Ticks.asMillis 0#32 = 0 := by decide
    simp only [exactChain, h1, h2, h3]; norm_num
  · have h1 : (512#32 : BitVec 32).toInt = 512 := by decide
    have h2 : (2048#32 : BitVec 32).toInt = 2048 := by decide
    simp only [chainError, h1, h2]
    rw [abs_of_pos (by norm_num), abs_of_pos (by norm_num)]; norm_num
example : ChainFits [⟨0#32, 512#32⟩, ⟨0#32, 2048#32⟩, ⟨1000#32, 1024#32⟩] 7#32 := by
  simp only [ChainFits, FitsI32]
  decide
example : (warpChain [⟨1000#32, TimeScale.default⟩, ⟨500#32, TimeScale.default⟩] 4000#32).asMillis = 2500 := by decide

end Verif.Props
