import Verif.Props.Channel
import Verif.Model.Arena
import Verif.Model.Time
import Verif.Model.Types
import Verif.Model.Macro
import Verif.Model.Mangle
import Verif.Model.Substitute
import Verif.Model.FfiValue
import Verif.Spec.SaveRestore
/-!
# The repository's own tests, run on the model

Every test that /repo contains, transcribed call by call and assertion by assertion, and evaluated by the kernel.  They are
tests of the model, not proofs of properties: the code passes them (or, where noted, cannot), so the model must agree.
-/
namespace Verif.Props
open Verif

/-! ## crates/datastructures/arena/src/lib.rs:244-299, `test_insert_delete` -/
namespace ArenaTest

def a0 : Arena String := Arena.new
def r1 := a0.insert "a"
def r2 := r1.1.insert "b"
def r3 := r2.1.insert "c"
def a := r1.2
def b := r2.2
def c := r3.2
def r4 := r3.1.remove b
def r5 := r4.1.insert "b"
def b2 := r5.2

theorem repo_test_insert_delete :
    (a0.len = 0 ∧ a0.isEmpty = true ∧ a0.get ⟨0, 0⟩ = none ∧ a0.iter.length = 0) ∧
    (r3.1.contains a = true ∧ r3.1.contains b = true ∧ r3.1.contains c = true ∧ r3.1.index? a = some "a" ∧
      r3.1.index? b = some "b" ∧ r3.1.index? c = some "c" ∧ r3.1.len = 3 ∧ r3.1.capacity ≥ r3.1.len ∧ r3.1.iter.length = 3) ∧
    (r4.2 = some "b" ∧ r4.1.contains a = true ∧ r4.1.contains b = false ∧ r4.1.contains c = true ∧
      r4.1.index? a = some "a" ∧ r4.1.get b = none ∧ r4.1.get c = some "c" ∧ r4.1.len = 2 ∧ r4.1.capacity ≥ r4.1.len ∧
      r4.1.iter.length = 2) ∧
    (r5.1.contains a = true ∧ r5.1.contains b = false ∧ r5.1.contains b2 = true ∧ r5.1.contains c = true ∧
      r5.1.index? a = some "a" ∧ r5.1.get b = none ∧ r5.1.index? b2 = some "b" ∧ r5.1.index? c = some "c" ∧ r5.1.len = 3 ∧
      r5.1.capacity ≥ r5.1.len ∧ r5.1.iter.length = 3) := by decide +kernel

end ArenaTest

/-! ## client/rust/src/contract/properties/dynamic/eq_impls.rs:88-111 and primitive.rs:99-121, `test_partialeq` -/

theorem repo_test_partialeq_property :
    let u16_1 : DynProp := .primitive (.u16 1#16)
    let u32_1 : DynProp := .primitive (.u32 1#32)
    u16_1.eqTyped (.prim .u16) 1#16 = true ∧ u32_1.beq u32_1 = true ∧
    u16_1.eqTyped (.vec .u16) [1#16] = false ∧ u32_1.eqTyped (.prim .u16) 1#16 = false ∧
    u32_1.eqTyped (.vec .u16) [1#16] = false ∧ u16_1.eqTyped (.vec .u32) [2#32] = false := by decide +kernel

theorem repo_test_partialeq_primitive :
    let dyn_1337 : DynProp := .primitive (.u16 1337#16)
    dyn_1337.eqTyped (.prim .u16) 1337#16 = true ∧ dyn_1337.eqTyped (.prim .u32) 1337#32 = false ∧
    dyn_1337.eqTyped (.prim .u16) 7331#16 = false ∧ dyn_1337.eqTyped (.prim .u32) 7331#32 = false := by decide +kernel

/-! ## client/rust/src/time/mod.rs:168-197, `test_resolve_time` -/

theorem repo_test_resolve_time :
    let parent : ChannelTime := 4096#32
    let d : Int := TimeScale.denominator.toNat
    (TimeWarp.apply ⟨2048#32, BitVec.ofInt 32 (d * 2)⟩ parent).asMillis = 4096 ∧
    (TimeWarp.apply ⟨5000#32, BitVec.ofInt 32 (Int.tdiv d (-2))⟩ parent).asMillis = 452 ∧
    (TimeWarp.apply ⟨0#32, BitVec.ofInt 32 (Int.tdiv d 2)⟩ parent).asMillis = 2048 := by decide +kernel

/-! ## client/rust/src/contract/properties/channels/misc.rs:42-84

`ease(function, from, to, time)` of the keyframe crate is `from.ease(to, function.y(time))`; `Linear.y(x) = x`, and
`Step.y(x)` is 0 below one half and 1 from there on.  The times are the `f64` nearest to the literals. -/
namespace TweenTest

def linear (q : ℚ) : FTime := .fin q
def stepped (q : ℚ) : FTime := .fin (if q < 1 / 2 then 0 else 1)

/-- The `f64`s nearest to 0.1, 0.9, 0.49, 0.09, 0.11, 0.89 and 0.91. -/
def d010 : ℚ := 3602879701896397 / 2 ^ 55
def d090 : ℚ := 8106479329266893 / 2 ^ 53
def d049 : ℚ := 4413527634823086 / 2 ^ 53
def d009 : ℚ := 6485183463413514 / 2 ^ 56
def d011 : ℚ := 7926335344172073 / 2 ^ 56
def d089 : ℚ := 8016407336719483 / 2 ^ 53
def d091 : ℚ := 8196551321814303 / 2 ^ 53

theorem repo_test_jump_tween :
    jumpEase (-2 : ℤ) 8 (linear 0) = -2 ∧ jumpEase (-2 : ℤ) 8 (linear d010) = -2 ∧
    jumpEase (-2 : ℤ) 8 (linear d090) = -2 ∧ jumpEase (-2 : ℤ) 8 (linear 1) = 8 ∧
    jumpEase (-2 : ℤ) 8 (stepped 0) = -2 ∧ jumpEase (-2 : ℤ) 8 (stepped d010) = -2 ∧
    jumpEase (-2 : ℤ) 8 (stepped d049) = -2 ∧ jumpEase (-2 : ℤ) 8 (stepped (1 / 2)) = 8 ∧
    jumpEase (-2 : ℤ) 8 (stepped d090) = 8 ∧ jumpEase (-2 : ℤ) 8 (stepped 1) = 8 := by decide +kernel

/-- Two binary32 numbers, one of them with a full significand, are at least a unit in its last place apart. -/
theorem repr_apart {z : ℚ} (hz : F32Repr z) {m e : ℤ} (hm : 2 ^ 23 < m) (hne : z ≠ m * (2 : ℚ) ^ e) :
    (2 : ℚ) ^ e ≤ |z - m * (2 : ℚ) ^ e| := by
  obtain ⟨m', e', h1, _, _, rfl⟩ := hz
  have hp : (0 : ℚ) < 2 ^ e := zpow_pos (by norm_num) _
  by_cases he : e ≤ e'
  · obtain ⟨k, hk⟩ := Int.eq_ofNat_of_zero_le (sub_nonneg.2 he)
    have e1 : (2 : ℚ) ^ e' = (2 : ℚ) ^ e * 2 ^ k := by
      rw [← zpow_natCast (2 : ℚ) k, ← zpow_add₀ (by norm_num)]; congr 1; omega
    rw [e1] at hne ⊢
    have : (m' : ℚ) * ((2 : ℚ) ^ e * 2 ^ k) - m * (2 : ℚ) ^ e = (2 : ℚ) ^ e * ((m' * 2 ^ k - m : ℤ) : ℚ) := by
      push_cast; ring
    rw [this, abs_mul, abs_of_pos hp]
    have hn : (m' * 2 ^ k - m : ℤ) ≠ 0 := by
      intro h0
      rw [h0] at this
      apply hne
      simp only [Int.cast_zero, mul_zero] at this
      exact sub_eq_zero.1 this
    have : (1 : ℚ) ≤ |((m' * 2 ^ k - m : ℤ) : ℚ)| := by
      rw [← Int.cast_abs]; exact_mod_cast Int.one_le_abs hn
    nlinarith
  · have hlt : (2 : ℚ) ^ e' ≤ (2 : ℚ) ^ (e - 1) := zpow_le_zpow_right₀ (by norm_num) (by omega)
    have e2 : (2 : ℚ) ^ e = (2 : ℚ) ^ (e - 1) * 2 := by rw [← zpow_add_one₀ (by norm_num)]; congr 1; omega
    have hp' : (0 : ℚ) < 2 ^ e' := zpow_pos (by norm_num) _
    have hm' : |(m' : ℚ)| < 2 ^ 24 := by rw [← Int.cast_abs]; exact_mod_cast h1
    have hmq : (2 : ℚ) ^ 23 + 1 ≤ m := by exact_mod_cast hm
    have hz : |(m' : ℚ) * 2 ^ e'| ≤ 2 ^ 24 * 2 ^ (e - 1) := by
      rw [abs_mul, abs_of_pos hp']
      exact mul_le_mul hm'.le hlt hp'.le (by norm_num)
    have := abs_le.1 hz
    rw [abs_sub_comm]
    refine le_trans ?_ (le_abs_self _)
    nlinarith

/-- Rounding gives a number that is clearly nearest. -/
theorem rnd_is (R : F32Round) {x : ℚ} {m e : ℤ} (hm : 2 ^ 23 < m) (hm' : m < 2 ^ 24) (he : -149 ≤ e) (he' : e ≤ 104)
    (hx : |m * (2 : ℚ) ^ e - x| * 2 < (2 : ℚ) ^ e) : R.rnd x = m * (2 : ℚ) ^ e := by
  refine Classical.byContradiction fun hne => ?_
  have h1 := R.nearest x (m * (2 : ℚ) ^ e) ⟨m, e, by rw [abs_of_nonneg (by omega)]; exact hm', he, he', rfl⟩
  have h2 := repr_apart (R.repr x) hm hne
  have h3 : |R.rnd x - m * (2 : ℚ) ^ e| ≤ |R.rnd x - x| + |m * (2 : ℚ) ^ e - x| := by
    have : R.rnd x - m * (2 : ℚ) ^ e = (R.rnd x - x) - (m * (2 : ℚ) ^ e - x) := by ring
    rw [this]; exact abs_sub _ _
  linarith

/-- The tween of the test, from -2 to 8, at a time that rounds to something between `lo` and `hi`. -/
theorem tween_at (R : F32Round) {q lo hi plo phi : ℚ} {n : ℤ} (h1 : lo ≤ R.rnd q) (h2 : R.rnd q ≤ hi)
    (r1 : F32Repr plo) (r2 : F32Repr phi) (h3 : plo ≤ lo * 10) (h4 : hi * 10 ≤ phi) (h0 : 0 ≤ n) (hn : n ≤ 10)
    (h5 : n ≤ plo) (h6 : phi < n + 1) : intEaseAt R .i32 (-2) 8 (linear q) = .ok (-2 + n) := by
  have r10 : R.rnd ((8 - -2 : ℤ) : ℚ) = 10 := by
    have := R.exact (f32Repr_int 10 (by norm_num)); simpa using this
  have hlo : (n : ℚ) ≤ R.rnd (R.rnd q * 10) := h5.trans (by rw [← R.exact r1]; exact R.mono (by linarith))
  have hhi : R.rnd (R.rnd q * 10) < n + 1 := lt_of_le_of_lt (by rw [← R.exact r2]; exact R.mono (by linarith)) h6
  have hf : ⌊R.rnd (R.rnd q * 10)⌋ = n := Int.floor_eq_iff.2 ⟨hlo, hhi⟩
  have hs : scaledDiff R (R.rnd ((8 - -2 : ℤ) : ℚ)) (linear q) = n := by
    rw [r10]
    show asU32 _ = n
    unfold asU32
    rw [if_neg (not_lt.2 (le_trans (by exact_mod_cast h0) hlo)), hf]
    exact min_eq_left (by omega)
  unfold intEaseAt
  rw [if_neg (by decide)]
  simp only [hs]
  rw [if_neg (by simp [IntTy.Has, IntTy.i32]; omega), if_neg (by simp [IntTy.Has, IntTy.i32]; omega)]

theorem between (R : F32Round) {q lo hi : ℚ} (r1 : F32Repr lo) (r2 : F32Repr hi) (h1 : lo ≤ q) (h2 : q ≤ hi) :
    lo ≤ R.rnd q ∧ R.rnd q ≤ hi :=
  ⟨by rw [← R.exact r1]; exact R.mono h1, by rw [← R.exact r2]; exact R.mono h2⟩

theorem repr_of (m : ℤ) (e : ℤ) (x : ℚ) (hm : |m| < 2 ^ 24) (h1 : -149 ≤ e) (h2 : e ≤ 104) (hx : x = m * (2 : ℚ) ^ e) :
    F32Repr x := ⟨m, e, hm, h1, h2, hx⟩

/-- `test_int_tween`, whatever way `f32` arithmetic breaks ties. -/
theorem repo_test_int_tween (R : F32Round) :
    intEaseAt R .i32 (-2) 8 (linear 0) = .ok (-2) ∧
    intEaseAt R .i32 (-2) 8 (linear d009) = .ok (-2) ∧ intEaseAt R .i32 (-2) 8 (linear d010) = .ok (-1) ∧
    intEaseAt R .i32 (-2) 8 (linear d011) = .ok (-1) ∧ intEaseAt R .i32 (-2) 8 (linear d089) = .ok 6 ∧
    intEaseAt R .i32 (-2) 8 (linear d090) = .ok 7 ∧ intEaseAt R .i32 (-2) 8 (linear d091) = .ok 7 ∧
    intEaseAt R .i32 (-2) 8 (linear 1) = .ok 8 ∧
    intEaseAt R .i32 (-2) 8 (stepped 0) = .ok (-2) ∧ intEaseAt R .i32 (-2) 8 (stepped d010) = .ok (-2) ∧
    intEaseAt R .i32 (-2) 8 (stepped d049) = .ok (-2) ∧ intEaseAt R .i32 (-2) 8 (stepped (1 / 2)) = .ok 8 ∧
    intEaseAt R .i32 (-2) 8 (stepped d090) = .ok 8 ∧ intEaseAt R .i32 (-2) 8 (stepped 1) = .ok 8 := by
  have z : intEaseAt R .i32 (-2) 8 (linear 0) = .ok (-2) :=
    tween_at R (n := 0) (lo := 0) (hi := 0) (plo := 0) (phi := 0) (by rw [rnd_zero]) (by rw [rnd_zero])
      (repr_of 0 0 _ (by norm_num) (by norm_num) (by norm_num) (by norm_num))
      (repr_of 0 0 _ (by norm_num) (by norm_num) (by norm_num) (by norm_num)) (by norm_num) (by norm_num) (by norm_num)
      (by norm_num) (by norm_num) (by norm_num)
  have o : intEaseAt R .i32 (-2) 8 (linear 1) = .ok 8 :=
    tween_at R (n := 10) (lo := 1) (hi := 1) (plo := 10) (phi := 10) (by rw [rnd_one]) (by rw [rnd_one])
      (repr_of 10 0 _ (by norm_num) (by norm_num) (by norm_num) (by norm_num))
      (repr_of 10 0 _ (by norm_num) (by norm_num) (by norm_num) (by norm_num)) (by norm_num) (by norm_num) (by norm_num)
      (by norm_num) (by norm_num) (by norm_num)
  have s0 : ∀ q : ℚ, q < 1 / 2 → intEaseAt R .i32 (-2) 8 (stepped q) = .ok (-2) := fun q h => by
    unfold stepped; rw [if_pos h]; exact z
  have s1 : ∀ q : ℚ, ¬ q < 1 / 2 → intEaseAt R .i32 (-2) 8 (stepped q) = .ok 8 := fun q h => by
    unfold stepped; rw [if_neg h]; exact o
  refine ⟨z, ?_, ?_, ?_, ?_, ?_, ?_, o, s0 _ (by norm_num), s0 _ (by norm_num [d010]), s0 _ (by norm_num [d049]),
    s1 _ (by norm_num), s1 _ (by norm_num [d090]), s1 _ (by norm_num)⟩
  · obtain ⟨h1, h2⟩ := between R (q := d009) (lo := 0) (hi := 3 / 32)
      (repr_of 0 0 _ (by norm_num) (by norm_num) (by norm_num) (by norm_num))
      (repr_of 3 (-5) _ (by norm_num) (by norm_num) (by norm_num) (by norm_num)) (by norm_num [d009]) (by norm_num [d009])
    exact tween_at R (n := 0) (plo := 0) (phi := 15 / 16) h1 h2
      (repr_of 0 0 _ (by norm_num) (by norm_num) (by norm_num) (by norm_num))
      (repr_of 15 (-4) _ (by norm_num) (by norm_num) (by norm_num) (by norm_num)) (by norm_num) (by norm_num) (by norm_num)
      (by norm_num) (by norm_num) (by norm_num)
  · have h := rnd_is R (x := d010) (m := 13421773) (e := -27) (by norm_num) (by norm_num) (by norm_num) (by norm_num)
      (by norm_num [d010, abs_lt, abs_of_pos])
    exact tween_at R (n := 1) (plo := 1) (phi := 3 / 2) h.ge h.le
      (repr_of 1 0 _ (by norm_num) (by norm_num) (by norm_num) (by norm_num))
      (repr_of 3 (-1) _ (by norm_num) (by norm_num) (by norm_num) (by norm_num)) (by norm_num) (by norm_num) (by norm_num)
      (by norm_num) (by norm_num) (by norm_num)
  · obtain ⟨h1, h2⟩ := between R (q := d011) (lo := 7 / 64) (hi := 1 / 8)
      (repr_of 7 (-6) _ (by norm_num) (by norm_num) (by norm_num) (by norm_num))
      (repr_of 1 (-3) _ (by norm_num) (by norm_num) (by norm_num) (by norm_num)) (by norm_num [d011]) (by norm_num [d011])
    exact tween_at R (n := 1) (plo := 1) (phi := 5 / 4) h1 h2
      (repr_of 1 0 _ (by norm_num) (by norm_num) (by norm_num) (by norm_num))
      (repr_of 5 (-2) _ (by norm_num) (by norm_num) (by norm_num) (by norm_num)) (by norm_num) (by norm_num) (by norm_num)
      (by norm_num) (by norm_num) (by norm_num)
  · obtain ⟨h1, h2⟩ := between R (q := d089) (lo := 7 / 8) (hi := 57 / 64)
      (repr_of 7 (-3) _ (by norm_num) (by norm_num) (by norm_num) (by norm_num))
      (repr_of 57 (-6) _ (by norm_num) (by norm_num) (by norm_num) (by norm_num)) (by norm_num [d089]) (by norm_num [d089])
    exact tween_at R (n := 8) (plo := 8) (phi := 143 / 16) h1 h2
      (repr_of 8 0 _ (by norm_num) (by norm_num) (by norm_num) (by norm_num))
      (repr_of 143 (-4) _ (by norm_num) (by norm_num) (by norm_num) (by norm_num)) (by norm_num) (by norm_num) (by norm_num)
      (by norm_num) (by norm_num) (by norm_num)
  · have h := rnd_is R (x := d090) (m := 15099494) (e := -24) (by norm_num) (by norm_num) (by norm_num) (by norm_num)
      (by norm_num [d090, abs_lt, abs_of_pos])
    have h' := rnd_is R (x := R.rnd d090 * 10) (m := 9437184) (e := -20) (by norm_num) (by norm_num) (by norm_num)
      (by norm_num) (by rw [h]; norm_num [abs_lt, abs_of_pos])
    have r10 : R.rnd ((8 - -2 : ℤ) : ℚ) = 10 := by
      have := R.exact (f32Repr_int 10 (by norm_num)); simpa using this
    have hs : scaledDiff R (R.rnd ((8 - -2 : ℤ) : ℚ)) (linear d090) = 9 := by
      rw [r10]
      show asU32 _ = 9
      rw [h']; norm_num [asU32]
    unfold intEaseAt
    rw [if_neg (by decide)]
    simp only [hs]
    decide
  · obtain ⟨h1, h2⟩ := between R (q := d091) (lo := 29 / 32) (hi := 15 / 16)
      (repr_of 29 (-5) _ (by norm_num) (by norm_num) (by norm_num) (by norm_num))
      (repr_of 15 (-4) _ (by norm_num) (by norm_num) (by norm_num) (by norm_num)) (by norm_num [d091]) (by norm_num [d091])
    exact tween_at R (n := 9) (plo := 9) (phi := 75 / 8) h1 h2
      (repr_of 9 0 _ (by norm_num) (by norm_num) (by norm_num) (by norm_num))
      (repr_of 75 (-3) _ (by norm_num) (by norm_num) (by norm_num) (by norm_num)) (by norm_num) (by norm_num) (by norm_num)
      (by norm_num) (by norm_num) (by norm_num)

end TweenTest

/-! ## client/contract_macro/tests/test.rs:4-31, `test_macros` -/

theorem repo_test_macros :
    ((expandProps (.struct_ (.named [("s1", .prim .u32), ("f1", .prim .f64)]))).map Expansion.typeIds =
      .ok [.prim .u32, .prim .f64]) ∧
    ((expandProps (.struct_ (.named [("c1", .prim .f32), ("c_whatever", .prim .u8)]))).map Expansion.typeIds =
      .ok [.prim .f32, .prim .u8]) := by decide +kernel

/-! ## crates/rsharp/rust/macro/src/remangle.rs:50-61, `test_mangle_path` -/

theorem repo_test_mangle_path :
    ∀ e ∈ [("::crate::a::b::c", "crate__a__b__c__"), ("crate::a::b::c", "crate__a__b__c__"), ("crate", "crate__"), ("::", "")],
      manglePath Char.isWhitespace e.1.toList = e.2.toList := by decide +kernel

/-! ## crates/rsharp/rust/macro/src/substitute.rs:80-145, `test_substitute`

The items as trees; the texts that the lexer prints for the attribute. -/
namespace SubstituteTest

def invocation : Syn := .mac [] substituteName []
def hello : Syn := .node 99 [] []
/-- `mod my { pub fn asdf() { let a = □; let b = { □ }; } }` -/
def item (x : Syn) : Syn := .node 0 [] [.node 1 [] [.node 2 [] [x], .node 3 [] [.node 4 [] [x]]]]
/-- `#[derive…] struct MyStruct;` -/
def derived (attr : String) : Syn := .node 5 [attr.toList] []

theorem repo_test_substitute :
    expandSubstitute some hello "\"hello\"".toList 20 (item invocation) = .done (item hello) ∧
    expandSubstitute some hello "Default".toList 20 (derived "(substitute! ())") = .done (derived "(Default)") ∧
    expandSubstitute some hello "Default".toList 20 (derived "(substitute ! ())") = .done (derived "(Default)") :=
  ⟨rfl, rfl, rfl⟩

end SubstituteTest

/-! ## client/serialize/rust/tests/round_trip.rs:52-277, `test_round_trip` -/
namespace RoundTripTest

structure Fields where
  u8_0 : BitVec 8
  u8_1 : BitVec 8
  i8_0 : BitVec 8
  i8_1 : BitVec 8
  f32_0 : BitVec 32
  f32_1 : BitVec 32
  str_0 : String
deriving DecidableEq

def EmptyC : ContractTy := ⟨⟨"empty", 0, 0, 0⟩, [], []⟩

def fields : List Fields :=
  [⟨0, 255, 255, 254, 1036831949, 1045220557, "0"⟩,
   ⟨1, 254, 254, 253, 1066192077, 1067030938, "1"⟩,
   ⟨2, 253, 253, 252, 1074161254, 1074580685, "2"⟩,
   ⟨3, 252, 252, 251, 1078355558, 1078774989, "3"⟩,
   ⟨4, 251, 251, 250, 1082340147, 1082549862, "4"⟩,
   ⟨5, 250, 250, 249, 1084437299, 1084647014, "5"⟩,
   ⟨6, 249, 249, 248, 1086534451, 1086744166, "6"⟩,
   ⟨7, 248, 248, 247, 1088631603, 1088841318, "7"⟩,
   ⟨8, 247, 247, 246, 1090623898, 1090728755, "8"⟩,
   ⟨9, 246, 246, 245, 1091672474, 1091777331, "9"⟩]

/-- The arguments of one `object_create` (134-144). -/
def Fields.states (f : Fields) (eo e : Idx) : List DynProp :=
  [.primitive (.u8 f.u8_0), .primitive (.u8 f.u8_1), .primitive (.i8 f.i8_0), .primitive (.i8 f.i8_1),
   .primitive (.f32 f.f32_0), .primitive (.f32 f.f32_1), .primitive (.string f.str_0), .primitive (.objectHandle eo),
   .primitive (.contractDataHandle e)]

/-- The loop of `create_baseline` (133-149). -/
def createObjects (c eo e : Idx) : List Fields → Baseline → Option Baseline
  | [], b => some b
  | f :: fs, b => match b.objectCreate Example.C c (f.states eo e) [] with
    | (b', .ok _) => createObjects c eo e fs b'
    | _ => none

/-- `create_baseline` (122-152); a failure of a call shows as `none`. -/
def createBaseline (fs : List Fields) : Option (Idx × Idx × Baseline) :=
  match (Baseline.new .main).registerContract EmptyC with
  | (b1, .ok e) => match b1.objectCreate EmptyC e [] [] with
    | (b2, .ok eo) => match b2.registerContract Example.C with
      | (b3, .ok c) => (createObjects c eo e fs b3).map fun b => (e, c, b)
      | _ => none
    | _ => none
  | _ => none

/-- Bind a field of the contract with handle `c` and read it. -/
def readField (b : Baseline) (o : Idx) (p : PrimType) (d : Option DynId) : Option p.Carrier :=
  match d with
  | none => none
  | some d => match b.bindState d.id o with
    | .ok h => match b.state (.prim p) h with
      | .ok v => some v
      | _ => none
    | _ => none

def readFields (b : Baseline) (c o : Idx) : Option Fields := do
  let u8_0 ← readField b o .u8 (Example.u8_0 c)
  let u8_1 ← readField b o .u8 (Example.u8_1 c)
  let i8_0 ← readField b o .i8 (Example.i8_0 c)
  let i8_1 ← readField b o .i8 (Example.i8_1 c)
  let f32_0 ← readField b o .f32 (Example.f32_0 c)
  let f32_1 ← readField b o .f32 (Example.f32_1 c)
  let str_0 ← readField b o .string (Example.str_0 c)
  return ⟨u8_0, u8_1, i8_0, i8_1, f32_0, f32_1, str_0⟩

/-- `==` of the derived `PartialEq` of `Fields` (round_trip.rs:41): the floats are compared as numbers. -/
def Fields.rustEq (f g : Fields) : Bool :=
  f.u8_0 == g.u8_0 && f.u8_1 == g.u8_1 && f.i8_0 == g.i8_0 && f.i8_1 == g.i8_1 && fmt32.feq f.f32_0 g.f32_0 &&
    fmt32.feq f.f32_1 g.f32_1 && f.str_0 == g.str_0

/-- The loop over the objects (202-271), records being compared by `eq`: each matches one of the fields that are left, and its references lead to the
`EmptyContract` and its object. -/
def checkObjects (eq : Fields → Fields → Bool) (b : Baseline) (e c : Idx) : List Idx → List Fields → Bool
  | [], left => left.isEmpty
  | o :: os, left =>
    match readFields b c o, readField b o .contractDataHandle (Example.ch_0 c), readField b o .objectHandle (Example.oh_0 c) with
    | some f, some ch, some oh =>
      left.any (fun g => eq g f) &&
      (match b.contractData ch with
        | .ok cd => cd.id == EmptyC.id && cd.objects.length == 1
        | _ => false) &&
      (match b.object oh with
        | .ok ob => decide (ob.contract = e)
        | _ => false) &&
      checkObjects eq b e c os (left.eraseP fun g => eq g f)
    | _, _, _ => false

/-- `check_matches_fields` (154-277). -/
def check (eq : Fields → Fields → Bool) (fs : List Fields) (e c : Idx) (b : Baseline) : Bool :=
  match b.contractData c, b.contractData e with
  | .ok cd, .ok ce =>
    cd.id == Example.C.id && cd.objects.length == fs.length && ce.id == EmptyC.id && ce.objects.length == 1 &&
      checkObjects eq b e c cd.objects fs
  | _, _ => false

/-- The test (52-120): `none` where it would panic or return an error. -/
def test (eq : Fields → Fields → Bool) (fs : List Fields) (ordX ordE : HashOrder) (ordC ordO : IterOrder (Idx × Nat)) (sched : IterOrder (ContractTy × Idx))
    (ord' : IterOrder (Nat × Idx)) (hord : HashOrder) : Option Bool :=
  match createBaseline fs with
  | none => none
  | some (e, c, b) =>
    if check eq fs e c b then
      match Spec.Cycle.run ⟨[(Example.C, c, ordX), (EmptyC, e, ordE)], ordC, ordO, [Example.C, EmptyC], .main, sched, ord', hord⟩ b with
      | .ok ([(_, c'), (_, e')], b') => some (check eq fs e' c' b')
      | _ => none
    else none

theorem repo_test_round_trip : test Fields.rustEq fields .id .id .id .id .id .id .id = some true := by decide +kernel

end RoundTripTest

/-! ## The C# tests

A C# program is its list of calls; wrappers are numbered in the order of their construction.  An exception of the right kind
is `InvalidOperationException` (`Nullable.Value`). -/
namespace CsTest
open Verif.Ffi

def u8 (x : BitVec 8) : VCall := .method (.primNew .u8) ⟨x, by simp [DynProp.ofTyped]⟩ []
def i8 (x : BitVec 8) : VCall := .method (.primNew .i8) ⟨x, by simp [DynProp.ofTyped]⟩ []
def f64 (x : BitVec 64) : VCall := .method (.primNew .f64) ⟨x, by simp [DynProp.ofTyped]⟩ []
def new (i : Nat) : VRes := .ok (some i) none
def done : VRes := .ok none none
def val (v : DynPrim) : VRes := .ok none (some (.prim (.primitive v)))

/-- client/cs/tests/Baseline.cs:14-28, `TestKind` -/
theorem repo_test_kind :
    VWorld.empty.run [.method .baselineNew true [], .method .baselineNew false [], .method .baselineIsMain () [0],
      .method .baselineIsMain () [1], .dispose 0, .dispose 1, .method .baselineIsMain () [0],
      .method .baselineIsMain () [1]] =
    [new 0, new 1, .ok none (some (.bool true)), .ok none (some (.bool false)), done, done, .exception, .exception] := by
  decide +kernel

/-- client/cs/tests/Contract.cs:16-44, `TestExampleContract` -/
theorem repo_test_example_contract :
    VWorld.empty.run [.method .baselineNew true [], .method .exRegister () [0], .method .exHandle () [1],
      .method .baselineContractData () [0, 2], .method .contractDataId () [3], .method .contractIdName () [4],
      .method .contractDataId () [3], .method .contractIdVersion () [5], .method .baselineContractData () [0, 2],
      .method .contractDataId () [6], .method .contractIdName () [7], .method .contractIdVersion () [7],
      .dispose 3, .dispose 6, .method .contractDataId () [3], .method .contractDataId () [6], .dispose 2, .dispose 1,
      .method .exHandle () [1], .dispose 0, .method .baselineIsMain () [0]] =
    [new 0, new 1, new 2, new 3, new 4, .ok none (some (.name "teleportal.example-ffi-contract")),
      new 5, .ok none (some (.version (1, 2, 3))), new 6,
      new 7, .ok none (some (.name "teleportal.example-ffi-contract")), .ok none (some (.version (1, 2, 3))),
      done, done, .exception, .exception, done, done,
      .exception, done, .exception] := by
  decide +kernel

/-- client/cs/tests/Keyframe.cs:16-27, `TestScalar` (1.0 is 0x3FF0000000000000) -/
theorem repo_test_scalar :
    VWorld.empty.run [u8 10, .method (.keyframeNew .u8) 0x3FF0000000000000#64 [0], .method (.keyframeValue .u8) () [1],
      .method (.primValue .u8) () [2], .method (.keyframeTime .u8) () [1], .dispose 1, .method (.keyframeValue .u8) () [1]] =
    [new 0, new 1, new 2, val (.u8 10), .ok none (some (.time 0x3FF0000000000000#64)), done, .exception] := by
  decide +kernel

/-- client/cs/tests/Keyframe.cs:30-59, `TestVec`, which is commented out because it crashed.  In the model it passes: what the
authors saw has its cause in parts that are not modelled (how a structure is returned to C#, crates/rsharp/cs/src/RVec.cs:16-25,
is up to the generated bindings and the machine).  Two keyframes instead of four. -/
theorem repo_test_vec :
    VWorld.empty.run [.method .rvecNew () [], u8 0, .method (.keyframeNew .u8) 0 [1], u8 1,
      .method (.keyframeNew .u8) 0x3FE0000000000000#64 [3], .method .rvecPush () [0, 2], .method .rvecPush () [0, 4],
      .method .rvecGet 0#32 [0], .method (.keyframeValue .u8) () [5], .method (.primValue .u8) () [6],
      .method (.keyframeTime .u8) () [5],
      .method .rvecGet 1#32 [0], .method (.keyframeValue .u8) () [7], .method (.primValue .u8) () [8],
      .method (.keyframeTime .u8) () [7], .dispose 0, .method .rvecGet 0#32 [0]] =
    [new 0, new 1, new 2, new 3, new 4, done, done, new 5, new 6, val (.u8 0), .ok none (some (.time 0)),
      new 7, new 8, val (.u8 1), .ok none (some (.time 0x3FE0000000000000#64)), done, .exception] := by
  decide +kernel

/-- client/cs/tests/State.cs:15-28, `TestI8` -/
theorem repo_test_i8 :
    VWorld.empty.run [i8 (-20), .method (.stateNew .i8) () [0], .method (.stateValue .i8) () [1],
      .method (.primValue .i8) () [2], i8 10, .method (.stateSetValue .i8) () [1, 3], .method (.stateValue .i8) () [1],
      .method (.primValue .i8) () [4], .dispose 1, .method (.stateValue .i8) () [1]] =
    [new 0, new 1, new 2, val (.i8 (-20)), new 3, done, new 4, val (.i8 10), done, .exception] := by
  decide +kernel

/-- client/cs/tests/State.cs:30-44, `TestF64`; "`b` should be moved from" is seen by reading it. -/
theorem repo_test_f64 :
    VWorld.empty.run [f64 0x40D3B561EE0453E6#64, .method (.stateNew .f64) () [0], .method (.primValue .f64) () [0],
      .method (.stateValue .f64) () [1], .method (.primValue .f64) () [2], f64 0xC0EBBE32F185B40A#64,
      .method (.stateSetValue .f64) () [1, 3], .method (.stateValue .f64) () [1], .method (.primValue .f64) () [4],
      .dispose 1, .method (.stateValue .f64) () [1]] =
    [new 0, new 1, .exception, new 2, val (.f64 0x40D3B561EE0453E6#64), new 3, done, new 4,
      val (.f64 0xC0EBBE32F185B40A#64), done, .exception] := by
  decide +kernel

/-- client/cs/tests/State.cs:46-62, `TestString`, and crates/rsharp/cs/test/RString.cs:14-24, `TestString1` -/
theorem repo_test_string :
    VWorld.empty.run [.method (.primNew .string) ⟨"Hello!", by simp [DynProp.ofTyped]⟩ [], .method (.primValue .string) () [0],
      .method (.stateNew .string) () [0], .method (.stateValue .string) () [1], .method (.primValue .string) () [2],
      .method (.primValue .string) () [0], .dispose 0, .method (.stateValue .string) () [1],
      .method (.primValue .string) () [3], .dispose 1, .method (.stateValue .string) () [1]] =
    [new 0, val (.string "Hello!"), new 1, new 2, val (.string "Hello!"), .exception, done, new 3, val (.string "Hello!"), done,
      .exception] := by
  decide +kernel

/-- crates/rsharp/cs/test/RBox.cs:18-26, `TestU8` -/
theorem repo_test_u8 :
    VWorld.empty.run [u8 10, .method (.primValue .u8) () [0], .dispose 0, .method (.primValue .u8) () [0]] =
    [new 0, val (.u8 10), done, .exception] := by decide +kernel

/-- client/cs/tests/StateId.cs:17-49, `TestContractDataHandle`.  It has no `[Fact]`, so it never runs; it would fail, because
after disposing of `i8_0` twice it expects `i8_1` to be disposed of (and `f32_1` after `f32_0`). -/
theorem repo_test_state_id :
    VWorld.empty.run [.method .baselineNew true [], .method .exRegister () [0], .method .exStates () [1],
      .method (.exField .i8) ⟨"i8_0", by decide⟩ [2], .method (.exField .i8) ⟨"i8_1", by decide⟩ [2],
      .method .exHandle () [1], .method (.stateIdContract .i8) () [3], .method (.primValue .contractDataHandle) () [5],
      .method (.primValue .contractDataHandle) () [6],
      .dispose 3, .method (.stateIdContract .i8) () [3], .dispose 3, .method (.stateIdContract .i8) () [4]] =
    [new 0, new 1, new 2, new 3, new 4, new 5, new 6, val (.contractDataHandle ⟨0, 0⟩), val (.contractDataHandle ⟨0, 0⟩),
      done, .exception, done, new 7] := by
  decide +kernel

/-- client/cs/tests/Object.cs:17-51, `TestObjectCreate`: the C# method passes three pointers to a native function that takes
five (client/contract_example/rust/src/lib.rs:75-104), so at this commit the test does not get past the call. -/
theorem repo_test_object_create :
    VWorld.empty.run [.method .baselineNew true [], .method .exRegister () [0], .method .exStates () [1],
      .method (.primNew .string) ⟨"foobar", by simp [DynProp.ofTyped]⟩ [], .method .exObjectCreate () [1, 0, 3]] =
    [new 0, new 1, new 2, new 3, .fault .arity] := by
  decide +kernel

/-- demos/unity_states/cs/tests/BallContract.cs:14-36, `Test`: the C# method passes a contract handle where the native function
wants a contract (demos/unity_states/rust/src/lib.rs:168-211). -/
theorem repo_test_ball_contract :
    VWorld.empty.run [.method .baselineNew true [], .method .ballRegister () [0], .method .ballStates () [1],
      .method .ballHandle () [1], .method .ballObjectCreate () [0, 3]] =
    [new 0, new 1, new 2, new 3, .fault .wrongType] := by
  decide +kernel

end CsTest
end Verif.Props
