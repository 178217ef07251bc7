import Verif.Proofs.Channel
import Mathlib.Data.List.Sort
/-! # C37–C39: channel construction and tweening -/
namespace Verif.Props
open Verif Spec

/-! ## C37 -/

/-- Specification: IEEE `<=` on f64 bit patterns, neither a NaN: the sign-magnitude order with the two
zeroes identified. -/
def TimeLe (x y : BitVec 64) : Prop :=
  ¬ F64NaN x ∧ ¬ F64NaN y ∧
  (if 2 ^ 63 ≤ x.toNat then -((x.toNat % 2 ^ 63 : Nat) : Int) else ((x.toNat % 2 ^ 63 : Nat) : Int)) ≤
  (if 2 ^ 63 ≤ y.toNat then -((y.toNat % 2 ^ 63 : Nat) : Int) else ((y.toNat % 2 ^ 63 : Nat) : Int))

/-- **C37.** If no keyframe time is NaN, `Channel::new` returns, with a rearrangement of the given
keyframes in non-decreasing time order — for every standard-conforming sort. -/
theorem C37_sorted_permutation {α : Type} (impl : SortImpl (Keyframe α)) (ks : List (Keyframe α))
    (h : ∀ k ∈ ks, ¬ F64NaN k.time) :
    ∃ out, channelNew impl ks = some out ∧ out.Perm ks ∧
      out.Pairwise (fun a b => TimeLe a.time b.time) := by
  obtain ⟨out, h1, h2⟩ := impl.sorted keyframeCmp ks (keyframeCmp_total ks h)
  have hp := impl.perm _ _ _ h1
  refine ⟨out, h1, hp, h2.imp_of_mem ?_⟩
  intro a b ha hb hab
  have ha' := h a (hp.mem_iff.1 ha)
  have hb' := h b (hp.mem_iff.1 hb)
  rw [keyframeCmp_eq a b ha' hb', int_compare_ne_gt, fmt64_key, fmt64_key] at hab
  exact ⟨ha', hb', hab⟩

/-- **C37, partial** for arbitrary times: whatever the times, if `Channel::new` returns it has lost and
invented no keyframe.  Missing: that it returns when some time is NaN — the comparison is then not a
total order and the standard library permits a panic. -/
theorem C37_permutation_partial {α : Type} (impl : SortImpl (Keyframe α)) (ks out : List (Keyframe α))
    (h : channelNew impl ks = some out) : out.Perm ks := impl.perm _ _ _ h

open Classical in
/-- A standard-conforming sort (merge sort) that panics when the comparison is not a total order. -/
noncomputable def strictSort (α : Type) : SortImpl α where
  sort cmp l := if TotalOn cmp l then some (l.mergeSort (fun a b => cmp a b != .gt)) else none
  perm cmp l l' h := by
    split at h
    · cases h; exact List.mergeSort_perm _ _
    · cases h
  sorted cmp l h := by
    refine ⟨_, if_pos h, ?_⟩
    have key : ∀ l' : List α, (∀ a ∈ l', a ∈ l) →
        (l'.mergeSort (fun a b => cmp a b != .gt)).Pairwise (fun a b => cmp a b ≠ .gt) := by
      intro l' hsub
      -- merge sort of the attached list, where the comparison is total and transitive
      have hp := List.mergeSort_perm l' (fun a b => cmp a b != .gt)
      let le : {a // a ∈ l'} → {a // a ∈ l'} → Bool := fun a b => cmp a.1 b.1 != .gt
      have hs := List.pairwise_mergeSort (le := le)
        (fun a b c h1 h2 => by
          have := h.2 a.1 (hsub _ a.2) b.1 (hsub _ b.2) c.1 (hsub _ c.2)
          simp only [le, bne_iff_ne, ne_eq] at *; exact this h1 h2)
        (fun a b => by
          have := h.1 a.1 (hsub _ a.2) b.1 (hsub _ b.2)
          simp only [le, Bool.or_eq_true, bne_iff_ne, ne_eq, this]
          cases cmp a.1 b.1 <;> simp [Ordering.swap]) l'.attach
      have hm : (l'.attach.mergeSort le).map Subtype.val = l'.mergeSort (fun a b => cmp a b != .gt) := by
        rw [List.map_mergeSort (s := fun a b => cmp a b != .gt) (fun a _ b _ => rfl), List.attach_map_subtype_val]
      rw [← hm, List.pairwise_map]
      exact hs.imp (by intro a b hab; simpa [le] using hab)
    exact key l (fun a h => h)

/-- **C37** (false of the code for NaN times): a standard-conforming sort may panic on a channel with a
NaN time, here between 2.0 and 1.0. -/
theorem C37_negation_nan_may_panic : ∃ impl : SortImpl (Keyframe Nat),
    channelNew impl [⟨0, 0x4000000000000000#64⟩, ⟨1, 0x7ff8000000000000#64⟩, ⟨2, 0x3ff0000000000000#64⟩] = none := by
  refine ⟨strictSort _, ?_⟩
  unfold channelNew strictSort
  refine if_neg ?_
  rintro ⟨_, htrans⟩
  have := htrans ⟨0, 0x4000000000000000#64⟩ (by simp) ⟨1, 0x7ff8000000000000#64⟩ (by simp)
    ⟨2, 0x3ff0000000000000#64⟩ (by simp) (by decide) (by decide)
  exact this (by decide)

example : ∃ out, channelNew (strictSort (Keyframe Nat))
      [⟨0, 0x4000000000000000#64⟩, ⟨1, 0x8000000000000000#64⟩, ⟨2, 0x3ff0000000000000#64⟩] = some out ∧
      out.Pairwise (fun a b => TimeLe a.time b.time) := by
  obtain ⟨out, h1, _, h3⟩ := C37_sorted_permutation (strictSort (Keyframe Nat))
    [⟨0, 0x4000000000000000#64⟩, ⟨1, 0x8000000000000000#64⟩, ⟨2, 0x3ff0000000000000#64⟩]
    (by unfold F64NaN; decide)
  exact ⟨out, h1, h3⟩

/-! ## C38 -/

/-- What C38 asks: exact end points, and in between for times in [0,1], monotone towards the target. -/
def TweenOk (R : F32Round) (T : IntTy) (a b : ℤ) : Prop :=
  intEase R T a b 0 = .ok a ∧ intEase R T a b 1 = .ok b ∧
  ∀ s t : ℚ, 0 ≤ s → s ≤ t → t ≤ 1 → ∃ x y : ℤ, intEase R T a b s = .ok x ∧ intEase R T a b t = .ok y ∧
    ((a ≤ x ∧ x ≤ y ∧ y ≤ b) ∨ (b ≤ y ∧ y ≤ x ∧ x ≤ a))

/-- Tweening upwards over a distance that the integer type can represent and that survives the conversion to `f32` and
then to `u32`. -/
theorem tween_ascending (R : F32Round) (T : IntTy) (a b : ℤ) (h0 : T.Has 0) (ha : T.Has a)
    (hb : T.Has b) (hab : a ≤ b) (hfit : T.Has (b - a)) (hu : asU32 (R.rnd ((b - a : ℤ) : ℚ)) = b - a) :
    TweenOk R T a b := by
  have r0 : R.rnd 0 = 0 := R.exact (by simpa using f32Repr_int 0 (by norm_num))
  have r1 : R.rnd 1 = 1 := R.exact (by simpa using f32Repr_int 1 (by norm_num))
  have hdnn : (0 : ℚ) ≤ R.rnd ((b - a : ℤ) : ℚ) := by
    have := R.mono (x := 0) (y := ((b - a : ℤ) : ℚ)) (by exact_mod_cast (by omega : (0 : ℤ) ≤ b - a))
    rwa [r0] at this
  have hmono : ∀ x y : ℚ, x ≤ y → asU32 x ≤ asU32 y := by
    intro x y h
    have hf := Int.floor_le_floor h
    unfold asU32
    split
    · split
      · exact le_rfl
      · rename_i hy
        have := Int.floor_nonneg.2 (not_lt.1 hy)
        exact le_min this (by norm_num)
    · rename_i hx
      rw [if_neg (by linarith)]
      exact min_le_min_right _ hf
  have z0 : asU32 0 = 0 := by unfold asU32; simp
  -- scaled difference at a time in [0,1]
  have hsc : ∀ t : ℚ, 0 ≤ t → t ≤ 1 → 0 ≤ asU32 (R.rnd (R.rnd t * R.rnd ((b - a : ℤ) : ℚ))) ∧
      asU32 (R.rnd (R.rnd t * R.rnd ((b - a : ℤ) : ℚ))) ≤ b - a := by
    intro t ht0 ht1
    have e0 : 0 ≤ R.rnd t := by have := R.mono ht0; rwa [r0] at this
    have e1 : R.rnd t ≤ 1 := by have := R.mono ht1; rwa [r1] at this
    constructor
    · have := hmono _ _ (R.mono (mul_nonneg e0 hdnn)); rwa [r0, z0] at this
    · have := hmono _ _ (R.mono (mul_le_of_le_one_left hdnn e1)); rwa [R.exact (R.repr _), hu] at this
  have hease : ∀ t : ℚ, 0 ≤ t → t ≤ 1 →
      intEase R T a b t = .ok (a + asU32 (R.rnd (R.rnd t * R.rnd ((b - a : ℤ) : ℚ)))) := by
    intro t ht0 ht1
    obtain ⟨f0, f1⟩ := hsc t ht0 ht1
    unfold intEase
    simp only
    generalize asU32 (R.rnd (R.rnd t * R.rnd ((b - a : ℤ) : ℚ))) = z at f0 f1 ⊢
    unfold IntTy.Has at *
    rw [if_neg (not_not.2 hfit), if_neg (not_not.2 ⟨by omega, by omega⟩),
      if_neg (not_not.2 ⟨by omega, by omega⟩)]
  refine ⟨?_, ?_, ?_⟩
  · have := hease 0 le_rfl (by norm_num)
    rw [r0, zero_mul, r0, z0] at this; simpa using this
  · have := hease 1 (by norm_num) le_rfl
    rw [r1, one_mul, R.exact (R.repr _), hu] at this
    rw [this]; congr 1; omega
  · intro s t hs hst ht
    have x1 := hease s hs (hst.trans ht)
    have y1 := hease t (hs.trans hst) ht
    obtain ⟨x2, x3⟩ := hsc s hs (hst.trans ht)
    obtain ⟨y2, y3⟩ := hsc t (hs.trans hst) ht
    refine ⟨_, _, x1, y1, .inl ⟨by omega, ?_, by omega⟩⟩
    have := hmono _ _ (R.mono (mul_le_mul_of_nonneg_right (R.mono hst) hdnn))
    omega

/-- Distances that binary32 and 32 bits can represent. -/
theorem asU32_exact {R : F32Round} {d : ℤ} (h0 : 0 ≤ d) (hr : F32Repr (d : ℚ)) (hd : d < 2 ^ 32) :
    asU32 (R.rnd (d : ℚ)) = d := by
  rw [R.exact hr]
  unfold asU32
  have : (0 : ℚ) ≤ d := by exact_mod_cast h0
  rw [if_neg (by linarith), Int.floor_intCast]
  exact min_eq_left (by omega)

/-- **C38, partial.** Tweening upwards over a distance of at most 2^24 that the integer type can
represent behaves as specified, for every integer type and every rounding to nearest.  Missing (and
false): downwards, and over longer distances. -/
theorem C38_ascending_partial (R : F32Round) (T : IntTy) (a b : ℤ) (h0 : T.Has 0) (ha : T.Has a)
    (hb : T.Has b) (hab : a ≤ b) (hfit : T.Has (b - a)) (hd : b - a ≤ 2 ^ 24) : TweenOk R T a b :=
  tween_ascending R T a b h0 ha hb hab hfit
    (asU32_exact (by omega) (f32Repr_int _ (by rw [abs_le]; omega)) (by omega))

example : IntTy.i32.Has 0 ∧ IntTy.i32.Has (-2) ∧ IntTy.i32.Has 8 ∧ IntTy.i32.Has (8 - -2) ∧
    (8 : ℤ) - -2 ≤ 2 ^ 24 := by decide

/-- The ranges in C38 are those of the machine types: the values of 8- and 32-bit words, read as signed or as unsigned. -/
theorem C38_ranges_partial (x : ℤ) :
    (IntTy.i8.Has x ↔ ∃ w : BitVec 8, w.toInt = x) ∧ (IntTy.u8.Has x ↔ ∃ w : BitVec 8, (w.toNat : ℤ) = x) ∧
    (IntTy.i32.Has x ↔ ∃ w : BitVec 32, w.toInt = x) ∧ (IntTy.u32.Has x ↔ ∃ w : BitVec 32, (w.toNat : ℤ) = x) := by
  refine ⟨⟨fun h => ⟨BitVec.ofInt 8 x, ?_⟩, ?_⟩, ⟨fun h => ⟨BitVec.ofInt 8 x, ?_⟩, ?_⟩, ⟨fun h => ⟨BitVec.ofInt 32 x, ?_⟩, ?_⟩,
    ⟨fun h => ⟨BitVec.ofInt 32 x, ?_⟩, ?_⟩⟩
  · simp only [IntTy.Has, IntTy.i8] at h
    rw [BitVec.toInt_ofInt]; simp only [Int.bmod]; split <;> omega
  · rintro ⟨w, rfl⟩
    have h1 := w.toInt_lt; have h2 := w.le_toInt
    simp only [IntTy.Has, IntTy.i8]; omega
  · simp only [IntTy.Has, IntTy.u8] at h
    rw [BitVec.toNat_ofInt]; omega
  · rintro ⟨w, rfl⟩
    have h1 := w.isLt
    simp only [IntTy.Has, IntTy.u8]; omega
  · simp only [IntTy.Has, IntTy.i32] at h
    rw [BitVec.toInt_ofInt]; simp only [Int.bmod]; split <;> omega
  · rintro ⟨w, rfl⟩
    have h1 := w.toInt_lt; have h2 := w.le_toInt
    simp only [IntTy.Has, IntTy.i32]; omega
  · simp only [IntTy.Has, IntTy.u32] at h
    rw [BitVec.toNat_ofInt]; omega
  · rintro ⟨w, rfl⟩
    have h1 := w.isLt
    simp only [IntTy.Has, IntTy.u32]; omega

/-- **C38** (false of the code): tweening a signed integer *down* never moves: at every time in [0,1] —
even at the end — the start value is returned. -/
theorem C38_negation_descending_stuck (R : F32Round) (T : IntTy) (a b : ℤ) (h0 : T.Has 0) (ha : T.Has a)
    (hba : b < a) (hfit : T.Has (b - a)) (t : ℚ) (ht0 : 0 ≤ t) (_ht1 : t ≤ 1) :
    intEase R T a b t = .ok a := by
  have r0 : R.rnd 0 = 0 := R.exact (by simpa using f32Repr_int 0 (by norm_num))
  have hdn : R.rnd ((b - a : ℤ) : ℚ) ≤ 0 := by
    have : ((b - a : ℤ) : ℚ) ≤ 0 := by exact_mod_cast (by omega : b - a ≤ (0 : ℤ))
    have := R.mono this; rwa [r0] at this
  have e0 : 0 ≤ R.rnd t := by have := R.mono ht0; rwa [r0] at this
  have hx : R.rnd (R.rnd t * R.rnd ((b - a : ℤ) : ℚ)) ≤ 0 := by
    have := R.mono (mul_nonpos_of_nonneg_of_nonpos e0 hdn); rwa [r0] at this
  have hu : asU32 (R.rnd (R.rnd t * R.rnd ((b - a : ℤ) : ℚ))) = 0 := by
    unfold asU32
    split
    · rfl
    · have : R.rnd (R.rnd t * R.rnd ((b - a : ℤ) : ℚ)) = 0 := le_antisymm hx (by linarith)
      rw [this]; simp
  unfold intEase
  simp only [hu, add_zero]
  rw [if_neg (by simpa using hfit), if_neg (by simpa using h0), if_neg (by simpa using ha)]

/-- **C38** (false of the code): tweening an unsigned integer down panics. -/
theorem C38_negation_unsigned_descending (R : F32Round) (T : IntTy) (a b : ℤ) (hlo : T.lo = 0)
    (hba : b < a) (t : ℚ) : ∃ m, intEase R T a b t = .panic m := by
  refine ⟨"attempt to subtract with overflow", ?_⟩
  unfold intEase
  rw [if_pos]
  unfold IntTy.Has; omega

/-- **C38** (false of the code): a long way up misses the target — from 0 to 16 777 217 the tween does
not end at the target, whatever the tie-breaking rule. -/
theorem C38_negation_long_distance (R : F32Round) :
    intEase R .i32 0 16777217 1 ≠ .ok 16777217 ∧ ¬ TweenOk R .i32 0 16777217 := by
  have main : intEase R .i32 0 16777217 1 ≠ .ok 16777217 := by
    have r1 : R.rnd 1 = 1 := R.exact (by simpa using f32Repr_int 1 (by norm_num))
    have hlo : (16777216 : ℚ) ≤ R.rnd ((16777217 : ℤ) : ℚ) := by
      have h := R.mono (x := ((16777216 : ℤ) : ℚ)) (y := ((16777217 : ℤ) : ℚ)) (by norm_num)
      rw [R.exact (f32Repr_int 16777216 (by norm_num))] at h
      push_cast at h ⊢; linarith
    intro h
    unfold intEase at h
    simp only [r1, one_mul, sub_zero, zero_add] at h
    rw [R.exact (R.repr _)] at h
    split at h
    · cases h
    · split at h
      · cases h
      · have h' : asU32 (R.rnd ((16777217 : ℤ) : ℚ)) = 16777217 := by
          injection h
        obtain ⟨m, e, hm, he1, he2, hme⟩ := R.repr ((16777217 : ℤ) : ℚ)
        -- the rounded value is an integer, so its floor being 16777217 makes it 16777217
        have hfl : ⌊R.rnd ((16777217 : ℤ) : ℚ)⌋ = 16777217 := by
          unfold asU32 at h'
          rw [if_neg (by linarith)] at h'
          omega
        have hge : (16777217 : ℚ) ≤ R.rnd ((16777217 : ℤ) : ℚ) := by
          have := Int.floor_le (R.rnd ((16777217 : ℤ) : ℚ)); rw [hfl] at this; exact_mod_cast this
        rcases le_or_gt e 0 with he | he
        · have hp : (2 : ℚ) ^ e ≤ 1 := zpow_le_one_of_nonpos₀ (by norm_num) he
          have hp0 : (0 : ℚ) < (2 : ℚ) ^ e := zpow_pos (by norm_num) e
          have hmq : (m : ℚ) ≤ 16777216 := by exact_mod_cast (abs_le.1 hm.le).2
          have : (m : ℚ) * (2 : ℚ) ^ e ≤ 16777216 := by
            rcases le_or_gt (0 : ℚ) m with h0 | h0
            · exact (mul_le_of_le_one_right h0 hp).trans hmq
            · have := mul_neg_of_neg_of_pos h0 hp0; linarith
          rw [hme] at hge; linarith
        · obtain ⟨k, rfl⟩ := Int.eq_ofNat_of_zero_le he.le
          rw [zpow_natCast] at hme
          have hi : R.rnd ((16777217 : ℤ) : ℚ) = ((m * 2 ^ k : ℤ) : ℚ) := by rw [hme]; push_cast; ring
          rw [hi, Int.floor_intCast] at hfl
          exact not_f32Repr_16777217 (hfl ▸ hi ▸ R.repr _)
  exact ⟨main, fun h => main h.2.1⟩

/-- A binary32 number from 2^24 up is an integer. -/
theorem F32Repr_big_int {x : ℚ} (h : F32Repr x) (hx : 16777216 ≤ x) : ∃ n : ℤ, x = n := by
  obtain ⟨m, e, hm, he1, he2, hme⟩ := h
  rcases le_or_gt 0 e with he | he
  · obtain ⟨k, rfl⟩ := Int.eq_ofNat_of_zero_le he
    rw [zpow_natCast] at hme
    exact ⟨m * 2 ^ k, by rw [hme]; push_cast; ring⟩
  · exfalso
    have hp : (2 : ℚ) ^ e ≤ 1 := zpow_le_one_of_nonpos₀ (by norm_num) he.le
    have hp0 : (0 : ℚ) < (2 : ℚ) ^ e := zpow_pos (by norm_num) e
    have hmq : (m : ℚ) < 16777216 := by exact_mod_cast (abs_lt.1 hm).2
    rcases le_or_gt (0 : ℚ) m with h0 | h0
    · have := (mul_le_of_le_one_right h0 hp); linarith
    · have := mul_neg_of_neg_of_pos h0 hp0; linarith

/-- **C38, partial: exactly when it holds.** Tweening behaves as specified if and only if it goes upwards over a distance
that the integer type can represent and that is a binary32 number below 2^32, or is 2^32 - 1 (which the conversion rounds up and
then cuts down again); for every integer type and every rounding to nearest. -/
theorem C38_exact_partial (R : F32Round) (T : IntTy) (a b : ℤ) (h0 : T.Has 0) (ha : T.Has a) (hb : T.Has b) :
    TweenOk R T a b ↔ a ≤ b ∧ T.Has (b - a) ∧
      ((F32Repr ((b - a : ℤ) : ℚ) ∧ b - a < 2 ^ 32) ∨ b - a = 2 ^ 32 - 1) := by
  constructor
  · rintro ⟨_, h1, _⟩
    have hfit : T.Has (b - a) := by
      by_contra hn
      unfold intEase at h1
      rw [if_pos hn] at h1; cases h1
    have hab : a ≤ b := by
      by_contra hn
      rw [C38_negation_descending_stuck R T a b h0 ha (by omega) hfit 1 (by norm_num) le_rfl] at h1
      injection h1 with h1; omega
    have r1 : R.rnd 1 = 1 := R.exact (by simpa using f32Repr_int 1 (by norm_num))
    have hu : asU32 (R.rnd ((b - a : ℤ) : ℚ)) = b - a := by
      unfold intEase at h1
      rw [if_neg (not_not.2 hfit), r1] at h1
      simp only [one_mul] at h1
      rw [R.exact (R.repr _)] at h1
      split at h1
      · cases h1
      · split at h1
        · cases h1
        · injection h1 with h1; omega
    refine ⟨hab, hfit, ?_⟩
    have hlt : b - a < 2 ^ 32 := by
      unfold asU32 at hu
      split at hu
      · omega
      · have := min_le_right ⌊R.rnd ((b - a : ℤ) : ℚ)⌋ 4294967295
        omega
    by_cases hs : b - a ≤ 2 ^ 24
    · exact .inl ⟨f32Repr_int _ (by rw [abs_le]; omega), hlt⟩
    · have hbig : (16777216 : ℚ) ≤ R.rnd ((b - a : ℤ) : ℚ) := by
        have h := R.mono (x := ((16777216 : ℤ) : ℚ)) (y := ((b - a : ℤ) : ℚ)) (by exact_mod_cast (by omega : (16777216 : ℤ) ≤ b - a))
        rw [R.exact (f32Repr_int 16777216 (by norm_num))] at h
        exact_mod_cast h
      obtain ⟨n, hn⟩ := F32Repr_big_int (R.repr _) hbig
      unfold asU32 at hu
      rw [if_neg (by linarith), hn, Int.floor_intCast] at hu
      by_cases hle : n ≤ 4294967295
      · rw [min_eq_left hle] at hu
        refine .inl ⟨?_, hlt⟩
        rw [← hu, ← hn]; exact R.repr _
      · rw [min_eq_right (by omega)] at hu
        exact .inr (by omega)
  · rintro ⟨h1, h2, ⟨h3, h4⟩ | h3⟩
    · exact tween_ascending R T a b h0 ha hb h1 h2 (asU32_exact (by omega) h3 h4)
    · refine tween_ascending R T a b h0 ha hb h1 h2 ?_
      rw [h3]
      -- 2^32 is one away, so the nearest number is not below 2^32 - 1
      have hr : F32Repr (4294967296 : ℚ) := ⟨1, 32, by norm_num, by norm_num, by norm_num, by norm_num⟩
      have hnear := R.nearest ((2 ^ 32 - 1 : ℤ) : ℚ) 4294967296 hr
      have hle : R.rnd ((2 ^ 32 - 1 : ℤ) : ℚ) ≤ 4294967296 := by
        have := R.mono (x := ((2 ^ 32 - 1 : ℤ) : ℚ)) (y := 4294967296) (by norm_num)
        rwa [R.exact hr] at this
      have hge : (4294967294 : ℚ) ≤ R.rnd ((2 ^ 32 - 1 : ℤ) : ℚ) := by
        rw [abs_le] at hnear
        have := hnear.1
        norm_num at this ⊢
        linarith
      obtain ⟨m, e, hm, he1, he2, hme⟩ := R.repr ((2 ^ 32 - 1 : ℤ) : ℚ)
      have he : 8 < e := by
        by_contra hn
        have hp : (2 : ℚ) ^ e ≤ 2 ^ (8 : ℤ) := zpow_le_zpow_right₀ (by norm_num) (by omega)
        have hp0 : (0 : ℚ) < (2 : ℚ) ^ e := zpow_pos (by norm_num) e
        have hmq : (m : ℚ) ≤ 16777215 := by exact_mod_cast (by have := (abs_lt.1 hm).2; omega : m ≤ 16777215)
        have : (m : ℚ) * (2 : ℚ) ^ e ≤ 16777215 * 256 := by
          rcases le_or_gt (0 : ℚ) m with g | g
          · exact mul_le_mul hmq (hp.trans (by norm_num)) hp0.le (by norm_num)
          · have := mul_neg_of_neg_of_pos g hp0; linarith
        rw [hme] at hge; linarith
      obtain ⟨k, hk⟩ := Int.eq_ofNat_of_zero_le (by omega : 0 ≤ e - 9)
      have hi : R.rnd ((2 ^ 32 - 1 : ℤ) : ℚ) = ((512 * (m * 2 ^ k) : ℤ) : ℚ) := by
        rw [hme, show e = 9 + (k : ℤ) by omega, zpow_add₀ (by norm_num), zpow_natCast]; push_cast; ring
      have h1' : (512 * (m * 2 ^ k) : ℤ) ≤ 4294967296 := by rw [hi] at hle; exact_mod_cast hle
      have h2' : (4294967294 : ℤ) ≤ 512 * (m * 2 ^ k) := by rw [hi] at hge; exact_mod_cast hge
      have : (512 * (m * 2 ^ k) : ℤ) = 4294967296 := by omega
      rw [hi, this]
      unfold asU32
      rw [if_neg (by norm_num), Int.floor_intCast]
      norm_num

/-- Upwards over 3 * 2^24 between two `i32`: longer than `C38_ascending_partial` covers, and still exact; and all the way from 0 to
the largest `u32`. -/
example (R : F32Round) : TweenOk R .i32 (-7) (50331648 - 7) ∧ TweenOk R .u32 0 4294967295 := by
  refine ⟨(C38_exact_partial R .i32 _ _ (by decide) (by decide) (by decide)).2 ⟨by decide, by decide, .inl ⟨?_, by decide⟩⟩,
    (C38_exact_partial R .u32 _ _ (by decide) (by decide) (by decide)).2 ⟨by decide, by decide, .inr (by decide)⟩⟩
  exact ⟨3, 24, by norm_num, by norm_num, by norm_num, by norm_num⟩

example : (∃ _R : F32Round, True) ∧ IntTy.i32.Has (3 - 10) ∧ IntTy.u8.lo = 0 :=
  ⟨exists_F32Round.elim fun R => ⟨R, trivial⟩, by decide, rfl⟩

/-! ## C110: times outside [0,1] -/

/-- At finite times `intEaseAt` is the function of C38. -/
theorem intEaseAt_fin (R : F32Round) (T : IntTy) (a b : ℤ) (q : ℚ) : intEaseAt R T a b (.fin q) = intEase R T a b q := rfl

/-- Claim C110: between values whose distance the type can represent, every time gives a value; before the beginning the
start, after the end the target. -/
def TweenClamps (R : F32Round) (T : IntTy) : Prop :=
  ∀ a b : ℤ, T.Has a → T.Has b → T.Has (b - a) →
    (∀ t : FTime, ∃ v, intEaseAt R T a b t = .ok v) ∧
    (∀ q : ℚ, q ≤ 0 → intEaseAt R T a b (.fin q) = .ok a) ∧ intEaseAt R T a b (.inf true) = .ok a ∧
    (∀ q : ℚ, 1 ≤ q → intEaseAt R T a b (.fin q) = .ok b) ∧ intEaseAt R T a b (.inf false) = .ok b

theorem asU32_mono {x y : ℚ} (h : x ≤ y) : asU32 x ≤ asU32 y := by
  have hf := Int.floor_le_floor h
  unfold asU32
  split
  · split
    · exact le_rfl
    · rename_i hy
      have := Int.floor_nonneg.2 (not_lt.1 hy)
      exact le_min this (by norm_num)
  · rename_i hx
    rw [if_neg (by linarith)]
    exact min_le_min_right _ hf

theorem asU32_nonneg (x : ℚ) : 0 ≤ asU32 x ∧ asU32 x ≤ 4294967295 := by
  unfold asU32
  split
  · exact ⟨le_rfl, by norm_num⟩
  · rename_i hx
    exact ⟨le_min (Int.floor_nonneg.2 (not_lt.1 hx)) (by norm_num), min_le_right _ _⟩

theorem asU32_nonpos {x : ℚ} (h : x ≤ 0) : asU32 x = 0 := by
  have h1 := asU32_mono h
  have h2 := (asU32_nonneg x).1
  have z0 : asU32 0 = 0 := by unfold asU32; simp
  omega

theorem rnd_zero (R : F32Round) : R.rnd 0 = 0 := R.exact (by simpa using f32Repr_int 0 (by norm_num))
theorem rnd_one (R : F32Round) : R.rnd 1 = 1 := R.exact (by simpa using f32Repr_int 1 (by norm_num))

theorem intEaseAt_ok {R : F32Round} {T : IntTy} {a b : ℤ} {t : FTime} {v : ℤ} :
    intEaseAt R T a b t = .ok v ↔ T.Has (b - a) ∧ T.Has (scaledDiff R (R.rnd (b - a : ℤ)) t) ∧
      T.Has (a + scaledDiff R (R.rnd (b - a : ℤ)) t) ∧ v = a + scaledDiff R (R.rnd (b - a : ℤ)) t := by
  unfold intEaseAt
  by_cases h1 : T.Has (b - a)
  · rw [if_neg (not_not.2 h1)]
    simp only
    by_cases h2 : T.Has (scaledDiff R (R.rnd (b - a : ℤ)) t)
    · rw [if_neg (not_not.2 h2)]
      by_cases h3 : T.Has (a + scaledDiff R (R.rnd (b - a : ℤ)) t)
      · rw [if_neg (not_not.2 h3)]
        simp only [h1, h2, h3, true_and, Outcome.ok.injEq]
        exact eq_comm
      · rw [if_pos h3]; exact ⟨fun h => (by cases h), fun h => absurd h.2.2.1 h3⟩
    · rw [if_pos h2]; exact ⟨fun h => (by cases h), fun h => absurd h.2.1 h2⟩
  · rw [if_pos h1]; exact ⟨fun h => (by cases h), fun h => absurd h.1 h1⟩

theorem scaled_nonneg (R : F32Round) (d : ℚ) (t : FTime) : 0 ≤ scaledDiff R d t ∧ scaledDiff R d t ≤ 4294967295 := by
  unfold scaledDiff
  split
  · exact ⟨le_rfl, by norm_num⟩
  · split
    · exact ⟨le_rfl, by norm_num⟩
    · split
      · exact ⟨by norm_num, le_rfl⟩
      · exact ⟨le_rfl, by norm_num⟩
  · exact asU32_nonneg _

theorem scaled_inf_same (R : F32Round) {d : ℚ} {n : Bool} (h : ¬ decide (d < 0) = n) : scaledDiff R d (.inf n) = 0 := by
  unfold scaledDiff
  by_cases hz : d = 0
  · exact if_pos hz
  · simp only
    rw [if_neg hz, if_neg h]

theorem scaled_inf_diff (R : F32Round) {d : ℚ} {n : Bool} (hz : d ≠ 0) (h : decide (d < 0) = n) :
    scaledDiff R d (.inf n) = 4294967295 := by
  unfold scaledDiff
  simp only
  rw [if_neg hz, if_pos h]

/-- **C110, partial.** What does hold at every time: the result is never below the start and at most 2^32 - 1 above it; the
start is returned at NaN, and when going up at every time up to 0 and minus infinity, and when not going up at every time
from 0 and plus infinity. -/
theorem C110_start_partial (R : F32Round) (T : IntTy) (a b : ℤ) (h0 : T.Has 0) (ha : T.Has a) (hfit : T.Has (b - a)) :
    (∀ (t : FTime) (v : ℤ), intEaseAt R T a b t = .ok v → a ≤ v ∧ v ≤ a + 4294967295) ∧
    intEaseAt R T a b .nan = .ok a ∧
    (a ≤ b → (∀ q : ℚ, q ≤ 0 → intEaseAt R T a b (.fin q) = .ok a) ∧ intEaseAt R T a b (.inf true) = .ok a) ∧
    (b ≤ a → (∀ q : ℚ, 0 ≤ q → intEaseAt R T a b (.fin q) = .ok a) ∧ intEaseAt R T a b (.inf false) = .ok a) := by
  have still : ∀ t : FTime, scaledDiff R (R.rnd (b - a : ℤ)) t = 0 → intEaseAt R T a b t = .ok a := by
    intro t h
    rw [intEaseAt_ok, h]
    exact ⟨hfit, h0, by simpa using ha, by simp⟩
  refine ⟨?_, still _ rfl, fun hab => ?_, fun hba => ?_⟩
  · intro t v hv
    obtain ⟨_, _, _, rfl⟩ := intEaseAt_ok.1 hv
    obtain ⟨h1, h2⟩ := scaled_nonneg R (R.rnd (b - a : ℤ)) t
    omega
  · have hd : 0 ≤ R.rnd ((b - a : ℤ) : ℚ) := by
      have := R.mono (x := 0) (y := ((b - a : ℤ) : ℚ)) (by exact_mod_cast (by omega : (0 : ℤ) ≤ b - a))
      rwa [rnd_zero R] at this
    refine ⟨fun q hq => still _ ?_, still _ ?_⟩
    · have e0 : R.rnd q ≤ 0 := by have := R.mono hq; rwa [rnd_zero R] at this
      refine asU32_nonpos ?_
      have := R.mono (mul_nonpos_of_nonpos_of_nonneg e0 hd); rwa [rnd_zero R] at this
    · exact scaled_inf_same R (n := true) (fun h => absurd (of_decide_eq_true h) (not_lt.2 hd))
  · have hd : R.rnd ((b - a : ℤ) : ℚ) ≤ 0 := by
      have := R.mono (x := ((b - a : ℤ) : ℚ)) (y := 0) (by exact_mod_cast (by omega : b - a ≤ (0 : ℤ)))
      rwa [rnd_zero R] at this
    refine ⟨fun q hq => still _ ?_, still _ ?_⟩
    · have e0 : 0 ≤ R.rnd q := by have := R.mono hq; rwa [rnd_zero R] at this
      refine asU32_nonpos ?_
      have := R.mono (mul_nonpos_of_nonneg_of_nonpos e0 hd); rwa [rnd_zero R] at this
    · by_cases hz : R.rnd ((b - a : ℤ) : ℚ) = 0
      · exact if_pos hz
      · exact scaled_inf_same R (n := false) (fun h => absurd (lt_of_le_of_ne hd hz) (decide_eq_false_iff_not.1 h))

/-- **C110, partial.** Going up, past the end: whether a time gives a value is decided by a threshold, the value grows
with the time, and (if the distance is one of C38) it is never below the target. -/
theorem C110_past_the_end_partial (R : F32Round) (T : IntTy) (a b : ℤ) (h0 : T.Has 0) (ha : T.Has a) (hab : a ≤ b) :
    (∀ (s t : ℚ) (w : ℤ), s ≤ t → intEaseAt R T a b (.fin t) = .ok w →
      ∃ v : ℤ, intEaseAt R T a b (.fin s) = .ok v ∧ v ≤ w) ∧
    (∀ (t : ℚ) (w : ℤ), 1 ≤ t → TweenOk R T a b → intEaseAt R T a b (.fin t) = .ok w → b ≤ w) ∧
    (a < b → ∀ w : ℤ, intEaseAt R T a b (.inf false) = .ok w ↔
      T.Has (b - a) ∧ T.Has 4294967295 ∧ T.Has (a + 4294967295) ∧ w = a + 4294967295) := by
  have hd : 0 ≤ R.rnd ((b - a : ℤ) : ℚ) := by
    have := R.mono (x := 0) (y := ((b - a : ℤ) : ℚ)) (by exact_mod_cast (by omega : (0 : ℤ) ≤ b - a))
    rwa [rnd_zero R] at this
  have hm : ∀ s t : ℚ, s ≤ t → scaledDiff R (R.rnd ((b - a : ℤ) : ℚ)) (.fin s) ≤ scaledDiff R (R.rnd ((b - a : ℤ) : ℚ)) (.fin t) :=
    fun s t h => asU32_mono (R.mono (mul_le_mul_of_nonneg_right (R.mono h) hd))
  have mono : ∀ (s t : ℚ) (w : ℤ), s ≤ t → intEaseAt R T a b (.fin t) = .ok w →
      ∃ v : ℤ, intEaseAt R T a b (.fin s) = .ok v ∧ v ≤ w := by
    intro s t w hst hw
    obtain ⟨h1, h2, h3, rfl⟩ := intEaseAt_ok.1 hw
    have hle := hm s t hst
    have hnn := (scaled_nonneg R (R.rnd ((b - a : ℤ) : ℚ)) (.fin s)).1
    refine ⟨_, intEaseAt_ok.2 ⟨h1, ?_, ?_, rfl⟩, by omega⟩ <;>
    · unfold IntTy.Has at *; omega
  refine ⟨mono, ?_, ?_⟩
  · rintro t w ht ⟨_, h1, _⟩ hw
    obtain ⟨v, hv, hvw⟩ := mono 1 t w ht hw
    rw [intEaseAt_fin, h1] at hv
    injection hv with hv; omega
  · intro hlt w
    have hd' : 1 ≤ R.rnd ((b - a : ℤ) : ℚ) := by
      have := R.mono (x := 1) (y := ((b - a : ℤ) : ℚ)) (by exact_mod_cast (by omega : (1 : ℤ) ≤ b - a))
      rwa [rnd_one R] at this
    have hs : scaledDiff R (R.rnd ((b - a : ℤ) : ℚ)) (.inf false) = 4294967295 :=
      scaled_inf_diff R (by intro h; rw [h] at hd'; norm_num at hd') (decide_eq_false (not_lt.2 hd))
    rw [intEaseAt_ok, hs]

/-- **C110 is false of the code**, shown for `u8` and `i32`: an easing function that overshoots
(like the "back" and "elastic" ones) may crash the tween, or send it past the target. -/
theorem C110_negation (R : F32Round) : ¬ TweenClamps R .u8 ∧ ¬ TweenClamps R .i32 ∧
    (∃ m, intEaseAt R .u8 0 200 (.fin 2) = .panic m) ∧ intEaseAt R .i32 0 200 (.fin 2) = .ok 400 ∧
    ∃ m, intEaseAt R .i32 0 200 (.inf false) = .panic m := by
  have r2 : R.rnd 2 = 2 := R.exact (by simpa using f32Repr_int 2 (by norm_num))
  have r200 : R.rnd 200 = 200 := R.exact (by simpa using f32Repr_int 200 (by norm_num))
  have r400 : R.rnd 400 = 400 := R.exact (by simpa using f32Repr_int 400 (by norm_num))
  have e : scaledDiff R (R.rnd ((200 - 0 : ℤ) : ℚ)) (.fin 2) = 400 := by
    have h : ((200 - 0 : ℤ) : ℚ) = 200 := by norm_num
    rw [h]
    unfold scaledDiff
    simp only
    rw [r2, r200, show (2 : ℚ) * 200 = 400 by norm_num, r400]
    unfold asU32
    rw [if_neg (by norm_num), show (400 : ℚ) = ((400 : ℤ) : ℚ) by norm_num, Int.floor_intCast]; rfl
  have einf : scaledDiff R (R.rnd ((200 - 0 : ℤ) : ℚ)) (.inf false) = 4294967295 := by
    have h : ((200 - 0 : ℤ) : ℚ) = 200 := by norm_num
    rw [h, r200]
    unfold scaledDiff
    norm_num
  have p8 : ∃ m, intEaseAt R .u8 0 200 (.fin 2) = .panic m := by
    refine ⟨"called `Option::unwrap()` on a `None` value", ?_⟩
    unfold intEaseAt
    simp only [e]
    rw [if_neg (by decide), if_pos (by decide)]
  have v32 : intEaseAt R .i32 0 200 (.fin 2) = .ok 400 := by
    rw [intEaseAt_ok, e]; decide
  have pinf : ∃ m, intEaseAt R .i32 0 200 (.inf false) = .panic m := by
    refine ⟨"called `Option::unwrap()` on a `None` value", ?_⟩
    unfold intEaseAt
    simp only [einf]
    rw [if_neg (by decide), if_pos (by decide)]
  refine ⟨fun h => ?_, fun h => ?_, p8, v32, pinf⟩
  · obtain ⟨v, hv⟩ := (h 0 200 (by decide) (by decide) (by decide)).1 (.fin 2)
    obtain ⟨m, hm⟩ := p8
    rw [hm] at hv; cases hv
  · have := (h 0 200 (by decide) (by decide) (by decide)).2.2.2.1 2 (by norm_num)
    rw [v32] at this
    injection this with this
    norm_num at this

/-- The hypotheses of the partial theorems are met, for a signed type in both directions. -/
example : IntTy.i32.Has 0 ∧ IntTy.i32.Has 200 ∧ IntTy.i32.Has (200 - 0) ∧ IntTy.i32.Has (0 - 200) ∧
    ∃ R : F32Round, intEaseAt R .i32 0 200 (.fin (-3)) = .ok 0 ∧ intEaseAt R .i32 200 0 (.fin 7) = .ok 200 := by
  refine ⟨by decide, by decide, by decide, by decide, exists_F32Round.elim fun R => ⟨R, ?_, ?_⟩⟩
  · exact ((C110_start_partial R .i32 0 200 (by decide) (by decide) (by decide)).2.2.1 (by norm_num)).1 _ (by norm_num)
  · exact ((C110_start_partial R .i32 200 0 (by decide) (by decide) (by decide)).2.2.2 (by norm_num)).1 _ (by norm_num)

/-! ## C39 -/

/-- **C39.** Jump tweening returns the start value at every time in [0,1) and the target at every time
≥ 1, including +infinity. -/
theorem C39_jump {α : Type} (a b : α) :
    (∀ q : ℚ, 0 ≤ q → q < 1 → jumpEase a b (.fin q) = a) ∧
    (∀ q : ℚ, 1 ≤ q → jumpEase a b (.fin q) = b) ∧ jumpEase a b (.inf false) = b := by
  refine ⟨fun q h0 h1 => ?_, fun q h1 => ?_, rfl⟩
  · have : ⌊q⌋ = 0 := Int.floor_eq_zero_iff.2 ⟨h0, h1⟩
    simp [jumpEase, FTime.truncIsZero, h0, this]
  · have h0 : 0 ≤ q := by linarith
    have : ⌊q⌋ ≠ 0 := by
      have := Int.le_floor (z := 1) (a := q) |>.2 (by exact_mod_cast h1); omega
    simp [jumpEase, FTime.truncIsZero, h0, this]

/-- **C39**, outside the documented range: just below zero the start value is still returned, from -1
down (and for NaN) the target. -/
theorem C39_jump_outside {α : Type} (a b : α) :
    (∀ q : ℚ, -1 < q → q < 0 → jumpEase a b (.fin q) = a) ∧
    (∀ q : ℚ, q ≤ -1 → jumpEase a b (.fin q) = b) ∧ jumpEase a b .nan = b := by
  refine ⟨fun q h1 h0 => ?_, fun q h1 => ?_, rfl⟩
  · have : ⌈q⌉ = 0 := Int.ceil_eq_zero_iff.2 ⟨h1, h0.le⟩
    simp [jumpEase, FTime.truncIsZero, not_le.2 h0, this]
  · have h0 : ¬ 0 ≤ q := by linarith
    have : ⌈q⌉ ≠ 0 := by
      have := Int.ceil_le (z := -1) (a := q) |>.2 (by exact_mod_cast h1); omega
    simp [jumpEase, FTime.truncIsZero, h0, this]

example : jumpEase (-2 : ℤ) 8 (.fin (9 / 10)) = -2 ∧ jumpEase (-2 : ℤ) 8 (.fin 1) = 8 :=
  ⟨(C39_jump (-2 : ℤ) 8).1 (9 / 10) (by norm_num) (by norm_num), (C39_jump (-2 : ℤ) 8).2.1 1 le_rfl⟩

end Verif.Props
