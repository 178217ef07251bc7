import Verif.Model.Profile
import Verif.Proofs.Channel
import Verif.Proofs.Time
import Verif.Props.Baseline
import Mathlib.Tactic.NormNum
import Mathlib.Tactic.Ring
/-!
# C92: results do not depend on the build profile

`Same f x` below: the release build does on `x` what the debug build does.
-/
namespace Verif.Props
open Verif

/-! ## Wrapping arithmetic -/

theorem wrap_in (T : IntTy) (h : T.lo ≤ T.hi) (x : Int) : T.Has (T.wrap x) := by
  unfold IntTy.Has IntTy.wrap
  have h1 := Int.emod_nonneg (x - T.lo) (by omega : T.hi - T.lo + 1 ≠ 0)
  have h2 := Int.emod_lt_of_pos (x - T.lo) (by omega : 0 < T.hi - T.lo + 1)
  omega

theorem arith_of_has {p : Profile} {T : IntTy} {x : Int} (h : T.Has x) (m : String) : p.arith T x m = .ok x := by
  unfold Profile.arith; rw [if_pos h]

theorem arith_release {T : IntTy} {x : Int} (h : ¬ T.Has x) (m : String) : Profile.release.arith T x m = .ok (T.wrap x) := by
  unfold Profile.arith; rw [if_neg h]

theorem arith_debug {T : IntTy} {x : Int} (h : ¬ T.Has x) (m : String) : Profile.debug.arith T x m = .panic m := by
  unfold Profile.arith; rw [if_neg h]

theorem u16_pred (n : Nat) (m : String) : Profile.debug.arith .u16 (((n % 65536 : Nat) : Int) - 1) m =
    if n % 65536 = 0 then .panic m else .ok ((n % 65536 : Nat) - 1) := by
  by_cases h : n % 65536 = 0
  · rw [if_pos h]
    exact arith_debug (by unfold IntTy.Has IntTy.u16; simp only; omega) m
  · rw [if_neg h]
    exact arith_of_has (by unfold IntTy.Has IntTy.u16; simp only; omega) m

theorem ofInt_pred {n : Nat} (h : n % 65536 ≠ 0) : BitVec.ofInt 16 (((n % 65536 : Nat) : Int) - 1) = BitVec.ofNat 16 (n % 65536 - 1) := by
  have : (((n % 65536 : Nat) : Int) - 1) = ((n % 65536 - 1 : Nat) : Int) := by omega
  rw [this]; simp

/-! ## The debug instances are the models used elsewhere -/

/-- The models the other properties are about are those of the debug profile; and the product of `Ticks` and `TimeScale` fits in an
i64, so that function is the same in both. -/
theorem C92_debug_is_the_model :
    (∀ (R : F32Round) (T : IntTy) (a b : ℤ) (t : ℚ), intEaseP .debug R T a b t = intEase R T a b t) ∧
    (∀ (it : PropIter) (n : Nat), it.pos + n < 2 ^ 64 → it.nthP .debug n = it.nth n) ∧
    (∀ (p : Profile) (a : Ticks) (s : TimeScale), Ticks.mulP p a s = .ok (Ticks.mul a s)) ∧
    (∀ (s : Ser) (C : ContractTy) (h : Idx) (ord : HashOrder), s.serializeP .debug C h ord = s.serialize C h ord) ∧
    (∀ (l : List (ContractTy × Idx × HashOrder)) (s : Ser), s.serializeAllP .debug l = s.serializeAll l) := by
  have hser : ∀ (s : Ser) (C : ContractTy) (h : Idx) (ord : HashOrder), s.serializeP .debug C h ord = s.serialize C h ord := by
    intro s C h ord
    unfold Ser.serializeP Ser.serialize
    cases s.base.contractData h with
    | err m => rfl
    | panic m => rfl
    | ok cd =>
      simp only
      cases Ser.contractTable C with
      | err m => rfl
      | panic m => rfl
      | ok tbl =>
        simp only [u16_pred]
        split
        · rename_i k hk
          split at hk
          · cases hk
          · rename_i hne
            cases hk
            rw [if_neg hne, ofInt_pred hne]
        · rename_i m hk
          split at hk <;> cases hk
        · rename_i m hk
          split at hk
          · rename_i he; cases hk; rw [if_pos he]
          · cases hk
  refine ⟨?_, ?_, ?_, hser, ?_⟩
  · intro R T a b t
    unfold intEaseP intEase
    by_cases h1 : T.Has (b - a)
    · rw [arith_of_has h1, if_neg (not_not.2 h1)]
      simp only [Outcome.bind]
      split
      · rfl
      · rename_i h2
        by_cases h3 : T.Has (a + asU32 (R.rnd (R.rnd t * R.rnd ((b - a : ℤ) : ℚ))))
        · rw [arith_of_has h3, if_neg (not_not.2 h3)]
        · rw [arith_debug h3, if_pos h3]
    · rw [arith_debug h1, if_pos h1]; rfl
  · intro it n hn
    unfold PropIter.nthP PropIter.nth
    have : IntTy.usize.Has ((it.pos : Int) + n) := by unfold IntTy.Has IntTy.usize; simp only; omega
    rw [arith_of_has this]
    simp only
    by_cases hge : it.pos + n ≥ it.types.length
    · rw [if_pos (by omega : (it.pos : Int) + n ≥ it.types.length), if_pos hge]
    · rw [if_neg (by omega : ¬ (it.pos : Int) + n ≥ it.types.length), if_neg hge]
      try (cases it.types[it.pos]? <;> rfl)
  · intro p a s
    unfold Ticks.mulP Ticks.mul
    have ha := a.toInt_lt; have ha' := a.le_toInt
    have hs := s.toInt_lt; have hs' := s.le_toInt
    have hbound : -9223372036854775808 ≤ a.toInt * s.toInt ∧ a.toInt * s.toInt ≤ 9223372036854775807 := by
      norm_num at ha ha' hs hs'
      constructor <;> nlinarith [mul_nonneg (by linarith : (0:ℤ) ≤ 2147483648 - a.toInt) (by linarith : (0:ℤ) ≤ 2147483648 - s.toInt),
        mul_nonneg (by linarith : (0:ℤ) ≤ 2147483648 + a.toInt) (by linarith : (0:ℤ) ≤ 2147483648 + s.toInt),
        mul_nonneg (by linarith : (0:ℤ) ≤ 2147483647 - a.toInt) (by linarith : (0:ℤ) ≤ 2147483648 + s.toInt),
        mul_nonneg (by linarith : (0:ℤ) ≤ 2147483648 + a.toInt) (by linarith : (0:ℤ) ≤ 2147483647 - s.toInt)]
    have hfit : IntTy.i64.Has (a.toInt * s.toInt) := hbound
    rw [arith_of_has hfit]
    simp only [Outcome.map, Outcome.bind]
    have : BitVec.ofInt 64 (a.toInt * s.toInt) = a.signExtend 64 * s.signExtend 64 := by
      rw [BitVec.ofInt_mul]
      rfl
    rw [this]
  · intro l
    induction l with
    | nil => intro s; rfl
    | cons x rest ih =>
      intro s
      obtain ⟨C, h, ord⟩ := x
      unfold Ser.serializeAllP Ser.serializeAll
      rw [hser]
      rcases s.serialize C h ord with ⟨s1, r⟩
      cases r with
      | ok u => exact ih s1
      | err m => rfl
      | panic m => rfl

/-! ## Where they agree -/

theorem arith_agree {T : IntTy} {x : Int} {m : String} (h : (Profile.debug.arith T x m).isPanic = false) :
    Profile.release.arith T x m = Profile.debug.arith T x m := by
  by_cases hx : T.Has x
  · rw [arith_of_has hx, arith_of_has hx]
  · rw [arith_debug hx] at h; cases h

theorem serializeP_agree (s : Ser) (C : ContractTy) (h : Idx) (ord : HashOrder) (hd : (s.serializeP .debug C h ord).2.isPanic = false) :
    s.serializeP .release C h ord = s.serializeP .debug C h ord := by
  unfold Ser.serializeP at hd ⊢
  cases h1 : s.base.contractData h with
  | err m => rfl
  | panic m => rfl
  | ok cd =>
    simp only [h1] at hd ⊢
    cases h2 : Ser.contractTable C with
    | err m => rfl
    | panic m => rfl
    | ok tbl =>
      simp only [h2] at hd ⊢
      have : (Profile.debug.arith .u16 ((((s.contracts ++ [tbl]).length % 65536 : Nat) : Int) - 1) "attempt to subtract with overflow").isPanic = false := by
        cases h3 : Profile.debug.arith .u16 ((((s.contracts ++ [tbl]).length % 65536 : Nat) : Int) - 1) "attempt to subtract with overflow" with
        | ok k => rfl
        | err m => rfl
        | panic m => simp only [h3] at hd; exact hd
      rw [arith_agree this]

/-- The part of C92 that holds: whatever a debug build computes without panicking, a release build computes too — the same tween,
the same field id and iterator, and, for a whole run of the serializer, the same buffers and the same result. -/
theorem C92_release_agrees_partial :
    (∀ (R : F32Round) (T : IntTy) (a b : ℤ) (t : ℚ), (intEaseP .debug R T a b t).isPanic = false →
      intEaseP .release R T a b t = intEaseP .debug R T a b t) ∧
    (∀ (it : PropIter) (n : Nat), (it.nthP .debug n).1 ≠ .panic → it.nthP .release n = it.nthP .debug n) ∧
    (∀ (l : List (ContractTy × Idx × HashOrder)) (s : Ser), (s.serializeAllP .debug l).2.isPanic = false →
      s.serializeAllP .release l = s.serializeAllP .debug l) := by
  refine ⟨?_, ?_, ?_⟩
  · intro R T a b t h
    unfold intEaseP at h ⊢
    by_cases h1 : T.Has (b - a)
    · rw [arith_of_has h1] at h ⊢
      rw [arith_of_has h1]
      simp only [Outcome.bind] at h ⊢
      split at h
      · cases h
      · rename_i h2
        rw [if_neg h2, if_neg h2]
        exact arith_agree h
    · rw [arith_debug h1] at h; cases h
  · intro it n h
    unfold PropIter.nthP at h ⊢
    have : (Profile.debug.arith .usize ((it.pos : Int) + n) "attempt to add with overflow").isPanic = false := by
      cases h3 : Profile.debug.arith .usize ((it.pos : Int) + n) "attempt to add with overflow" with
      | ok k => rfl
      | err m => rfl
      | panic m => simp only [h3] at h; exact absurd rfl h
    rw [arith_agree this]
  · intro l
    induction l with
    | nil => intro s _; rfl
    | cons x rest ih =>
      intro s hd
      obtain ⟨C, h, ord⟩ := x
      unfold Ser.serializeAllP at hd ⊢
      have hp : (s.serializeP .debug C h ord).2.isPanic = false := by
        rcases hs : s.serializeP .debug C h ord with ⟨s1, r⟩
        rw [hs] at hd
        cases r with
        | ok u => rfl
        | err m => rfl
        | panic m => exact hd
      rw [serializeP_agree s C h ord hp]
      rcases hs : s.serializeP .debug C h ord with ⟨s1, r⟩
      rw [hs] at hd
      cases r with
      | ok u => exact ih s1 hd
      | err m => rfl
      | panic m => cases hd

/- The hypotheses are met: a tween within range, an iterator step, and a run of the serializer over a contract with an object. -/
example (R : F32Round) : intEaseP .release R .u8 10 20 0 = intEaseP .debug R .u8 10 20 0 :=
  C92_release_agrees_partial.1 R .u8 10 20 0 (by
    have r0 : R.rnd 0 = 0 := R.exact (by simpa using f32Repr_int 0 (by norm_num))
    unfold intEaseP
    rw [arith_of_has (by decide : IntTy.u8.Has (20 - 10))]
    simp only [Outcome.bind]
    rw [r0, zero_mul, r0]
    have : asU32 0 = 0 := by unfold asU32; rw [if_neg (lt_irrefl 0)]; simp
    rw [this, if_neg (by decide), arith_of_has (by decide)]
    rfl)
example : ((PropIter.new [.prim .u8, .prim .u16] h0).nthP .debug 1).1 ≠ .panic := by decide +kernel
example : ((Ser.new demoB).serializeAllP .debug [(demoC, h0, HashOrder.id)]).2.isPanic = false := by decide +kernel

/-! ## Where they differ -/

/-- Tweens, exactly: a debug build panics for every pair of ends too far apart for their type; a release build instead answers
(1) for a signed type, going up: the start, at every time, so the tween never moves; (2) for an unsigned 8- or 16-bit type, going
down: a value that sets out from the start in the wrong direction and wraps around the end of the type, arriving at time 1. -/
theorem C92_release_tween_partial (R : F32Round) (T : IntTy) (a b : ℤ) (t : ℚ) (ha : T.Has a) (_hb : T.Has b) (hfar : ¬ T.Has (b - a)) (ht : 0 ≤ t) :
    (intEaseP .debug R T a b t).isPanic = true ∧
    (T.lo = - (T.hi + 1) → a < b → intEaseP .release R T a b t = .ok a) ∧
    (T.lo = 0 → b < a → T.hi < 2 ^ 24 → t ≤ 1 →
      ∃ k : ℤ, k = ⌊R.rnd (R.rnd t * ((T.hi + 1 - (a - b) : ℤ) : ℚ))⌋ ∧ 0 ≤ k ∧ k ≤ T.hi + 1 - (a - b) ∧
        intEaseP .release R T a b t = .ok (if a + k ≤ T.hi then a + k else a + k - (T.hi + 1)) ∧
        (t = 0 → intEaseP .release R T a b t = .ok a) ∧ (t = 1 → intEaseP .release R T a b t = .ok b)) := by
  have r0 : R.rnd 0 = 0 := R.exact (by simpa using f32Repr_int 0 (by norm_num))
  have r1 : R.rnd 1 = 1 := R.exact (by simpa using f32Repr_int 1 (by norm_num))
  have e0 : 0 ≤ R.rnd t := by have := R.mono ht; rwa [r0] at this
  obtain ⟨ha1, ha2⟩ := ha
  obtain ⟨hb1, hb2⟩ := _hb
  refine ⟨?_, ?_, ?_⟩
  · unfold intEaseP; rw [arith_debug hfar]; rfl
  · intro hlo hab
    unfold IntTy.Has at hfar
    have hbig : T.hi < b - a := by omega
    unfold intEaseP
    rw [arith_release (by unfold IntTy.Has; exact hfar)]
    simp only [Outcome.bind]
    have hw : T.wrap (b - a) = b - a - (T.hi - T.lo + 1) := by
      unfold IntTy.wrap
      have : (b - a - T.lo) % (T.hi - T.lo + 1) = b - a - T.lo - (T.hi - T.lo + 1) := by
        rw [← Int.sub_emod_right, Int.emod_eq_of_lt (by omega) (by omega)]
      rw [this]; ring
    rw [hw]
    have hneg : b - a - (T.hi - T.lo + 1) < 0 := by omega
    have hdn : R.rnd ((b - a - (T.hi - T.lo + 1) : ℤ) : ℚ) ≤ 0 := by
      have : ((b - a - (T.hi - T.lo + 1) : ℤ) : ℚ) ≤ 0 := by exact_mod_cast (by omega : b - a - (T.hi - T.lo + 1) ≤ (0 : ℤ))
      have := R.mono this; rwa [r0] at this
    have hx : R.rnd (R.rnd t * R.rnd ((b - a - (T.hi - T.lo + 1) : ℤ) : ℚ)) ≤ 0 := by
      have := R.mono (mul_nonpos_of_nonneg_of_nonpos e0 hdn); rwa [r0] at this
    have hu : asU32 (R.rnd (R.rnd t * R.rnd ((b - a - (T.hi - T.lo + 1) : ℤ) : ℚ))) = 0 := by
      unfold asU32
      split
      · rfl
      · rename_i hlt
        have : R.rnd (R.rnd t * R.rnd ((b - a - (T.hi - T.lo + 1) : ℤ) : ℚ)) = 0 := le_antisymm hx (by linarith)
        rw [this]; simp
    rw [hu, if_neg (by unfold IntTy.Has; omega)]
    rw [add_zero]
    exact arith_of_has ⟨ha1, ha2⟩ _
  · intro hlo hba hsmall ht1
    have e1 : R.rnd t ≤ 1 := by have := R.mono ht1; rwa [r1] at this
    have hw : T.wrap (b - a) = T.hi + 1 - (a - b) := by
      unfold IntTy.wrap
      have : (b - a - T.lo) % (T.hi - T.lo + 1) = b - a - T.lo + (T.hi - T.lo + 1) := by
        rw [← Int.add_emod_right, Int.emod_eq_of_lt (by omega) (by omega)]
      rw [this]; omega
    have hrep : F32Repr ((T.hi + 1 - (a - b) : ℤ) : ℚ) := f32Repr_int _ (by rw [abs_le]; omega)
    have hrd : R.rnd ((T.hi + 1 - (a - b) : ℤ) : ℚ) = ((T.hi + 1 - (a - b) : ℤ) : ℚ) := R.exact hrep
    have hdnn : (0 : ℚ) ≤ ((T.hi + 1 - (a - b) : ℤ) : ℚ) := by exact_mod_cast (by omega : (0 : ℤ) ≤ T.hi + 1 - (a - b))
    have k0 : 0 ≤ R.rnd (R.rnd t * ((T.hi + 1 - (a - b) : ℤ) : ℚ)) := by
      have := R.mono (mul_nonneg e0 hdnn); rwa [r0] at this
    have k1 : R.rnd (R.rnd t * ((T.hi + 1 - (a - b) : ℤ) : ℚ)) ≤ ((T.hi + 1 - (a - b) : ℤ) : ℚ) := by
      have h := R.mono (mul_le_of_le_one_left hdnn e1)
      rwa [hrd] at h
    have kn0 : 0 ≤ ⌊R.rnd (R.rnd t * ((T.hi + 1 - (a - b) : ℤ) : ℚ))⌋ := Int.floor_nonneg.2 k0
    have kn1 : ⌊R.rnd (R.rnd t * ((T.hi + 1 - (a - b) : ℤ) : ℚ))⌋ ≤ T.hi + 1 - (a - b) := by
      have := Int.floor_mono k1; rwa [Int.floor_intCast] at this
    have main : intEaseP .release R T a b t = .ok (if a + ⌊R.rnd (R.rnd t * ((T.hi + 1 - (a - b) : ℤ) : ℚ))⌋ ≤ T.hi
        then a + ⌊R.rnd (R.rnd t * ((T.hi + 1 - (a - b) : ℤ) : ℚ))⌋ else a + ⌊R.rnd (R.rnd t * ((T.hi + 1 - (a - b) : ℤ) : ℚ))⌋ - (T.hi + 1)) := by
      unfold intEaseP
      rw [arith_release hfar]
      simp only [Outcome.bind]
      rw [hw, hrd]
      have hu : asU32 (R.rnd (R.rnd t * ((T.hi + 1 - (a - b) : ℤ) : ℚ))) = ⌊R.rnd (R.rnd t * ((T.hi + 1 - (a - b) : ℤ) : ℚ))⌋ := by
        unfold asU32
        rw [if_neg (by linarith)]
        exact min_eq_left (by omega)
      rw [hu, if_neg (by unfold IntTy.Has; omega)]
      by_cases hfit : a + ⌊R.rnd (R.rnd t * ((T.hi + 1 - (a - b) : ℤ) : ℚ))⌋ ≤ T.hi
      · rw [if_pos hfit]
        exact arith_of_has ⟨by omega, hfit⟩ _
      · rw [if_neg hfit, arith_release (by unfold IntTy.Has; omega)]
        congr 1
        unfold IntTy.wrap
        have : (a + ⌊R.rnd (R.rnd t * ((T.hi + 1 - (a - b) : ℤ) : ℚ))⌋ - T.lo) % (T.hi - T.lo + 1) =
            a + ⌊R.rnd (R.rnd t * ((T.hi + 1 - (a - b) : ℤ) : ℚ))⌋ - T.lo - (T.hi - T.lo + 1) := by
          rw [← Int.sub_emod_right, Int.emod_eq_of_lt (by omega) (by omega)]
        rw [this]; omega
    refine ⟨_, rfl, kn0, kn1, main, ?_, ?_⟩
    · intro e
      rw [main, e, r0, zero_mul, r0]
      simp [ha2]
    · intro e
      rw [main, e, r1, one_mul, hrd, Int.floor_intCast]
      rw [if_neg (by omega)]
      congr 1; omega

/-- The iterators, exactly: the profiles differ where position plus step passes 2^64. There a debug build panics, and a release build
answers with the field at the current position (whose distance is 0, not `n`), or panics if there is none. -/
theorem C92_release_nth_partial (it : PropIter) (n : Nat) (hn : n < 2 ^ 64) (hp : it.pos ≤ it.types.length) :
    (it.pos + n < 2 ^ 64 → it.nthP .release n = it.nthP .debug n) ∧
    (2 ^ 64 ≤ it.pos + n → (it.nthP .debug n).1 = .panic ∧
      (it.nthP .release n = match it.types[it.pos]? with
        | none => (.panic, it)
        | some t => (.val (some ⟨t, ⟨it.pos + 1, it.contract⟩⟩), { it with pos := it.pos + 1 }))) := by
  constructor
  · intro h
    have : IntTy.usize.Has ((it.pos : Int) + n) := by unfold IntTy.Has IntTy.usize; simp only; omega
    unfold PropIter.nthP
    rw [arith_of_has this, arith_of_has this]
  · intro h
    have hno : ¬ IntTy.usize.Has ((it.pos : Int) + n) := by unfold IntTy.Has IntTy.usize; simp only; omega
    unfold PropIter.nthP
    rw [arith_debug hno, arith_release hno]
    refine ⟨rfl, ?_⟩
    simp only
    have hge : ¬ (IntTy.usize.wrap ((it.pos : Int) + n) ≥ it.types.length) := by
      unfold IntTy.wrap IntTy.usize
      simp only
      omega
    rw [if_neg hge]
    cases it.types[it.pos]? with
    | none => rfl
    | some t => rfl

theorem pushObjects_contract (C : ContractTy) (h : Idx) (k : BitVec 16) (os : List Idx) : ∀ (s : Ser), (s.pushObjects C h k os).2 = .ok () →
    ∃ new : List FbObject, (s.pushObjects C h k os).1.objects = s.objects ++ new ∧ new.length = os.length ∧ ∀ o ∈ new, o.contract = some k := by
  have hps : ∀ (ds : List DynId) (s : Ser) (o : Idx), (s.pushStates o ds).1.objects = s.objects := by
    intro ds
    induction ds with
    | nil => intro s o; rfl
    | cons d ds ih =>
      intro s o
      have h1 : (s.pushState o d).1.objects = s.objects := by
        unfold Ser.pushState
        cases s.base.bindState d.id o with
        | err m => rfl
        | panic m => rfl
        | ok f =>
          simp only
          cases s.base.state d.ty f with
          | err m => rfl
          | panic m => rfl
          | ok v =>
            simp only
            cases encodeState (DynProp.ofTyped d.ty v) with
            | none => rfl
            | some slot =>
              simp only [Ser.noteHandle]
              split <;> rfl
      unfold Ser.pushStates
      rcases hp : s.pushState o d with ⟨s1, r⟩
      rw [hp] at h1
      cases r with
      | err m => exact h1
      | panic m => exact h1
      | ok i =>
        simp only
        have h2 := ih s1 o
        rcases hq : s1.pushStates o ds with ⟨s2, r2⟩
        rw [hq] at h2
        cases r2 <;> exact h2.trans h1
  induction os with
  | nil => intro s _; exact ⟨[], by simp [Ser.pushObjects], rfl, fun _ h => by cases h⟩
  | cons o os ih =>
    intro s hok
    unfold Ser.pushObjects at hok ⊢
    have h1 := hps (C.stateIds h) s o
    rcases hp : s.pushStates o (C.stateIds h) with ⟨s1, r⟩
    rw [hp] at hok h1
    cases r with
    | err m => cases hok
    | panic m => cases hok
    | ok is =>
      simp only at hok h1 ⊢
      obtain ⟨new, n1, n2, n3⟩ := ih _ hok
      refine ⟨⟨some k, some is⟩ :: new, ?_, by simp [n2], ?_⟩
      · rw [n1, h1]; simp
      · intro x hx
        rcases List.mem_cons.1 hx with rfl | hx
        · rfl
        · exact n3 x hx

/- Both cases occur: position 1, steps 1 and 2^64 - 1. -/
example : (PropIter.new [.prim .u8, .prim .u16] h0).next.2.pos + 1 < 2 ^ 64 ∧
    2 ^ 64 ≤ (PropIter.new [.prim .u8, .prim .u16] h0).next.2.pos + 18446744073709551615 ∧
    (PropIter.new [.prim .u8, .prim .u16] h0).next.2.pos ≤ (PropIter.new [.prim .u8, .prim .u16] h0).next.2.types.length := by decide +kernel

/-- The serializer, exactly: the profiles differ when the number of contracts serialized becomes a multiple of 65536. There a debug
build panics; a release build goes on, and in it the objects of the contract number `n` (from 0) always carry the contract index
`n mod 65536` — the right one for the first 65536 contracts, and for the next one the index of the first. -/
theorem C92_release_serializer_partial (s : Ser) (C : ContractTy) (h : Idx) (ord : HashOrder) (cd : ContractData) (tbl : FbContract)
    (hcd : s.base.contractData h = .ok cd) (ht : Ser.contractTable C = .ok tbl) :
    ((s.contracts.length + 1) % 65536 ≠ 0 → s.serializeP .release C h ord = s.serializeP .debug C h ord) ∧
    ((s.contracts.length + 1) % 65536 = 0 → (s.serializeP .debug C h ord).2.isPanic = true) ∧
    ((s.serializeP .release C h ord).2 = .ok () →
      (s.serializeP .release C h ord).1.objects.length = s.objects.length + (ord.order cd.objects).length ∧
      ∀ o ∈ (s.serializeP .release C h ord).1.objects.drop s.objects.length, o.contract = some (BitVec.ofNat 16 s.contracts.length)) := by
  refine ⟨?_, ?_, ?_⟩
  · intro hne
    unfold Ser.serializeP
    simp only [hcd, ht]
    have : (Profile.debug.arith .u16 ((((s.contracts ++ [tbl]).length % 65536 : Nat) : Int) - 1) "attempt to subtract with overflow").isPanic = false := by
      rw [u16_pred, if_neg (by simpa using hne)]; rfl
    rw [arith_agree this]
  · intro he
    unfold Ser.serializeP
    simp only [hcd, ht]
    rw [u16_pred, if_pos (by simpa using he)]
    rfl
  · intro hok
    have hidx : ∃ k, Profile.release.arith .u16 ((((s.contracts ++ [tbl]).length % 65536 : Nat) : Int) - 1) "attempt to subtract with overflow" = .ok k ∧
        BitVec.ofInt 16 k = BitVec.ofNat 16 s.contracts.length := by
      have hl : (s.contracts ++ [tbl]).length = s.contracts.length + 1 := by simp
      rw [hl]
      by_cases hz : (s.contracts.length + 1) % 65536 = 0
      · refine ⟨65535, ?_, ?_⟩
        · rw [arith_release (by unfold IntTy.Has IntTy.u16; simp only; omega), hz]
          rfl
        · apply BitVec.eq_of_toNat_eq
          rw [BitVec.toNat_ofInt, BitVec.toNat_ofNat]
          have : s.contracts.length % 2 ^ 16 = 65535 := by omega
          rw [this]; rfl
      · refine ⟨((s.contracts.length + 1) % 65536 : Nat) - 1, arith_of_has (by unfold IntTy.Has IntTy.u16; simp only; omega) _, ?_⟩
        rw [ofInt_pred hz]
        apply BitVec.eq_of_toNat_eq
        simp only [BitVec.toNat_ofNat]
        omega
    obtain ⟨k, hk, hk'⟩ := hidx
    unfold Ser.serializeP at hok ⊢
    simp only [hcd, ht, hk, hk'] at hok ⊢
    obtain ⟨new, n1, n2, n3⟩ := pushObjects_contract C h _ _ _ hok
    rw [n1]
    refine ⟨by simp [n2], ?_⟩
    intro o ho
    simp only [List.drop_left] at ho
    exact n3 o ho

/- The third case occurs with objects, and the first one too. -/
example : ((Ser.new demoB).serializeP .release demoC h0 HashOrder.id).2 = .ok () ∧
    ((Ser.new demoB).serializeP .release demoC h0 HashOrder.id).1.objects.length ≠ 0 := by decide +kernel

/-- A debug build serializes a contract without objects 65535 times and panics at the next; a release build does not. -/
theorem many_contracts (p : Profile) (s : Ser) (C : ContractTy) (h : Idx) (tbl : FbContract) (id : ContractId)
    (hcd : s.base.contractData h = .ok ⟨id, []⟩) (ht : Ser.contractTable C = .ok tbl) (n : Nat)
    (hn : p = .debug → s.contracts.length + n < 65536) :
    (s.serializeAllP p (List.replicate n (C, h, HashOrder.id))).2 = .ok () ∧
    (s.serializeAllP p (List.replicate n (C, h, HashOrder.id))).1.contracts.length = s.contracts.length + n ∧
    (s.serializeAllP p (List.replicate n (C, h, HashOrder.id))).1.base = s.base := by
  induction n generalizing s with
  | zero => exact ⟨rfl, rfl, rfl⟩
  | succ n ih =>
    have hstep : s.serializeP p C h HashOrder.id = ({ s with contracts := s.contracts ++ [tbl], hContracts := s.hContracts.insert h s.contracts.length }, .ok ()) := by
      unfold Ser.serializeP
      simp only [hcd, ht]
      have : ∃ k, p.arith .u16 ((((s.contracts ++ [tbl]).length % 65536 : Nat) : Int) - 1) "attempt to subtract with overflow" = .ok k := by
        cases p with
        | debug =>
          refine ⟨_, arith_of_has ?_ _⟩
          have := hn rfl
          have hl : (s.contracts ++ [tbl]).length = s.contracts.length + 1 := by simp
          rw [hl]
          unfold IntTy.Has IntTy.u16; simp only; omega
        | release =>
          by_cases hx : IntTy.u16.Has ((((s.contracts ++ [tbl]).length % 65536 : Nat) : Int) - 1)
          · exact ⟨_, arith_of_has hx _⟩
          · exact ⟨_, arith_release hx _⟩
      obtain ⟨k, hk⟩ := this
      rw [hk]
      rfl
    rw [List.replicate_succ]
    unfold Ser.serializeAllP
    rw [hstep]
    simp only
    obtain ⟨h1, h2, h3⟩ := ih { s with contracts := s.contracts ++ [tbl], hContracts := s.hContracts.insert h s.contracts.length } hcd
      (by intro e; have := hn e; simp only [List.length_append, List.length_singleton]; omega)
    refine ⟨h1, ?_, h3⟩
    rw [h2]; simp only [List.length_append, List.length_singleton]; omega

theorem serializeAllP_cons (p : Profile) (s : Ser) (C : ContractTy) (k : Idx) (ord : HashOrder) (rest : List (ContractTy × Idx × HashOrder)) :
    s.serializeAllP p ((C, k, ord) :: rest) = match s.serializeP p C k ord with
      | (s1, .ok ()) => s1.serializeAllP p rest
      | (s1, .err m) => (s1, .err m)
      | (s1, .panic m) => (s1, .panic m) := rfl

theorem serializeAllP_append (p : Profile) (l l' : List (ContractTy × Idx × HashOrder)) (s : Ser) (h : (s.serializeAllP p l).2 = .ok ()) :
    s.serializeAllP p (l ++ l') = (s.serializeAllP p l).1.serializeAllP p l' := by
  induction l generalizing s with
  | nil => rfl
  | cons x rest ih =>
    obtain ⟨C, k, ord⟩ := x
    rw [List.cons_append, serializeAllP_cons, serializeAllP_cons]
    rw [serializeAllP_cons] at h
    rcases hs : s.serializeP p C k ord with ⟨s1, r⟩
    rw [hs] at h
    cases r with
    | ok u => exact ih s1 h
    | err m => cases h
    | panic m => cases h

theorem debug_panics (s : Ser) (C : ContractTy) (h : Idx) (tbl : FbContract) (id : ContractId)
    (hcd : s.base.contractData h = .ok ⟨id, []⟩) (ht : Ser.contractTable C = .ok tbl) (n : Nat) (hn : s.contracts.length + n = 65535) :
    (s.serializeAllP .debug (List.replicate (n + 1) (C, h, HashOrder.id))).2.isPanic = true := by
  obtain ⟨h1, h2, h3⟩ := many_contracts .debug s C h tbl id hcd ht n (by intro _; omega)
  rw [List.replicate_succ', serializeAllP_append _ _ _ _ h1]
  generalize hs' : (s.serializeAllP .debug (List.replicate n (C, h, HashOrder.id))).1 = s' at h2 h3 ⊢
  rw [← h3] at hcd
  have := (C92_release_serializer_partial s' C h HashOrder.id _ tbl hcd ht).2.1 (by rw [h2, hn])
  rw [serializeAllP_cons]
  rcases hp : s'.serializeP .debug C h HashOrder.id with ⟨s1, r⟩
  rw [hp] at this
  cases r with
  | ok u => cases this
  | err m => cases this
  | panic m => rfl

/-- A baseline with one contract and no objects. -/
def loneB : Baseline := ((Baseline.new .main).runOps [.register emptyC]).2

/-- C92 is false of the code: each of the three functions gives different results in the two profiles, on inputs a program can
produce: a tween of `i8` from -128 to 127, or of `u8` from 10 down to 0 (halfway a release build says 133); the second field of an iterator asked for `nth(usize::MAX)`; and serializing a contract 65536 times. -/
theorem C92_negation :
    (∀ R : F32Round, intEaseP .debug R .i8 (-128) 127 1 ≠ intEaseP .release R .i8 (-128) 127 1 ∧
      intEaseP .release R .i8 (-128) 127 1 = .ok (-128) ∧ intEaseP .release R .u8 10 0 (1 / 2) = .ok 133) ∧
    (((PropIter.new [.prim .u8, .prim .u16] h0).next.2.nthP .debug 18446744073709551615).1 = .panic ∧
      ((PropIter.new [.prim .u8, .prim .u16] h0).next.2.nthP .release 18446744073709551615).1 = .val (some ⟨.prim .u16, ⟨2, h0⟩⟩)) ∧
    (((Ser.new loneB).serializeAllP .debug (List.replicate 65536 (emptyC, h0, HashOrder.id))).2.isPanic = true ∧
      ((Ser.new loneB).serializeAllP .release (List.replicate 65536 (emptyC, h0, HashOrder.id))).2 = .ok ()) := by
  refine ⟨?_, ?_, ?_⟩
  · intro R
    have hi8 := C92_release_tween_partial R .i8 (-128) 127 1 (by decide) (by decide) (by decide) (by norm_num)
    have hrel := hi8.2.1 (by decide) (by decide)
    refine ⟨?_, hrel, ?_⟩
    · intro e
      have := hi8.1
      rw [e, hrel] at this
      cases this
    · obtain ⟨k, hk, _, _, hv, _⟩ := (C92_release_tween_partial R .u8 10 0 (1 / 2) (by decide) (by decide) (by decide) (by norm_num)).2.2
        (by decide) (by decide) (by decide) (by norm_num)
      have h2 : R.rnd (1 / 2) = 1 / 2 := R.exact ⟨1, -1, by norm_num, by norm_num, by norm_num, by norm_num⟩
      have h3 : ((IntTy.u8.hi + 1 - (10 - 0) : ℤ) : ℚ) = 246 := by norm_num [IntTy.u8]
      rw [h2, h3] at hk
      have h4 : R.rnd (1 / 2 * 246) = 123 := by
        have : (1 / 2 * 246 : ℚ) = ((123 : ℤ) : ℚ) := by norm_num
        rw [this, R.exact (f32Repr_int 123 (by norm_num))]; norm_num
      rw [h4] at hk
      have h5 : k = 123 := by rw [hk]; exact_mod_cast Int.floor_intCast (R := ℚ) 123
      rw [hv, h5]
      rfl
  · exact ⟨by decide +kernel, by decide +kernel⟩
  · have hcd : (Ser.new loneB).base.contractData h0 = .ok ⟨emptyC.id, []⟩ := by rfl
    obtain ⟨tbl, ht⟩ : ∃ tbl, Ser.contractTable emptyC = .ok tbl := ⟨_, rfl⟩
    constructor
    · exact debug_panics (Ser.new loneB) emptyC h0 tbl emptyC.id hcd ht 65535 rfl
    · exact (many_contracts .release (Ser.new loneB) emptyC h0 tbl emptyC.id hcd ht 65536 (by intro e; cases e)).1

end Verif.Props
