import Verif.Spec.Values
/-! # Lemmas about dynamic values and their equality -/
namespace Verif
open Spec

theorem fmt32_magNat (x : BitVec 32) : fmt32.magNat x = x.toNat % 2 ^ 31 := by
  show (x &&& 0x7fffffff#32).toNat = _
  rw [BitVec.toNat_and]
  exact Nat.and_two_pow_sub_one_eq_mod x.toNat 31

theorem fmt64_magNat (x : BitVec 64) : fmt64.magNat x = x.toNat % 2 ^ 63 := by
  show (x &&& 0x7fffffffffffffff#64).toNat = _
  rw [BitVec.toNat_and]
  exact Nat.and_two_pow_sub_one_eq_mod x.toNat 63

theorem fmt32_isNaN (x : BitVec 32) : fmt32.isNaN x = true ↔ F32NaN x := by
  unfold FloatFmt.isNaN F32NaN
  rw [fmt32_magNat]
  have : fmt32.inf.toNat = 2139095040 := rfl
  rw [this]
  have := x.isLt
  simp only [decide_eq_true_eq]
  omega

theorem fmt64_isNaN (x : BitVec 64) : fmt64.isNaN x = true ↔ F64NaN x := by
  unfold FloatFmt.isNaN F64NaN
  rw [fmt64_magNat]
  have : fmt64.inf.toNat = 9218868437227405312 := rfl
  rw [this]
  have := x.isLt
  simp only [decide_eq_true_eq]
  omega

theorem fmt32_key (x : BitVec 32) :
    fmt32.key x = if 2 ^ 31 ≤ x.toNat then -((x.toNat % 2 ^ 31 : Nat) : Int) else ((x.toNat % 2 ^ 31 : Nat) : Int) := by
  unfold FloatFmt.key FloatFmt.neg
  rw [fmt32_magNat, BitVec.msb_eq_decide]
  simp only [decide_eq_true_eq, Nat.add_one_sub_one]

theorem fmt64_key (x : BitVec 64) :
    fmt64.key x = if 2 ^ 63 ≤ x.toNat then -((x.toNat % 2 ^ 63 : Nat) : Int) else ((x.toNat % 2 ^ 63 : Nat) : Int) := by
  unfold FloatFmt.key FloatFmt.neg
  rw [fmt64_magNat, BitVec.msb_eq_decide]
  simp only [decide_eq_true_eq, Nat.add_one_sub_one]

theorem fmt32_key_eq (x y : BitVec 32) :
    fmt32.key x = fmt32.key y ↔ (x = y ∨ F32Zero x ∧ F32Zero y) := by
  rw [fmt32_key, fmt32_key, BitVec.toNat_inj.symm]
  unfold F32Zero
  have := x.isLt; have := y.isLt
  split <;> split <;> omega

theorem fmt64_key_eq (x y : BitVec 64) :
    fmt64.key x = fmt64.key y ↔ (x = y ∨ F64Zero x ∧ F64Zero y) := by
  rw [fmt64_key, fmt64_key, BitVec.toNat_inj.symm]
  unfold F64Zero
  have := x.isLt; have := y.isLt
  split <;> split <;> omega

theorem feq32_iff (x y : BitVec 32) : fmt32.feq x y = true ↔ PrimSame .f32 x y := by
  unfold FloatFmt.feq PrimSame
  simp only [Bool.and_eq_true, Bool.not_eq_true', beq_iff_eq, fmt32_key_eq, ← fmt32_isNaN,
    Bool.not_eq_true, and_assoc]

theorem feq64_iff (x y : BitVec 64) : fmt64.feq x y = true ↔ PrimSame .f64 x y := by
  unfold FloatFmt.feq PrimSame
  simp only [Bool.and_eq_true, Bool.not_eq_true', beq_iff_eq, fmt64_key_eq, ← fmt64_isNaN,
    Bool.not_eq_true, and_assoc]

theorem PrimType.eqv_iff (p : PrimType) (a b : p.Carrier) : p.eqv a b = true ↔ PrimSame p a b := by
  cases p
  case f32 => exact feq32_iff a b
  case f64 => exact feq64_iff a b
  all_goals simp [PrimType.eqv, PrimSame]

theorem listEqv_iff {α : Type} (eq : α → α → Bool) (a b : List α) :
    listEqv eq a b = true ↔ ∃ h : a.length = b.length, ∀ (i : Nat) (hi : i < a.length),
      eq a[i] (b[i]'(by omega)) = true := by
  induction a generalizing b with
  | nil => cases b <;> simp [listEqv]
  | cons x xs ih =>
    cases b with
    | nil => simp [listEqv]
    | cons y ys =>
      simp only [listEqv, Bool.and_eq_true, ih, List.length_cons]
      constructor
      · rintro ⟨h0, hl, hr⟩
        refine ⟨by omega, fun i hi => ?_⟩
        cases i with
        | zero => simpa using h0
        | succ i => simpa using hr i (by omega)
      · rintro ⟨hl, hr⟩
        refine ⟨by simpa using hr 0 (by omega), by omega, fun i hi => ?_⟩
        exact hr (i + 1) (by omega)

theorem PropType.eqv_iff (t : PropType) (a b : t.Carrier) : t.eqv a b = true ↔ PropSame t a b := by
  cases t with
  | prim p => exact p.eqv_iff a b
  | vec p =>
    show listEqv p.eqv a b = true ↔ _
    rw [listEqv_iff]
    simp only [PropSame, PrimType.eqv_iff]

theorem DynProp.ofTyped_typed (d : DynProp) : DynProp.ofTyped d.typed.1 d.typed.2 = d := by
  rcases d with d | d <;> cases d <;> rfl

theorem DynProp.typed_ofTyped (t : PropType) (x : t.Carrier) :
    (DynProp.ofTyped t x).typed = ⟨t, x⟩ := by
  rcases t with p | p <;> cases p <;> rfl

theorem DynProp.propType_ofTyped (t : PropType) (x : t.Carrier) :
    (DynProp.ofTyped t x).propType = t := by
  rcases t with p | p <;> cases p <;> rfl

theorem DynProp.tryInto_self (t : PropType) (x : t.Carrier) :
    (DynProp.ofTyped t x).tryInto t = some x := by
  rcases t with p | p <;> cases p <;> rfl

theorem DynProp.tryInto_ne (d : DynProp) (t : PropType) (h : d.propType ≠ t) :
    d.tryInto t = none := by
  rcases d with d | d <;> cases d <;> (rcases t with p | p <;> cases p <;>
    first | rfl | exact absurd rfl h)

theorem DynProp.borrow_eq (d : DynProp) : d.borrow = d := ofTyped_typed d

/-- Every dynamic property is a typed value wrapped. -/
theorem DynProp.exists_typed (d : DynProp) :
    ∃ x : (d.propType).Carrier, d = DynProp.ofTyped d.propType x := by
  rcases d with d | d <;> cases d <;> exact ⟨_, rfl⟩

theorem DynProp.ofTyped_inj {t : PropType} {x y : t.Carrier}
    (h : DynProp.ofTyped t x = DynProp.ofTyped t y) : x = y := by
  have := congrArg (fun d => DynProp.tryInto d t) h
  simpa [tryInto_self] using this

theorem DynProp.beq_ofTyped (t : PropType) (a b : t.Carrier) :
    (DynProp.ofTyped t a).beq (DynProp.ofTyped t b) = t.eqv a b := by
  rcases t with p | p <;> cases p <;> rfl

theorem DynProp.beq_ne (d e : DynProp) (h : d.propType ≠ e.propType) : d.beq e = false := by
  rcases d with d | d <;> cases d <;> (rcases e with e | e <;> cases e <;>
    first | rfl | exact absurd rfl h)

theorem PrimSame_symm (p : PrimType) (a b : p.Carrier) : PrimSame p a b → PrimSame p b a := by
  cases p <;> simp only [PrimSame] <;> first | exact fun h => h.symm | skip
  all_goals
    rintro ⟨h1, h2, h3⟩
    exact ⟨h2, h1, h3.elim (fun e => .inl e.symm) (fun e => .inr ⟨e.2, e.1⟩)⟩

theorem PropSame_symm (t : PropType) (a b : t.Carrier) : PropSame t a b → PropSame t b a := by
  cases t with
  | prim p => exact PrimSame_symm p a b
  | vec p =>
    rintro ⟨h, hi⟩
    exact ⟨h.symm, fun i hb => PrimSame_symm p _ _ (hi i (by omega))⟩

theorem PrimSame_refl (p : PrimType) (a : p.Carrier) : PrimSame p a a ↔ ¬ PrimNaN p a := by
  cases p <;> simp [PrimSame, PrimNaN]

theorem PropSame_refl (t : PropType) (a : t.Carrier) : PropSame t a a ↔ ¬ PropNaN t a := by
  cases t with
  | prim p => exact PrimSame_refl p a
  | vec p =>
    simp only [PropSame, PropNaN, PrimSame_refl, not_exists, not_and, exists_prop, true_and]
    constructor
    · intro h x hx
      obtain ⟨i, hi, rfl⟩ := List.getElem_of_mem hx
      exact h i hi
    · intro h i hi
      exact h _ (List.getElem_mem hi)

end Verif
