import Verif.Proofs.Types
import Verif.Model.FbTypes
/-! # C43–C46: dynamic values and serialized type tags -/
namespace Verif.Props
open Verif Spec

/-- C43: a wrapped value reports its type, converts back to exactly that value, and converts to no
other type. -/
theorem C43_wrap_roundtrip (t : PropType) (x : t.Carrier) :
    (DynProp.ofTyped t x).propType = t ∧
    (DynProp.ofTyped t x).tryInto t = some x ∧
    (∀ u : PropType, u ≠ t → (DynProp.ofTyped t x).tryInto u = none) :=
  ⟨DynProp.propType_ofTyped t x, DynProp.tryInto_self t x, fun u hu =>
    DynProp.tryInto_ne _ u (by rw [DynProp.propType_ofTyped]; exact fun h => hu h.symm)⟩

/-- C43: every dynamic property is a wrapped value of exactly one type, and that value is unique. -/
theorem C43_unwrap_unique (d : DynProp) :
    ∃ x : d.propType.Carrier, DynProp.ofTyped d.propType x = d ∧
      (∀ (u : PropType) (y : u.Carrier), DynProp.ofTyped u y = d →
        u = d.propType ∧ d.tryInto u = some y) := by
  obtain ⟨x, hx⟩ := d.exists_typed
  refine ⟨x, hx.symm, fun u y hy => ?_⟩
  subst hy
  exact ⟨(DynProp.propType_ofTyped u y).symm, DynProp.tryInto_self u y⟩

/-- C43: borrowing keeps type and value. -/
theorem C43_borrow (d : DynProp) (t : PropType) :
    d.borrow.propType = d.propType ∧ d.borrow.tryInto t = d.tryInto t := by
  rw [DynProp.borrow_eq]; exact ⟨rfl, rfl⟩

/-- C43: the closure given to the type dispatcher sees the wrapped value at its own type. -/
theorem C43_dispatch (t : PropType) (x : t.Carrier) : (DynProp.ofTyped t x).typed = ⟨t, x⟩ :=
  DynProp.typed_ofTyped t x

example : (DynProp.ofTyped (.prim .u16) 1#16).tryInto (.prim .u16) = some 1#16 ∧
    (DynProp.ofTyped (.prim .u16) 1#16).tryInto (.prim .u32) = none ∧
    (DynProp.ofTyped (.vec .u16) [1#16]).propType = .vec .u16 := by decide

/-- C44: comparing two dynamic properties is true iff they have the same type and equal values. -/
theorem C44_dyn_eq_iff (d e : DynProp) :
    d.beq e = true ↔ ∃ (t : PropType) (a b : t.Carrier),
      d = DynProp.ofTyped t a ∧ e = DynProp.ofTyped t b ∧ PropSame t a b := by
  constructor
  · intro h
    obtain ⟨a, ha⟩ := d.exists_typed
    obtain ⟨b, hb⟩ := e.exists_typed
    by_cases ht : d.propType = e.propType
    · revert b; rw [← ht]; intro b hb
      refine ⟨d.propType, a, b, ha, hb, ?_⟩
      rw [ha, hb, DynProp.beq_ofTyped] at h
      exact (PropType.eqv_iff _ _ _).1 h
    · rw [DynProp.beq_ne d e ht] at h; exact absurd h (by decide)
  · rintro ⟨t, a, b, rfl, rfl, h⟩
    rw [DynProp.beq_ofTyped]; exact (t.eqv_iff a b).2 h

/-- C44: comparing a dynamic property with a concrete value is true iff the types are the same and
the values are equal. -/
theorem C44_concrete_eq_iff (d : DynProp) (t : PropType) (x : t.Carrier) :
    d.eqTyped t x = true ↔ ∃ a : t.Carrier, d = DynProp.ofTyped t a ∧ PropSame t a x := by
  constructor
  · intro h
    by_cases ht : d.propType = t
    · subst ht
      obtain ⟨a, ha⟩ := d.exists_typed
      refine ⟨a, ha, ?_⟩
      have : d.tryInto d.propType = some a := by
        conv => lhs; arg 1; rw [ha]
        exact DynProp.tryInto_self _ _
      simp only [DynProp.eqTyped, this] at h
      exact (PropType.eqv_iff _ _ _).1 h
    · simp only [DynProp.eqTyped, DynProp.tryInto_ne d t ht] at h; exact absurd h (by decide)
  · rintro ⟨a, rfl, h⟩
    simp only [DynProp.eqTyped, DynProp.tryInto_self]; exact (t.eqv_iff a x).2 h

/-- C44: comparing with a concrete value agrees with comparing with that value wrapped. -/
theorem C44_concrete_agrees (d : DynProp) (t : PropType) (x : t.Carrier) :
    d.eqTyped t x = d.beq (DynProp.ofTyped t x) := by
  rw [Bool.eq_iff_iff, C44_concrete_eq_iff, C44_dyn_eq_iff]
  constructor
  · rintro ⟨a, h, h'⟩; exact ⟨t, a, x, h, rfl, h'⟩
  · rintro ⟨u, a, b, h, h', hs⟩
    have hu : t = u := by
      have := congrArg DynProp.propType h'; simpa [DynProp.propType_ofTyped] using this
    subst hu
    have := DynProp.ofTyped_inj h'; subst this
    exact ⟨a, h, hs⟩

/-- C44: dynamic equality is symmetric. -/
theorem C44_symm (d e : DynProp) : d.beq e = e.beq d := by
  have key : ∀ d e : DynProp, d.beq e = true → e.beq d = true := by
    intro d e h
    obtain ⟨t, a, b, h1, h2, h3⟩ := (C44_dyn_eq_iff d e).1 h
    exact (C44_dyn_eq_iff e d).2 ⟨t, b, a, h2, h1, PropSame_symm t a b h3⟩
  rw [Bool.eq_iff_iff]; exact ⟨key d e, key e d⟩

/-- C44: a dynamic property equals itself iff it holds no NaN. -/
theorem C44_refl_iff (t : PropType) (x : t.Carrier) :
    (DynProp.ofTyped t x).beq (DynProp.ofTyped t x) = true ↔ ¬ PropNaN t x := by
  rw [DynProp.beq_ofTyped, PropType.eqv_iff, PropSame_refl]

example : (DynProp.ofTyped (.prim .f64) 0x7ff8000000000000#64).beq
      (DynProp.ofTyped (.prim .f64) 0x7ff8000000000000#64) = false ∧
    (DynProp.ofTyped (.vec .f32) [0x80000000#32]).beq (DynProp.ofTyped (.vec .f32) [0#32]) = true ∧
    (DynProp.ofTyped (.prim .u16) 1#16).beq (DynProp.ofTyped (.prim .i16) 1#16) = false := by
  decide +kernel

/-- C45: the conversion from primitive types to serialized kinds is a bijection (no kind is shared and
none is unused). -/
theorem C45_kind_bijective :
    (∀ p q : PrimType, FbKind.ofPrim p = FbKind.ofPrim q → p = q) ∧
    (∀ k : FbKind, ∃ p : PrimType, FbKind.ofPrim p = k) := by
  constructor
  · intro p q h; cases p <;> cases q <;> first | rfl | exact absurd h (by decide)
  · intro k; cases k
    all_goals first
      | exact ⟨.u8, rfl⟩
      | exact ⟨.u16, rfl⟩
      | exact ⟨.u32, rfl⟩
      | exact ⟨.u64, rfl⟩
      | exact ⟨.i8, rfl⟩
      | exact ⟨.i16, rfl⟩
      | exact ⟨.i32, rfl⟩
      | exact ⟨.i64, rfl⟩
      | exact ⟨.bool, rfl⟩
      | exact ⟨.f32, rfl⟩
      | exact ⟨.f64, rfl⟩
      | exact ⟨.string, rfl⟩
      | exact ⟨.objectHandle, rfl⟩
      | exact ⟨.contractDataHandle, rfl⟩

/-- C45: a serialized kind equals a property type iff that type is the primitive the kind was made
from; in particular never a vector. -/
theorem C45_kind_eq_iff (k : FbKind) (t : PropType) :
    k.eqProp t = true ↔ ∃ p : PrimType, t = .prim p ∧ FbKind.ofPrim p = k := by
  cases k <;> (rcases t with p | p <;> cases p <;> simp [FbKind.eqProp, FbKind.ofPrim])

/-- Specification: the primitive denoted by a union tag (primitive.fbs, by name). -/
def tagPrim : FbTag → Option PrimType
  | .none_ => none
  | .u8 => some .u8 | .u16 => some .u16 | .u32 => some .u32 | .u64 => some .u64
  | .i8 => some .i8 | .i16 => some .i16 | .i32 => some .i32 | .i64 => some .i64
  | .bool => some .bool | .f32 => some .f32 | .f64 => some .f64 | .fbString => some .string
  | .objectHandle => some .objectHandle | .contractDataHandle => some .contractDataHandle

/-- C45: a union tag equals a property type iff the type is the primitive the tag denotes. -/
theorem C45_tag_eq_iff (g : FbTag) (t : PropType) :
    g.eqProp t = true ↔ ∃ p : PrimType, t = .prim p ∧ tagPrim g = some p := by
  cases g <;> (rcases t with p | p <;> cases p <;> simp [FbTag.eqProp, tagPrim])

example : FbKind.eqProp .f32 (.prim .f32) = true ∧ FbKind.eqProp .f32 (.vec .f32) = false ∧
    FbTag.eqProp .none_ (.prim .u8) = false := by decide

/-- What C46 asks of a tag and a kind. -/
def TagKindAgree (g : FbTag) (k : FbKind) : Prop :=
  g.eqKind k = true ↔ (tagPrim g).map FbKind.ofPrim = some k

/-- C46 (false of the code): a `U32` value is reported equal to the `U64` kind and unequal to its own,
and a `U64` value equal to no kind at all. -/
theorem C46_negation : ¬ (∀ (g : FbTag) (k : FbKind), TagKindAgree g k) ∧
    FbTag.eqKind .u32 .u64 = true ∧ FbTag.eqKind .u32 .u32 = false ∧
    (∀ k : FbKind, FbTag.eqKind .u64 k = false) := by
  refine ⟨fun h => absurd (h .u32 .u64) (by simp [TagKindAgree, FbTag.eqKind, tagPrim, FbKind.ofPrim]),
    rfl, rfl, fun k => by cases k <;> rfl⟩

/-- C46, partial: the comparison is right for every pair except exactly the three involving 32- and
64-bit unsigned integers. -/
theorem C46_agree_iff_partial (g : FbTag) (k : FbKind) :
    TagKindAgree g k ↔ ¬ ((g = .u32 ∧ k = .u32) ∨ (g = .u32 ∧ k = .u64) ∨ (g = .u64 ∧ k = .u64)) := by
  cases g <;> cases k <;> simp [TagKindAgree, FbTag.eqKind, tagPrim, FbKind.ofPrim]

example : TagKindAgree .fbString .string ∧ FbTag.eqKind .fbString .string = true := by
  simp [TagKindAgree, FbTag.eqKind, tagPrim, FbKind.ofPrim]

end Verif.Props
