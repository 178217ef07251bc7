import Verif.Model.Arena
import Verif.Model.Float
/-!
# Property types and dynamic values

Models /repo/client/rust/src/contract/properties/{traits.rs, dynamic/*}.
Integers are bit patterns of the right width, floats are IEEE bit patterns, object and contract
handles are arena indices.
-/
namespace Verif

/-- `TpPrimitiveType` (client/rust/src/contract/properties/dynamic/primitive.rs:13-29). -/
inductive PrimType where
  | u8 | u16 | u32 | u64 | i8 | i16 | i32 | i64 | bool | f32 | f64 | string
  | objectHandle | contractDataHandle
deriving DecidableEq, Repr

/-- `TpPropertyType` (client/rust/src/contract/properties/dynamic/mod.rs:22-35). -/
inductive PropType where
  | vec (p : PrimType)
  | prim (p : PrimType)
deriving DecidableEq, Repr

/-- `TpPropertyType::primitive_type` (client/rust/src/contract/properties/dynamic/mod.rs:29-34). -/
def PropType.primitiveType : PropType → PrimType
  | .vec p => p
  | .prim p => p

/-- The Rust type behind a primitive tag (client/rust/src/contract/properties/traits.rs:40-56, `ITpData::DATA_TYPE`, read backwards). -/
@[reducible] def PrimType.Carrier : PrimType → Type
  | .u8 => BitVec 8 | .u16 => BitVec 16 | .u32 => BitVec 32 | .u64 => BitVec 64
  | .i8 => BitVec 8 | .i16 => BitVec 16 | .i32 => BitVec 32 | .i64 => BitVec 64
  | .bool => Bool | .f32 => BitVec 32 | .f64 => BitVec 64 | .string => String
  | .objectHandle => Idx | .contractDataHandle => Idx

/-- The Rust type behind a property tag (client/rust/src/contract/properties/traits.rs:83-92, `PROPERTY_TYPE`, read backwards). -/
@[reducible] def PropType.Carrier : PropType → Type
  | .vec p => List p.Carrier
  | .prim p => p.Carrier

/-- Carriers have decidable (structural) equality; used only by examples. -/
instance PrimType.decEq (p : PrimType) : DecidableEq p.Carrier := by
  cases p <;> (dsimp only [PrimType.Carrier]; infer_instance)

/-- Carriers have decidable (structural) equality; used only by examples. -/
instance PropType.decEq (t : PropType) : DecidableEq t.Carrier := by
  cases t <;> (dsimp only [PropType.Carrier]; infer_instance)

/-- `DynTpPrimitive` (client/rust/src/contract/properties/dynamic/property.rs:12-16 via client/rust/src/contract/properties/dynamic/__macro.rs:2-22). -/
inductive DynPrim where
  | u8 (v : BitVec 8) | u16 (v : BitVec 16) | u32 (v : BitVec 32) | u64 (v : BitVec 64)
  | i8 (v : BitVec 8) | i16 (v : BitVec 16) | i32 (v : BitVec 32) | i64 (v : BitVec 64)
  | bool (v : Bool) | f32 (v : BitVec 32) | f64 (v : BitVec 64) | string (v : String)
  | objectHandle (v : Idx) | contractDataHandle (v : Idx)
deriving DecidableEq, Repr

/-- `DynTpVec` (client/rust/src/contract/properties/dynamic/property.rs:12-16 via client/rust/src/contract/properties/dynamic/__macro.rs:23-42). -/
inductive DynVec where
  | u8 (v : List (BitVec 8)) | u16 (v : List (BitVec 16)) | u32 (v : List (BitVec 32))
  | u64 (v : List (BitVec 64)) | i8 (v : List (BitVec 8)) | i16 (v : List (BitVec 16))
  | i32 (v : List (BitVec 32)) | i64 (v : List (BitVec 64)) | bool (v : List Bool)
  | f32 (v : List (BitVec 32)) | f64 (v : List (BitVec 64)) | string (v : List String)
  | objectHandle (v : List Idx) | contractDataHandle (v : List Idx)
deriving DecidableEq, Repr

/-- `DynTpProperty` (client/rust/src/contract/properties/dynamic/property.rs:12-16 via client/rust/src/contract/properties/dynamic/__macro.rs:84-94). -/
inductive DynProp where
  | primitive (p : DynPrim)
  | vec (v : DynVec)
deriving DecidableEq, Repr

/-- `DynTpPrimitive::prop_type` (client/rust/src/contract/properties/dynamic/primitive.rs:31-52). -/
def DynPrim.propType : DynPrim → PropType
  | .u8 _ => .prim .u8 | .u16 _ => .prim .u16 | .u32 _ => .prim .u32 | .u64 _ => .prim .u64
  | .i8 _ => .prim .i8 | .i16 _ => .prim .i16 | .i32 _ => .prim .i32 | .i64 _ => .prim .i64
  | .bool _ => .prim .bool | .f32 _ => .prim .f32 | .f64 _ => .prim .f64
  | .string _ => .prim .string | .objectHandle _ => .prim .objectHandle
  | .contractDataHandle _ => .prim .contractDataHandle

/-- `DynTpVec::prop_type` (client/rust/src/contract/properties/dynamic/vec.rs:11-30). -/
def DynVec.propType : DynVec → PropType
  | .u8 _ => .vec .u8 | .u16 _ => .vec .u16 | .u32 _ => .vec .u32 | .u64 _ => .vec .u64
  | .i8 _ => .vec .i8 | .i16 _ => .vec .i16 | .i32 _ => .vec .i32 | .i64 _ => .vec .i64
  | .bool _ => .vec .bool | .f32 _ => .vec .f32 | .f64 _ => .vec .f64
  | .string _ => .vec .string | .objectHandle _ => .vec .objectHandle
  | .contractDataHandle _ => .vec .contractDataHandle

/-- `DynTpProperty::prop_type` (client/rust/src/contract/properties/dynamic/property.rs:17-24); `DynTpPropertyRef::prop_type`
(client/rust/src/contract/properties/dynamic/property.rs:79-128) has the same table. -/
def DynProp.propType : DynProp → PropType
  | .primitive p => p.propType
  | .vec v => v.propType

/-- A value paired with its static type: what a closure passed to `apply_to_prop!` receives. (client/rust/src/contract/properties/dynamic/__macro.rs) -/
abbrev Typed := (t : PropType) × t.Carrier

/-- `apply_to_prop!` dispatch (client/rust/src/contract/properties/dynamic/__macro.rs:173-215, 260-273): one arm per variant, each
handing the payload to the closure at its own static type. -/
def DynProp.typed : DynProp → Typed
  | .primitive (.u8 v) => ⟨.prim .u8, v⟩ | .primitive (.u16 v) => ⟨.prim .u16, v⟩
  | .primitive (.u32 v) => ⟨.prim .u32, v⟩ | .primitive (.u64 v) => ⟨.prim .u64, v⟩
  | .primitive (.i8 v) => ⟨.prim .i8, v⟩ | .primitive (.i16 v) => ⟨.prim .i16, v⟩
  | .primitive (.i32 v) => ⟨.prim .i32, v⟩ | .primitive (.i64 v) => ⟨.prim .i64, v⟩
  | .primitive (.bool v) => ⟨.prim .bool, v⟩ | .primitive (.f32 v) => ⟨.prim .f32, v⟩
  | .primitive (.f64 v) => ⟨.prim .f64, v⟩ | .primitive (.string v) => ⟨.prim .string, v⟩
  | .primitive (.objectHandle v) => ⟨.prim .objectHandle, v⟩
  | .primitive (.contractDataHandle v) => ⟨.prim .contractDataHandle, v⟩
  | .vec (.u8 v) => ⟨.vec .u8, v⟩ | .vec (.u16 v) => ⟨.vec .u16, v⟩
  | .vec (.u32 v) => ⟨.vec .u32, v⟩ | .vec (.u64 v) => ⟨.vec .u64, v⟩
  | .vec (.i8 v) => ⟨.vec .i8, v⟩ | .vec (.i16 v) => ⟨.vec .i16, v⟩
  | .vec (.i32 v) => ⟨.vec .i32, v⟩ | .vec (.i64 v) => ⟨.vec .i64, v⟩
  | .vec (.bool v) => ⟨.vec .bool, v⟩ | .vec (.f32 v) => ⟨.vec .f32, v⟩
  | .vec (.f64 v) => ⟨.vec .f64, v⟩ | .vec (.string v) => ⟨.vec .string, v⟩
  | .vec (.objectHandle v) => ⟨.vec .objectHandle, v⟩
  | .vec (.contractDataHandle v) => ⟨.vec .contractDataHandle, v⟩

/-- `From<T>` / `From<Vec<T>>` for `DynTpProperty` (client/rust/src/contract/properties/dynamic/from_impls.rs:40-63 and the derived
`From` of client/rust/src/contract/properties/dynamic/__macro.rs:4,24): wrap a typed value in the variant of its type. -/
def DynProp.ofTyped : (t : PropType) → t.Carrier → DynProp
  | .prim .u8, v => .primitive (.u8 v) | .prim .u16, v => .primitive (.u16 v)
  | .prim .u32, v => .primitive (.u32 v) | .prim .u64, v => .primitive (.u64 v)
  | .prim .i8, v => .primitive (.i8 v) | .prim .i16, v => .primitive (.i16 v)
  | .prim .i32, v => .primitive (.i32 v) | .prim .i64, v => .primitive (.i64 v)
  | .prim .bool, v => .primitive (.bool v) | .prim .f32, v => .primitive (.f32 v)
  | .prim .f64, v => .primitive (.f64 v) | .prim .string, v => .primitive (.string v)
  | .prim .objectHandle, v => .primitive (.objectHandle v)
  | .prim .contractDataHandle, v => .primitive (.contractDataHandle v)
  | .vec .u8, v => .vec (.u8 v) | .vec .u16, v => .vec (.u16 v)
  | .vec .u32, v => .vec (.u32 v) | .vec .u64, v => .vec (.u64 v)
  | .vec .i8, v => .vec (.i8 v) | .vec .i16, v => .vec (.i16 v)
  | .vec .i32, v => .vec (.i32 v) | .vec .i64, v => .vec (.i64 v)
  | .vec .bool, v => .vec (.bool v) | .vec .f32, v => .vec (.f32 v)
  | .vec .f64, v => .vec (.f64 v) | .vec .string, v => .vec (.string v)
  | .vec .objectHandle, v => .vec (.objectHandle v)
  | .vec .contractDataHandle, v => .vec (.contractDataHandle v)

/-- Derived `TryInto<T>` through `DynTpPrimitive`/`DynTpVec` (client/rust/src/contract/properties/dynamic/__macro.rs:4, 24, 77):
succeeds only for the variant of type `T`. -/
def DynProp.tryInto (d : DynProp) : (t : PropType) → Option t.Carrier
  | .prim .u8 => match d with | .primitive (.u8 v) => some v | _ => none
  | .prim .u16 => match d with | .primitive (.u16 v) => some v | _ => none
  | .prim .u32 => match d with | .primitive (.u32 v) => some v | _ => none
  | .prim .u64 => match d with | .primitive (.u64 v) => some v | _ => none
  | .prim .i8 => match d with | .primitive (.i8 v) => some v | _ => none
  | .prim .i16 => match d with | .primitive (.i16 v) => some v | _ => none
  | .prim .i32 => match d with | .primitive (.i32 v) => some v | _ => none
  | .prim .i64 => match d with | .primitive (.i64 v) => some v | _ => none
  | .prim .bool => match d with | .primitive (.bool v) => some v | _ => none
  | .prim .f32 => match d with | .primitive (.f32 v) => some v | _ => none
  | .prim .f64 => match d with | .primitive (.f64 v) => some v | _ => none
  | .prim .string => match d with | .primitive (.string v) => some v | _ => none
  | .prim .objectHandle => match d with | .primitive (.objectHandle v) => some v | _ => none
  | .prim .contractDataHandle =>
    match d with | .primitive (.contractDataHandle v) => some v | _ => none
  | .vec .u8 => match d with | .vec (.u8 v) => some v | _ => none
  | .vec .u16 => match d with | .vec (.u16 v) => some v | _ => none
  | .vec .u32 => match d with | .vec (.u32 v) => some v | _ => none
  | .vec .u64 => match d with | .vec (.u64 v) => some v | _ => none
  | .vec .i8 => match d with | .vec (.i8 v) => some v | _ => none
  | .vec .i16 => match d with | .vec (.i16 v) => some v | _ => none
  | .vec .i32 => match d with | .vec (.i32 v) => some v | _ => none
  | .vec .i64 => match d with | .vec (.i64 v) => some v | _ => none
  | .vec .bool => match d with | .vec (.bool v) => some v | _ => none
  | .vec .f32 => match d with | .vec (.f32 v) => some v | _ => none
  | .vec .f64 => match d with | .vec (.f64 v) => some v | _ => none
  | .vec .string => match d with | .vec (.string v) => some v | _ => none
  | .vec .objectHandle => match d with | .vec (.objectHandle v) => some v | _ => none
  | .vec .contractDataHandle => match d with | .vec (.contractDataHandle v) => some v | _ => none

/-- Rust `PartialEq` of a primitive value (`==` of the carrier type; floats are IEEE). (the `==` in client/rust/src/contract/properties/dynamic/eq_impls.rs) -/
def PrimType.eqv : (p : PrimType) → p.Carrier → p.Carrier → Bool
  | .u8, a, b => a == b | .u16, a, b => a == b | .u32, a, b => a == b | .u64, a, b => a == b
  | .i8, a, b => a == b | .i16, a, b => a == b | .i32, a, b => a == b | .i64, a, b => a == b
  | .bool, a, b => a == b
  | .f32, a, b => fmt32.feq a b
  | .f64, a, b => fmt64.feq a b
  | .string, a, b => a == b
  | .objectHandle, a, b => decide (a = b)
  | .contractDataHandle, a, b => decide (a = b)

/-- Elementwise comparison of two sequences (Rust `PartialEq` of slices). (the `==` in client/rust/src/contract/properties/dynamic/eq_impls.rs) -/
def listEqv {α : Type} (eq : α → α → Bool) : List α → List α → Bool
  | [], [] => true
  | a :: as, b :: bs => eq a b && listEqv eq as bs
  | _, _ => false

/-- Rust `PartialEq` of a property value: primitives directly, vectors elementwise. (the `==` in client/rust/src/contract/properties/dynamic/eq_impls.rs) -/
def PropType.eqv : (t : PropType) → t.Carrier → t.Carrier → Bool
  | .prim p, a, b => p.eqv a b
  | .vec p, a, b => listEqv p.eqv a b

/-- Derived `PartialEq` of `DynTpPrimitive` (client/rust/src/contract/properties/dynamic/property.rs:12-16). -/
def DynPrim.beq : DynPrim → DynPrim → Bool
  | .u8 a, .u8 b => a == b | .u16 a, .u16 b => a == b | .u32 a, .u32 b => a == b
  | .u64 a, .u64 b => a == b | .i8 a, .i8 b => a == b | .i16 a, .i16 b => a == b
  | .i32 a, .i32 b => a == b | .i64 a, .i64 b => a == b | .bool a, .bool b => a == b
  | .f32 a, .f32 b => fmt32.feq a b | .f64 a, .f64 b => fmt64.feq a b
  | .string a, .string b => a == b
  | .objectHandle a, .objectHandle b => decide (a = b)
  | .contractDataHandle a, .contractDataHandle b => decide (a = b)
  | _, _ => false

/-- Derived `PartialEq` of `DynTpVec` (client/rust/src/contract/properties/dynamic/property.rs:12-16). -/
def DynVec.beq : DynVec → DynVec → Bool
  | .u8 a, .u8 b => listEqv (· == ·) a b | .u16 a, .u16 b => listEqv (· == ·) a b
  | .u32 a, .u32 b => listEqv (· == ·) a b | .u64 a, .u64 b => listEqv (· == ·) a b
  | .i8 a, .i8 b => listEqv (· == ·) a b | .i16 a, .i16 b => listEqv (· == ·) a b
  | .i32 a, .i32 b => listEqv (· == ·) a b | .i64 a, .i64 b => listEqv (· == ·) a b
  | .bool a, .bool b => listEqv (· == ·) a b
  | .f32 a, .f32 b => listEqv fmt32.feq a b | .f64 a, .f64 b => listEqv fmt64.feq a b
  | .string a, .string b => listEqv (· == ·) a b
  | .objectHandle a, .objectHandle b => listEqv (fun x y => decide (x = y)) a b
  | .contractDataHandle a, .contractDataHandle b => listEqv (fun x y => decide (x = y)) a b
  | _, _ => false

/-- `BBorrow::borrow` of a `DynTpProperty` (client/rust/src/contract/properties/dynamic/borrow_impls.rs:9-37): match the variant, and let
the derived `From` of the reference enum choose the variant from the payload's static type.
References are modelled by the value they refer to. -/
def DynProp.borrow (d : DynProp) : DynProp := DynProp.ofTyped d.typed.1 d.typed.2

/-- Derived `PartialEq` of `DynTpProperty` / `DynTpPropertyRef` (client/rust/src/contract/properties/dynamic/property.rs:12-16, 131-133):
the comparison `state.0 == BBorrow::borrow(data)` of client/rust/src/engine.rs:113. -/
def DynProp.beq : DynProp → DynProp → Bool
  | .primitive a, .primitive b => a.beq b
  | .vec a, .vec b => a.beq b
  | _, _ => false

/-- Comparison of a dynamic property with a concrete value, either way round
(client/rust/src/contract/properties/dynamic/eq_impls.rs:7-81, client/rust/src/contract/properties/dynamic/primitive.rs:56-92, client/rust/src/contract/properties/dynamic/vec.rs:32-103): match the variant of the
concrete type, else `false`. -/
def DynProp.eqTyped (d : DynProp) (t : PropType) (x : t.Carrier) : Bool :=
  match d.tryInto t with
  | some y => t.eqv y x
  | none => false

end Verif
