import Verif.Model.Types
/-!
# Serialized type tags

Models /repo/client/serialize/rust/src/types/{from_impl,eq_impl}.rs and the generated enums they use
(client/serialize/schema: `TpPrimitiveKind` and the tag of the `TpPrimitive` union).
-/
namespace Verif

/-- `TpPrimitiveKind`: the tag stored in a serialized contract (client/serialize/flatbuffers/primitive.fbs). (client/serialize/flatbuffers/primitive.fbs:75-90) -/
inductive FbKind where
  | u8 | u16 | u32 | u64 | i8 | i16 | i32 | i64 | bool | f32 | f64 | string
  | objectHandle | contractDataHandle
deriving DecidableEq, Repr

/-- Tag of the `TpPrimitive` union stored with a serialized state (client/serialize/flatbuffers/primitive.fbs); `none_` is the
implicit `NONE` variant of every flatbuffers union. (client/serialize/flatbuffers/primitive.fbs:57-72) -/
inductive FbTag where
  | none_ | u8 | u16 | u32 | u64 | i8 | i16 | i32 | i64 | bool | f32 | f64 | fbString
  | objectHandle | contractDataHandle
deriving DecidableEq, Repr

/-- `From<TpPrimitiveType> for TpPrimitiveKind` (client/serialize/rust/src/types/from_impl.rs:3-24). -/
def FbKind.ofPrim : PrimType → FbKind
  | .u8 => .u8 | .u16 => .u16 | .u32 => .u32 | .u64 => .u64
  | .i8 => .i8 | .i16 => .i16 | .i32 => .i32 | .i64 => .i64
  | .bool => .bool | .f32 => .f32 | .f64 => .f64 | .string => .string
  | .objectHandle => .objectHandle | .contractDataHandle => .contractDataHandle

/-- `PartialEq<TpPropertyType> for TpPrimitiveKind` and its mirror (client/serialize/rust/src/types/eq_impl.rs:3-31). -/
def FbKind.eqProp : FbKind → PropType → Bool
  | .u8, .prim .u8 | .u16, .prim .u16 | .u32, .prim .u32 | .u64, .prim .u64
  | .i8, .prim .i8 | .i16, .prim .i16 | .i32, .prim .i32 | .i64, .prim .i64
  | .bool, .prim .bool | .f32, .prim .f32 | .f64, .prim .f64 | .string, .prim .string
  | .objectHandle, .prim .objectHandle | .contractDataHandle, .prim .contractDataHandle => true
  | _, _ => false

/-- `PartialEq<TpPropertyType> for TpPrimitive` and its mirror (client/serialize/rust/src/types/eq_impl.rs:33-63). -/
def FbTag.eqProp : FbTag → PropType → Bool
  | .u8, .prim .u8 | .u16, .prim .u16 | .u32, .prim .u32 | .u64, .prim .u64
  | .i8, .prim .i8 | .i16, .prim .i16 | .i32, .prim .i32 | .i64, .prim .i64
  | .bool, .prim .bool | .f32, .prim .f32 | .f64, .prim .f64 | .fbString, .prim .string
  | .objectHandle, .prim .objectHandle | .contractDataHandle, .prim .contractDataHandle => true
  | _, _ => false

/-- `PartialEq<TpPrimitiveKind> for TpPrimitive` and its mirror (client/serialize/rust/src/types/eq_impl.rs:65-89), as written:
the `U32` tag is paired with the `U64` kind. -/
def FbTag.eqKind : FbTag → FbKind → Bool
  | .u8, .u8 | .u16, .u16 | .u32, .u64
  | .i8, .i8 | .i16, .i16 | .i32, .i32 | .i64, .i64
  | .bool, .bool | .f32, .f32 | .f64, .f64 | .fbString, .string
  | .objectHandle, .objectHandle | .contractDataHandle, .contractDataHandle => true
  | _, _ => false

end Verif
