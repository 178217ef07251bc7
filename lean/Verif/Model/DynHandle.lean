import Verif.Model.Baseline
/-!
# Dynamic handles and the index operators

Models client/rust/src/contract/properties/states/dyn_handle.rs, client/rust/src/contract/properties/channels/dyn_handle.rs and
client/rust/src/baseline.rs:336-373 (`Index`/`IndexMut`).  The enums are the expansions of
`DynEnum!` (client/rust/src/contract/properties/dynamic/__macro.rs:2-107) and the matches the expansions of `primitives!`.

A reference is modelled by the value it refers to, a `&mut` by the change its holder makes (see `Model/Baseline`).
-/
namespace Verif

/-- `DynStateHandlePrimitive` (client/rust/src/contract/properties/states/dyn_handle.rs:13-16); `DynChannelHandlePrimitive` (client/rust/src/contract/properties/channels/dyn_handle.rs:10) has
the same variants. -/
inductive HandlePrim where
  | u8 (i : Idx) | u16 (i : Idx) | u32 (i : Idx) | u64 (i : Idx) | i8 (i : Idx) | i16 (i : Idx) | i32 (i : Idx) | i64 (i : Idx)
  | bool (i : Idx) | f32 (i : Idx) | f64 (i : Idx) | string (i : Idx) | objectHandle (i : Idx) | contractDataHandle (i : Idx)
deriving DecidableEq, Repr

/-- `DynStateHandleVec` (client/rust/src/contract/properties/states/dyn_handle.rs:13-16) and `DynChannelHandleVec` (client/rust/src/contract/properties/channels/dyn_handle.rs:10). -/
inductive HandleVec where
  | u8 (i : Idx) | u16 (i : Idx) | u32 (i : Idx) | u64 (i : Idx) | i8 (i : Idx) | i16 (i : Idx) | i32 (i : Idx) | i64 (i : Idx)
  | bool (i : Idx) | f32 (i : Idx) | f64 (i : Idx) | string (i : Idx) | objectHandle (i : Idx) | contractDataHandle (i : Idx)
deriving DecidableEq, Repr

/-- `DynStateHandle` (client/rust/src/contract/properties/states/dyn_handle.rs:13-16) and `DynChannelHandle` (client/rust/src/contract/properties/channels/dyn_handle.rs:10); `PartialEq` is
derived, hence structural equality. -/
inductive DynHandleE where
  | primitive (p : HandlePrim)
  | vec (v : HandleVec)
deriving DecidableEq, Repr

namespace DynHandleE

/-- `prop_type` (client/rust/src/contract/properties/states/dyn_handle.rs:68-90, client/rust/src/contract/properties/channels/dyn_handle.rs:65-87). -/
def propType : DynHandleE → PropType
  | .primitive (.u8 _) => .prim .u8 | .primitive (.u16 _) => .prim .u16 | .primitive (.u32 _) => .prim .u32
  | .primitive (.u64 _) => .prim .u64 | .primitive (.i8 _) => .prim .i8 | .primitive (.i16 _) => .prim .i16
  | .primitive (.i32 _) => .prim .i32 | .primitive (.i64 _) => .prim .i64 | .primitive (.bool _) => .prim .bool
  | .primitive (.f32 _) => .prim .f32 | .primitive (.f64 _) => .prim .f64 | .primitive (.string _) => .prim .string
  | .primitive (.objectHandle _) => .prim .objectHandle | .primitive (.contractDataHandle _) => .prim .contractDataHandle
  | .vec (.u8 _) => .vec .u8 | .vec (.u16 _) => .vec .u16 | .vec (.u32 _) => .vec .u32
  | .vec (.u64 _) => .vec .u64 | .vec (.i8 _) => .vec .i8 | .vec (.i16 _) => .vec .i16
  | .vec (.i32 _) => .vec .i32 | .vec (.i64 _) => .vec .i64 | .vec (.bool _) => .vec .bool
  | .vec (.f32 _) => .vec .f32 | .vec (.f64 _) => .vec .f64 | .vec (.string _) => .vec .string
  | .vec (.objectHandle _) => .vec .objectHandle | .vec (.contractDataHandle _) => .vec .contractDataHandle

/-- `From<StateHandle<T>>` and `From<StateHandle<Vec<T>>>` (client/rust/src/contract/properties/states/dyn_handle.rs:97-111 with the derived `From` of
client/rust/src/contract/properties/dynamic/__macro.rs:25, 45); for channels the derived conversions. -/
def ofHandle : PropType → Idx → DynHandleE
  | .prim .u8, i => .primitive (.u8 i) | .prim .u16, i => .primitive (.u16 i) | .prim .u32, i => .primitive (.u32 i)
  | .prim .u64, i => .primitive (.u64 i) | .prim .i8, i => .primitive (.i8 i) | .prim .i16, i => .primitive (.i16 i)
  | .prim .i32, i => .primitive (.i32 i) | .prim .i64, i => .primitive (.i64 i) | .prim .bool, i => .primitive (.bool i)
  | .prim .f32, i => .primitive (.f32 i) | .prim .f64, i => .primitive (.f64 i) | .prim .string, i => .primitive (.string i)
  | .prim .objectHandle, i => .primitive (.objectHandle i) | .prim .contractDataHandle, i => .primitive (.contractDataHandle i)
  | .vec .u8, i => .vec (.u8 i) | .vec .u16, i => .vec (.u16 i) | .vec .u32, i => .vec (.u32 i)
  | .vec .u64, i => .vec (.u64 i) | .vec .i8, i => .vec (.i8 i) | .vec .i16, i => .vec (.i16 i)
  | .vec .i32, i => .vec (.i32 i) | .vec .i64, i => .vec (.i64 i) | .vec .bool, i => .vec (.bool i)
  | .vec .f32, i => .vec (.f32 i) | .vec .f64, i => .vec (.f64 i) | .vec .string, i => .vec (.string i)
  | .vec .objectHandle, i => .vec (.objectHandle i) | .vec .contractDataHandle, i => .vec (.contractDataHandle i)

/-- Derived `TryInto<StateHandle<T>>` (client/rust/src/contract/properties/dynamic/__macro.rs:25, 45, 76). -/
def tryInto (d : DynHandleE) : PropType → Option Idx
  | .prim .u8 => match d with | .primitive (.u8 i) => some i | _ => none
  | .prim .u16 => match d with | .primitive (.u16 i) => some i | _ => none
  | .prim .u32 => match d with | .primitive (.u32 i) => some i | _ => none
  | .prim .u64 => match d with | .primitive (.u64 i) => some i | _ => none
  | .prim .i8 => match d with | .primitive (.i8 i) => some i | _ => none
  | .prim .i16 => match d with | .primitive (.i16 i) => some i | _ => none
  | .prim .i32 => match d with | .primitive (.i32 i) => some i | _ => none
  | .prim .i64 => match d with | .primitive (.i64 i) => some i | _ => none
  | .prim .bool => match d with | .primitive (.bool i) => some i | _ => none
  | .prim .f32 => match d with | .primitive (.f32 i) => some i | _ => none
  | .prim .f64 => match d with | .primitive (.f64 i) => some i | _ => none
  | .prim .string => match d with | .primitive (.string i) => some i | _ => none
  | .prim .objectHandle => match d with | .primitive (.objectHandle i) => some i | _ => none
  | .prim .contractDataHandle => match d with | .primitive (.contractDataHandle i) => some i | _ => none
  | .vec .u8 => match d with | .vec (.u8 i) => some i | _ => none
  | .vec .u16 => match d with | .vec (.u16 i) => some i | _ => none
  | .vec .u32 => match d with | .vec (.u32 i) => some i | _ => none
  | .vec .u64 => match d with | .vec (.u64 i) => some i | _ => none
  | .vec .i8 => match d with | .vec (.i8 i) => some i | _ => none
  | .vec .i16 => match d with | .vec (.i16 i) => some i | _ => none
  | .vec .i32 => match d with | .vec (.i32 i) => some i | _ => none
  | .vec .i64 => match d with | .vec (.i64 i) => some i | _ => none
  | .vec .bool => match d with | .vec (.bool i) => some i | _ => none
  | .vec .f32 => match d with | .vec (.f32 i) => some i | _ => none
  | .vec .f64 => match d with | .vec (.f64 i) => some i | _ => none
  | .vec .string => match d with | .vec (.string i) => some i | _ => none
  | .vec .objectHandle => match d with | .vec (.objectHandle i) => some i | _ => none
  | .vec .contractDataHandle => match d with | .vec (.contractDataHandle i) => some i | _ => none

/-- The dispatch of `apply_to_state_handle!` (client/rust/src/contract/properties/dynamic/__macro.rs:173-215, 330-345) and of `match_helper!`
(client/rust/src/contract/properties/states/dyn_handle.rs:52-65, client/rust/src/contract/properties/channels/dyn_handle.rs:49-62): call the generic function at the type of the variant. -/
def dispatch {R : Type} (k : PropType → Idx → R) : DynHandleE → R
  | .primitive (.u8 i) => k (.prim .u8) i | .primitive (.u16 i) => k (.prim .u16) i | .primitive (.u32 i) => k (.prim .u32) i
  | .primitive (.u64 i) => k (.prim .u64) i | .primitive (.i8 i) => k (.prim .i8) i | .primitive (.i16 i) => k (.prim .i16) i
  | .primitive (.i32 i) => k (.prim .i32) i | .primitive (.i64 i) => k (.prim .i64) i | .primitive (.bool i) => k (.prim .bool) i
  | .primitive (.f32 i) => k (.prim .f32) i | .primitive (.f64 i) => k (.prim .f64) i | .primitive (.string i) => k (.prim .string) i
  | .primitive (.objectHandle i) => k (.prim .objectHandle) i | .primitive (.contractDataHandle i) => k (.prim .contractDataHandle) i
  | .vec (.u8 i) => k (.vec .u8) i | .vec (.u16 i) => k (.vec .u16) i | .vec (.u32 i) => k (.vec .u32) i
  | .vec (.u64 i) => k (.vec .u64) i | .vec (.i8 i) => k (.vec .i8) i | .vec (.i16 i) => k (.vec .i16) i
  | .vec (.i32 i) => k (.vec .i32) i | .vec (.i64 i) => k (.vec .i64) i | .vec (.bool i) => k (.vec .bool) i
  | .vec (.f32 i) => k (.vec .f32) i | .vec (.f64 i) => k (.vec .f64) i | .vec (.string i) => k (.vec .string) i
  | .vec (.objectHandle i) => k (.vec .objectHandle) i | .vec (.contractDataHandle i) => k (.vec .contractDataHandle) i

end DynHandleE

/-- What the holder of a `DynStateMut` can do (client/rust/src/contract/properties/states/dyn_state.rs:16-17): replace a primitive, or change the elements of
a vector in place, the length being fixed because it holds a `&mut [T]` (client/rust/src/contract/properties/dynamic/property.rs:59-66). -/
structure DynWriter where
  prim : (p : PrimType) → p.Carrier → p.Carrier
  vec : (p : PrimType) → List p.Carrier → List p.Carrier
  vec_length : ∀ (p : PrimType) (l : List p.Carrier), (vec p l).length = l.length

/-- The change made to a value of type `t`. (what a caller does with the `&mut` it gets) (client/rust/src/contract/properties/states/dyn_handle.rs:33-66) -/
def DynWriter.change (w : DynWriter) : (t : PropType) → t.Carrier → t.Carrier
  | .prim p, v => w.prim p v
  | .vec p, v => w.vec p v

namespace Baseline

/-- `DynStateHandle::get` (client/rust/src/contract/properties/states/dyn_handle.rs:21-31). -/
def dynStateGet (b : Baseline) (d : DynHandleE) : Outcome DynProp :=
  d.dispatch fun t i => (b.state t i).map (DynProp.ofTyped t)

/-- `DynStateHandle::get_mut` (client/rust/src/contract/properties/states/dyn_handle.rs:33-66) followed by a change through the reference. -/
def dynStateModify (b : Baseline) (d : DynHandleE) (w : DynWriter) : Baseline × Outcome Unit :=
  d.dispatch fun t i =>
    match b.state t i with
    | .ok v => b.stateWrite t i (w.change t v)
    | .err m => (b, .err m)
    | .panic m => (b, .panic m)

/-- `DynChannelHandle::get` (client/rust/src/contract/properties/channels/dyn_handle.rs:20-29). -/
def dynChannelGet (b : Baseline) (d : DynHandleE) : Outcome DynChannel :=
  d.dispatch fun t i => (b.channel t i).map fun c => (⟨t, c⟩ : DynChannel)

/-- `DynChannelHandle::get_mut` (client/rust/src/contract/properties/channels/dyn_handle.rs:31-63) followed by a change through the reference. -/
def dynChannelModify (b : Baseline) (d : DynHandleE) (w : (t : PropType) → t.Chan → t.Chan) : Baseline × Outcome Unit :=
  d.dispatch fun t i =>
    match b.channel t i with
    | .ok v => b.channelWrite t i (w t v)
    | .err m => (b, .err m)
    | .panic m => (b, .panic m)

/-- `Result::expect`. (as in client/rust/src/baseline.rs:336-415) -/
def expect {α : Type} (msg : String) : Outcome α → Outcome α
  | .ok v => .ok v
  | .err _ => .panic msg
  | .panic m => .panic m

/-- `baseline[state_handle]` (client/rust/src/baseline.rs:349-355). -/
def indexState (b : Baseline) (t : PropType) (h : Idx) : Outcome t.Carrier := expect "Invalid handle" (b.state t h)

/-- A write through `&mut baseline[state_handle]` (client/rust/src/baseline.rs:356-360). -/
def indexStateWrite (b : Baseline) (t : PropType) (h : Idx) (v : t.Carrier) : Baseline × Outcome Unit :=
  let (b', r) := b.stateWrite t h v
  (b', expect "Invalid handle" r)

/-- `baseline[channel_handle]` (client/rust/src/baseline.rs:362-368). -/
def indexChannel (b : Baseline) (t : PropType) (h : Idx) : Outcome t.Chan := expect "Invalid handle" (b.channel t h)

/-- A write through `&mut baseline[channel_handle]` (client/rust/src/baseline.rs:369-373). -/
def indexChannelWrite (b : Baseline) (t : PropType) (h : Idx) (v : t.Chan) : Baseline × Outcome Unit :=
  let (b', r) := b.channelWrite t h v
  (b', expect "Invalid handle" r)

/-- A write of the time warp through `&mut baseline[object_handle]` (client/rust/src/baseline.rs:343-347). -/
def indexObjectSetWarp (b : Baseline) (o : Idx) (w : TimeWarp) : Baseline × Outcome Unit :=
  match b.objects.modify o (fun ob => { ob with warp := w }) with
  | none => (b, .panic "No element at index")
  | some objs => ({ b with objects := objs }, .ok ())

end Baseline
end Verif
