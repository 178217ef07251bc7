import Verif.Model.DynHandle
import Verif.Model.Macro
/-!
# The C API of baselines, and the contracts shipped with the repository

Models client/rust/src/baseline.rs:375-521 (`c_api`), client/rust/src/contract/properties/states/mod.rs:104-116,
/repo/client/contract_example/rust/src/{lib,states}.rs, demos/unity_states/rust/src/lib.rs and
demos/circle_game/src/circle.rs.

A boxed handle or id that crosses the boundary is modelled by its value (allocation and freeing are the subject of
`Model/Wrapper` and `Model/FfiHeap`); a `&mut State_T` is modelled by the write made through it.
-/
namespace Verif

namespace Baseline

/-- `Baseline__contract_data` (client/rust/src/baseline.rs:406-413). -/
def cContractData (b : Baseline) (h : Idx) : Outcome ContractData := expect "unwrap" (b.contractData h)

/-- `Baseline__object` (client/rust/src/baseline.rs:417-421). -/
def cObject (b : Baseline) (o : Idx) : Outcome ObjectD := expect "unwrap" (b.object o)

/-- `Baseline__state_T` (client/rust/src/baseline.rs:446-454) followed by `State_T__value` (client/rust/src/contract/properties/states/mod.rs:104-108).  Instantiated for
primitive types only (client/rust/src/baseline.rs:520). -/
def cState (b : Baseline) (p : PrimType) (h : Idx) : Outcome p.Carrier := expect "unwrap" (b.state (.prim p) h)

/-- `Baseline__state_mut_T` (client/rust/src/baseline.rs:456-464) followed by `State_T__value_set` (client/rust/src/contract/properties/states/mod.rs:110-115). -/
def cStateSet (b : Baseline) (p : PrimType) (h : Idx) (v : p.Carrier) : Baseline × Outcome Unit :=
  let (b', r) := b.stateWrite (.prim p) h v
  (b', expect "unwrap" r)

/-- `Baseline__channel_T` (client/rust/src/baseline.rs:466-474). -/
def cChannel (b : Baseline) (p : PrimType) (h : Idx) : Outcome (PropType.prim p).Chan :=
  expect "unwrap" (b.channel (.prim p) h)

/-- `Baseline__channel_mut_T` (client/rust/src/baseline.rs:476-484) and a write through it. -/
def cChannelSet (b : Baseline) (p : PrimType) (h : Idx) (v : (PropType.prim p).Chan) : Baseline × Outcome Unit :=
  let (b', r) := b.channelWrite (.prim p) h v
  (b', expect "unwrap" r)

/-- `Baseline__bind_state_T` (client/rust/src/baseline.rs:486-495). -/
def cBindState (b : Baseline) (id : PropId) (o : Idx) : Outcome Idx := expect "unwrap" (b.bindState id o)

/-- `Baseline__bind_channel_T` (client/rust/src/baseline.rs:497-506). -/
def cBindChannel (b : Baseline) (id : PropId) (o : Idx) : Outcome Idx := expect "unwrap" (b.bindChannel id o)

end Baseline

namespace Expansion

/-- The expansion of `#[states]` on a struct with these named fields; an error would stop compilation. (client/contract_macro/src/lib.rs; see `Model/Macro`) -/
def ofStruct (fs : List (String × PropType)) : Expansion :=
  match expandProps (.struct_ (.named fs)) with
  | .ok e => e
  | _ => ⟨[], [], [], [], [], []⟩

/-- Reading the field `name` of `States::new(handle)` directly, as the FFI getters do (`s.pos_x`). (client/contract_example/rust/src/states.rs:9-86) -/
def field (e : Expansion) (h : Idx) (name : String) : Option DynId :=
  ((e.construct h).find? fun f => f.1 = name).bind Prod.snd

/-- The contract type whose `States` is the expanded struct and whose `Channels` is `()`
(`impl IChannels for ()`: no channels; client/rust/src/contract/properties/channels/mod.rs:81-95). -/
def contract (e : Expansion) (id : ContractId) : ContractTy := ⟨id, List.zipWith Field.mk e.names e.propTypes, []⟩

end Expansion

/-! ## ExampleContract -/
namespace Example

/-- `struct ExampleStates` (client/contract_example/rust/src/states.rs:16-31). -/
def states : Expansion := Expansion.ofStruct
  [("u8_0", .prim .u8), ("u8_1", .prim .u8), ("i8_0", .prim .i8), ("i8_1", .prim .i8), ("f32_0", .prim .f32),
   ("f32_1", .prim .f32), ("str_0", .prim .string), ("oh_0", .prim .objectHandle), ("ch_0", .prim .contractDataHandle)]

/-- `impl Contract for ExampleContract` (client/contract_example/rust/src/lib.rs:18-47). -/
def C : ContractTy := states.contract ⟨"teleportal.example-ffi-contract", 1, 2, 3⟩

/-- `ExampleContract__register` (client/contract_example/rust/src/lib.rs:117-126); the contract is represented by its handle. -/
def register (b : Baseline) : Baseline × Outcome Idx :=
  let (b', r) := b.registerContract C
  (b', Baseline.expect "Failed to register contract" r)

/-- `ExampleContract__object_create` (client/contract_example/rust/src/lib.rs:75-104). -/
def objectCreate (contract : Idx) (b : Baseline) (u8_0 u8_1 i8_0 i8_1 : BitVec 8) (f32_0 f32_1 : BitVec 32)
    (str_0 : String) (oh_0 ch_0 : Idx) : Baseline × Outcome Idx :=
  let states : List DynProp :=
    [.primitive (.u8 u8_0), .primitive (.u8 u8_1), .primitive (.i8 i8_0), .primitive (.i8 i8_1),
     .primitive (.f32 f32_0), .primitive (.f32 f32_1), .primitive (.string str_0),
     .primitive (.objectHandle oh_0), .primitive (.contractDataHandle ch_0)]
  let (b', r) := b.objectCreate C contract states []
  (b', Baseline.expect "unwrap" r)

/-- `ExampleContract__object_remove` (client/contract_example/rust/src/lib.rs:106-115). -/
def objectRemove (b : Baseline) (o : Idx) : Baseline × Outcome Unit :=
  let (b', r) := b.objectRemove C o
  (b', Baseline.expect "unwrap" r)

/-- `ExampleStates__u8_0` (client/contract_example/rust/src/states.rs:33-37), on `ExampleContract__states` (client/contract_example/rust/src/lib.rs:69-73) of the contract with handle `h`. -/
def u8_0 (h : Idx) : Option DynId := states.field h "u8_0"
/-- `ExampleStates__u8_1` (client/contract_example/rust/src/states.rs:39-43). -/
def u8_1 (h : Idx) : Option DynId := states.field h "u8_1"
/-- `ExampleStates__i8_0` (client/contract_example/rust/src/states.rs:45-49). -/
def i8_0 (h : Idx) : Option DynId := states.field h "i8_0"
/-- `ExampleStates__i8_1` (client/contract_example/rust/src/states.rs:51-55). -/
def i8_1 (h : Idx) : Option DynId := states.field h "i8_1"
/-- `ExampleStates__f32_0` (client/contract_example/rust/src/states.rs:57-61). -/
def f32_0 (h : Idx) : Option DynId := states.field h "f32_0"
/-- `ExampleStates__f32_1` (client/contract_example/rust/src/states.rs:63-67). -/
def f32_1 (h : Idx) : Option DynId := states.field h "f32_1"
/-- `ExampleStates__str_0` (client/contract_example/rust/src/states.rs:69-73). -/
def str_0 (h : Idx) : Option DynId := states.field h "str_0"
/-- `ExampleStates__oh_0` (client/contract_example/rust/src/states.rs:75-79). -/
def oh_0 (h : Idx) : Option DynId := states.field h "oh_0"
/-- `ExampleStates__ch_0` (client/contract_example/rust/src/states.rs:81-85). -/
def ch_0 (h : Idx) : Option DynId := states.field h "ch_0"

end Example

/-! ## BallContract -/
namespace Ball

/-- `struct BallStates` (demos/unity_states/rust/src/lib.rs:55-69). -/
def states : Expansion := Expansion.ofStruct
  [("pos_x", .prim .f32), ("pos_y", .prim .f32), ("pos_z", .prim .f32),
   ("euler_x", .prim .i16), ("euler_y", .prim .i16), ("euler_z", .prim .i16),
   ("scale_x", .prim .f32), ("scale_y", .prim .f32), ("scale_z", .prim .f32), ("color", .prim .u64)]

/-- `impl Contract for BallContract` (demos/unity_states/rust/src/lib.rs:26-53). -/
def C : ContractTy := states.contract ⟨"Ball", 0, 0, 0⟩

/-- `BallContract__register` (demos/unity_states/rust/src/lib.rs:138-141). -/
def register (b : Baseline) : Baseline × Outcome Idx :=
  let (b', r) := b.registerContract C
  (b', Baseline.expect "unwrap" r)

/-- `BallContract__unregister` (demos/unity_states/rust/src/lib.rs:143-151). -/
def unregister (b : Baseline) (h : Idx) (ord : HashOrder) : Baseline × Outcome Unit :=
  let (b', r) := b.unregisterContract C h ord
  (b', Baseline.expect "unwrap" r)

/-- `BallContract__object_create` (demos/unity_states/rust/src/lib.rs:168-203). -/
def objectCreate (b : Baseline) (contract : Idx) (pos_x pos_y pos_z : BitVec 32) (euler_x euler_y euler_z : BitVec 16)
    (scale_x scale_y scale_z : BitVec 32) (color : BitVec 64) : Baseline × Outcome Idx :=
  let states : List DynProp :=
    [.primitive (.f32 pos_x), .primitive (.f32 pos_y), .primitive (.f32 pos_z),
     .primitive (.i16 euler_x), .primitive (.i16 euler_y), .primitive (.i16 euler_z),
     .primitive (.f32 scale_x), .primitive (.f32 scale_y), .primitive (.f32 scale_z), .primitive (.u64 color)]
  let (b', r) := b.objectCreate C contract states []
  (b', Baseline.expect "unwrap" r)

/-- `BallContract__object_remove` (demos/unity_states/rust/src/lib.rs:205-208). -/
def objectRemove (b : Baseline) (o : Idx) : Baseline × Outcome Unit :=
  let (b', r) := b.objectRemove C o
  (b', Baseline.expect "unwrap" r)

/-- `BallStates__pos_x` (demos/unity_states/rust/src/lib.rs:85-88), on the states of the contract with handle `h`. -/
def pos_x (h : Idx) : Option DynId := states.field h "pos_x"
/-- `BallStates__pos_y` (demos/unity_states/rust/src/lib.rs:90-93). -/
def pos_y (h : Idx) : Option DynId := states.field h "pos_y"
/-- `BallStates__pos_z` (demos/unity_states/rust/src/lib.rs:95-98). -/
def pos_z (h : Idx) : Option DynId := states.field h "pos_z"
/-- `BallStates__euler_x` (demos/unity_states/rust/src/lib.rs:100-103). -/
def euler_x (h : Idx) : Option DynId := states.field h "euler_x"
/-- `BallStates__euler_y` (demos/unity_states/rust/src/lib.rs:105-108). -/
def euler_y (h : Idx) : Option DynId := states.field h "euler_y"
/-- `BallStates__euler_z` (demos/unity_states/rust/src/lib.rs:110-113). -/
def euler_z (h : Idx) : Option DynId := states.field h "euler_z"
/-- `BallStates__scale_x` (demos/unity_states/rust/src/lib.rs:115-118). -/
def scale_x (h : Idx) : Option DynId := states.field h "scale_x"
/-- `BallStates__scale_y` (demos/unity_states/rust/src/lib.rs:120-123). -/
def scale_y (h : Idx) : Option DynId := states.field h "scale_y"
/-- `BallStates__scale_z` (demos/unity_states/rust/src/lib.rs:125-128). -/
def scale_z (h : Idx) : Option DynId := states.field h "scale_z"
/-- `BallStates__color` (demos/unity_states/rust/src/lib.rs:130-133). -/
def color (h : Idx) : Option DynId := states.field h "color"

end Ball

/-! ## Circle -/
namespace Circle

/-- `struct States` (demos/circle_game/src/circle.rs:10-15). -/
def states : Expansion := Expansion.ofStruct [("x", .prim .f32), ("y", .prim .f32)]

/-- `impl Contract for Circle` (demos/circle_game/src/circle.rs:17-45). -/
def C : ContractTy := states.contract ⟨"teleportal.app-circle_game-Circle", 0, 0, 1⟩

/-- `contract.states().x()` (the generated getter, client/contract_macro/src/lib.rs:94-100). -/
def x (h : Idx) : Option DynId := states.get h "x"
/-- `contract.states().y()`. (demos/circle_game/src/lib.rs:104-105) -/
def y (h : Idx) : Option DynId := states.get h "y"

end Circle
end Verif
