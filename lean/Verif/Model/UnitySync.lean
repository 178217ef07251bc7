import Verif.Model.CApi
import Verif.Model.UnityColor
/-!
# The Unity demo: copying a ball into the platform, frame by frame

Models demos/unity_states/unity/Assets/Scripts/*.cs: the Unity side of a ball (`BallStateDataSourceUnity`), its copy in a baseline
(`BallStateDataSourcePlatform`), the script that copies (`BallStateDataSourceSynchronizer`) and the billboards that show either
side (`BallStateBillboardViewer`).

Simplifications.  Unity calls every `Awake` before the first `Update` and then the `Update` methods in any order, each after the other on
one thread; an exception ends the `Update` it is thrown in and is logged.  The pointers behind the wrappers are the subject of `Model/FfiHeap` (C72, C73, C79):
here `ObjectCreate` gets the contract it asks for, and a write through a state that was borrowed shared has its effect.  A billboard shows the ten
numbers; how they are printed is not modelled.  The conversions from `float` are parameters.
-/
namespace Verif
namespace UnitySync

/-- A `UnityEngine.Vector3`: three `float`s. (demos/unity_states/unity/Assets/Scripts/BallStateDataSourceUnity.cs:39-109) -/
structure Vec3 where
  x : BitVec 32
  y : BitVec 32
  z : BitVec 32
deriving DecidableEq, Repr

/-- A `UnityEngine.Color` (demos/unity_states/unity/Assets/Scripts/BallStateDataSourceUnity.cs:122). -/
structure Color where
  r : BitVec 32
  g : BitVec 32
  b : BitVec 32
  a : BitVec 32
deriving DecidableEq, Repr

/-- What the Unity side of a ball is made of: its transform, and the materials of its mesh renderer (`none`: no renderer).
(demos/unity_states/unity/Assets/Scripts/BallStateDataSourceUnity.cs:7-12, 39-122) -/
structure Scene where
  position : Vec3
  eulerAngles : Vec3
  localScale : Vec3
  renderer : Option (List Color)
deriving DecidableEq, Repr

/-- The conversions from `float`. (demos/unity_states/unity/Assets/Scripts/BallStateDataSourceUnity.cs:39-122) -/
structure Conv where
  /-- `(short)x` (demos/unity_states/unity/Assets/Scripts/BallStateDataSourceUnity.cs:67, 75, 83) -/
  toShort : BitVec 32 → BitVec 16
  /-- `(ushort)(x * scale)` (demos/unity_states/unity/Assets/Scripts/BallStateDataSourceUnity.cs:122-127) -/
  toUshort : BitVec 32 → BitVec 16

/-- The getter `pos_x` of `BallStateDataSourceUnity`; the others follow (demos/unity_states/unity/Assets/Scripts/BallStateDataSourceUnity.cs:39-45). -/
def Scene.posX (s : Scene) : BitVec 32 := s.position.x
/-- demos/unity_states/unity/Assets/Scripts/BallStateDataSourceUnity.cs:47-53 -/
def Scene.posY (s : Scene) : BitVec 32 := s.position.y
/-- demos/unity_states/unity/Assets/Scripts/BallStateDataSourceUnity.cs:55-61 -/
def Scene.posZ (s : Scene) : BitVec 32 := s.position.z
/-- demos/unity_states/unity/Assets/Scripts/BallStateDataSourceUnity.cs:63-69 -/
def Scene.eulerX (c : Conv) (s : Scene) : BitVec 16 := c.toShort s.eulerAngles.x
/-- demos/unity_states/unity/Assets/Scripts/BallStateDataSourceUnity.cs:71-77 -/
def Scene.eulerY (c : Conv) (s : Scene) : BitVec 16 := c.toShort s.eulerAngles.y
/-- demos/unity_states/unity/Assets/Scripts/BallStateDataSourceUnity.cs:79-85 -/
def Scene.eulerZ (c : Conv) (s : Scene) : BitVec 16 := c.toShort s.eulerAngles.z
/-- demos/unity_states/unity/Assets/Scripts/BallStateDataSourceUnity.cs:87-93 -/
def Scene.scaleX (s : Scene) : BitVec 32 := s.localScale.x
/-- demos/unity_states/unity/Assets/Scripts/BallStateDataSourceUnity.cs:95-101 -/
def Scene.scaleY (s : Scene) : BitVec 32 := s.localScale.y
/-- demos/unity_states/unity/Assets/Scripts/BallStateDataSourceUnity.cs:103-109 -/
def Scene.scaleZ (s : Scene) : BitVec 32 := s.localScale.z
/-- The getter `color` (demos/unity_states/unity/Assets/Scripts/BallStateDataSourceUnity.cs:111-132): throws without a renderer or a material. -/
def Scene.color (c : Conv) (s : Scene) : Outcome (BitVec 64) :=
  match s.renderer with
  | none => .err "Mesh renderer is not attached or doesn't include a material."
  | some [] => .err "Mesh renderer is not attached or doesn't include a material."
  | some (m :: _) => .ok (unityColor (c.toUshort m.r) (c.toUshort m.g) (c.toUshort m.b) (c.toUshort m.a))

/-- The fields of `BallStateDataSourcePlatform` (demos/unity_states/unity/Assets/Scripts/BallStateDataSourcePlatform.cs:8-21). -/
structure Platform where
  base : Baseline
  posX : Idx
  posY : Idx
  posZ : Idx
  eulerX : Idx
  eulerY : Idx
  eulerZ : Idx
  scaleX : Idx
  scaleY : Idx
  scaleZ : Idx
  color : Idx

/-- `BindStateT(this.ballContract.States.F, ballObject)` (demos/unity_states/unity/Assets/Scripts/BallStateDataSourcePlatform.cs:38-49). -/
def bind (b : Baseline) (id : Option DynId) (o : Idx) : Outcome Idx :=
  match id with
  | some d => b.cBindState d.id o
  | none => .panic "no such getter"

/-- `Awake` of `BallStateDataSourcePlatform` (demos/unity_states/unity/Assets/Scripts/BallStateDataSourcePlatform.cs:23-50); `new TP.Baseline(true)` is a main baseline. -/
def awake : Outcome Platform :=
  match Ball.register (Baseline.new .main) with
  | (_, .err m) => .err m
  | (_, .panic m) => .panic m
  | (b, .ok h) =>
    match Ball.objectCreate b h 0 0 0 0 0 0 0 0 0 0 with
    | (_, .err m) => .err m
    | (_, .panic m) => .panic m
    | (b, .ok o) =>
      (bind b (Ball.pos_x h) o).bind fun px =>
      (bind b (Ball.pos_y h) o).bind fun py =>
      (bind b (Ball.pos_z h) o).bind fun pz =>
      (bind b (Ball.euler_x h) o).bind fun ex =>
      (bind b (Ball.euler_y h) o).bind fun ey =>
      (bind b (Ball.euler_z h) o).bind fun ez =>
      (bind b (Ball.scale_x h) o).bind fun sx =>
      (bind b (Ball.scale_y h) o).bind fun sy =>
      (bind b (Ball.scale_z h) o).bind fun sz =>
      (bind b (Ball.color h) o).bind fun c =>
      .ok ⟨b, px, py, pz, ex, ey, ez, sx, sy, sz, c⟩

/-- A setter of `BallStateDataSourcePlatform` (demos/unity_states/unity/Assets/Scripts/BallStateDataSourcePlatform.cs:77-195): fetch the state, replace its
value. -/
def Platform.set (p : Platform) (t : PrimType) (h : Idx) (v : t.Carrier) : Platform × Outcome Unit :=
  match p.base.cStateSet t h v with
  | (b, r) => ({ p with base := b }, r)

/-- Go on with the next statement unless something was thrown. (demos/unity_states/unity/Assets/Scripts/BallStateDataSourceSynchronizer.cs:24-40) -/
def andThen (x : Platform × Outcome Unit) (f : Platform → Platform × Outcome Unit) : Platform × Outcome Unit :=
  match x with
  | (p, .ok ()) => f p
  | r => r

/-- `Update` of `BallStateDataSourceSynchronizer` once it is ready (demos/unity_states/unity/Assets/Scripts/BallStateDataSourceSynchronizer.cs:24-40): ten
assignments, each reading the Unity side first. -/
def syncUpdate (c : Conv) (s : Scene) (p : Platform) : Platform × Outcome Unit :=
  andThen (p.set .f32 p.posX s.posX) fun p =>
  andThen (p.set .f32 p.posY s.posY) fun p =>
  andThen (p.set .f32 p.posZ s.posZ) fun p =>
  andThen (p.set .i16 p.eulerX (s.eulerX c)) fun p =>
  andThen (p.set .i16 p.eulerY (s.eulerY c)) fun p =>
  andThen (p.set .i16 p.eulerZ (s.eulerZ c)) fun p =>
  andThen (p.set .f32 p.scaleX s.scaleX) fun p =>
  andThen (p.set .f32 p.scaleY s.scaleY) fun p =>
  andThen (p.set .f32 p.scaleZ s.scaleZ) fun p =>
  match s.color c with
  | .ok v => p.set .u64 p.color v
  | .err m => (p, .err m)
  | .panic m => (p, .panic m)

/-- The ten numbers of `IBallStateDataSource` (demos/unity_states/unity/Assets/Scripts/IBallStateDataSource.cs.cs:1-15). -/
structure BallData where
  posX : BitVec 32
  posY : BitVec 32
  posZ : BitVec 32
  eulerX : BitVec 16
  eulerY : BitVec 16
  eulerZ : BitVec 16
  scaleX : BitVec 32
  scaleY : BitVec 32
  scaleZ : BitVec 32
  color : BitVec 64
deriving DecidableEq, Repr

/-- Reading all getters of `BallStateDataSourcePlatform`, as the billboard does
(demos/unity_states/unity/Assets/Scripts/BallStateBillboardViewer.cs:20-28 and demos/unity_states/unity/Assets/Scripts/BallStateDataSourcePlatform.cs:77-195). -/
def Platform.read (p : Platform) : Outcome BallData :=
  (p.base.cState .f32 p.posX).bind fun px =>
  (p.base.cState .f32 p.posY).bind fun py =>
  (p.base.cState .f32 p.posZ).bind fun pz =>
  (p.base.cState .i16 p.eulerX).bind fun ex =>
  (p.base.cState .i16 p.eulerY).bind fun ey =>
  (p.base.cState .i16 p.eulerZ).bind fun ez =>
  (p.base.cState .f32 p.scaleX).bind fun sx =>
  (p.base.cState .f32 p.scaleY).bind fun sy =>
  (p.base.cState .f32 p.scaleZ).bind fun sz =>
  (p.base.cState .u64 p.color).bind fun c =>
  .ok ⟨px, py, pz, ex, ey, ez, sx, sy, sz, c⟩

/-- Reading all getters of `BallStateDataSourceUnity` (demos/unity_states/unity/Assets/Scripts/BallStateBillboardViewer.cs:20-28). -/
def Scene.read (c : Conv) (s : Scene) : Outcome BallData :=
  (s.color c).bind fun col =>
  .ok ⟨s.posX, s.posY, s.posZ, s.eulerX c, s.eulerY c, s.eulerZ c, s.scaleX, s.scaleY, s.scaleZ, col⟩

/-- The running demo.  `ready` is `readyToSynchronize` (demos/unity_states/unity/Assets/Scripts/BallStateDataSourceSynchronizer.cs:10-22); `boardP` and `boardU` are
the texts of the two billboards. -/
structure DemoWorld where
  ready : Bool
  scene : Scene
  plat : Platform
  boardP : Option BallData
  boardU : Option BallData

/-- What happens between and within frames. (demos/unity_states/unity/Assets/Scripts/BallStateDataSourceSynchronizer.cs:24-40) -/
inductive Ev where
  /-- Unity (physics, the editor) changes the ball -/
  | scene (s : Scene)
  /-- `Update` of the synchronizer (demos/unity_states/unity/Assets/Scripts/BallStateDataSourceSynchronizer.cs:24-40) -/
  | sync
  /-- `Update` of the platform's billboard (demos/unity_states/unity/Assets/Scripts/BallStateBillboardViewer.cs:20-28) -/
  | viewP
  /-- `Update` of Unity's billboard (demos/unity_states/unity/Assets/Scripts/BallStateBillboardViewer.cs:20-28) -/
  | viewU
deriving DecidableEq, Repr

/-- One event, with what came of it: `ok`, an exception that is logged (`err`), or a panic in native code, which ends the process.
(demos/unity_states/unity/Assets/Scripts/BallStateDataSourceSynchronizer.cs:24-40, demos/unity_states/unity/Assets/Scripts/BallStateBillboardViewer.cs:20-28) -/
def step (c : Conv) (w : DemoWorld) : Ev → DemoWorld × Outcome Unit
  | .scene s => ({ w with scene := s }, .ok ())
  | .sync =>
    if w.ready then
      match syncUpdate c w.scene w.plat with
      | (p, r) => ({ w with plat := p }, r)
    else (w, .ok ())
  | .viewP =>
    match w.plat.read with
    | .ok d => ({ w with boardP := some d }, .ok ())
    | .err m => (w, .err m)
    | .panic m => (w, .panic m)
  | .viewU =>
    match w.scene.read c with
    | .ok d => ({ w with boardU := some d }, .ok ())
    | .err m => (w, .err m)
    | .panic m => (w, .panic m)

/-- Any sequence of events: exceptions are logged and the game goes on, a panic ends it. (demos/unity_states/unity/Assets/Scripts) (demos/unity_states/unity/Assets/Scripts/BallStateDataSourceSynchronizer.cs:24-40) -/
def run (c : Conv) (w : DemoWorld) : List Ev → Outcome DemoWorld
  | [] => .ok w
  | e :: es =>
    match step c w e with
    | (_, .panic m) => .panic m
    | (w, _) => run c w es

/-- The demo from the start, with both sources assigned in the editor or not
(demos/unity_states/unity/Assets/Scripts/BallStateDataSourceSynchronizer.cs:12-22). -/
def demo (c : Conv) (assignedP assignedU : Bool) (s : Scene) (es : List Ev) : Outcome DemoWorld :=
  awake.bind fun p => run c ⟨assignedP && assignedU, s, p, none, none⟩ es

end UnitySync
end Verif
