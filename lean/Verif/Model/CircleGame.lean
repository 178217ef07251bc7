import Verif.Model.CApi
import Verif.Model.Engine
/-!
# The circle game demo

Models demos/circle_game/src/lib.rs.

Simplifications: the renderer, the camera and bevy's scheduler are not modelled.  A run of the app is `configure_app`, the startup
system and then any sequence of runs of the two systems (bevy runs each once per frame, one after the other, because both
access the engine and one of them mutably).  A query visits the entities in the order they were spawned.  f32 arithmetic and the random
numbers are parameters.
-/
namespace Verif
namespace CircleGame

/-- The f32 computations of the demo, as arbitrary functions on bit patterns. (demos/circle_game/src/lib.rs:45-68) -/
structure Ops where
  /-- `offset_and_scale` (demos/circle_game/src/lib.rs:83-85) -/
  offset : Nat → BitVec 32
  /-- `(rand::random::<f32>() - 0.5) * 2.` (demos/circle_game/src/lib.rs:149-150) -/
  step : BitVec 32 → BitVec 32
  /-- `+=` on f32 (demos/circle_game/src/lib.rs:149-150) -/
  add : BitVec 32 → BitVec 32 → BitVec 32

/-- One spawned `CircleBundle` (demos/circle_game/src/circle_bundle.rs:8-16): the components the systems use.  `tx`, `ty` are
`transform.translation`. -/
structure Entity where
  kind : Kind
  obj : Idx
  x : Idx
  y : Idx
  tx : BitVec 32
  ty : BitVec 32
deriving DecidableEq, Repr

/-- The resources and entities of the app. (demos/circle_game/src/lib.rs:55-70) -/
structure Game where
  realm : Realm
  contract : Idx
  entities : List Entity

/-- `realm_mut().baseline_mut(kind)` after changes made to that baseline (client/rust/src/realm.rs:65-70). -/
def setBaseline (r : Realm) (k : Kind) (b : Baseline) : Realm :=
  match k with
  | .main => { r with main := b }
  | .fork => { r with fork := b }

/-- `configure_app` (demos/circle_game/src/lib.rs:45-68). -/
def configure : Outcome Game :=
  match (Realm.new.baseline .fork).registerContract Circle.C with
  | (b, .ok h) => .ok ⟨setBaseline Realm.new .fork b, h, []⟩
  | (_, .err _) => .panic "contract failed to register"
  | (_, .panic m) => .panic m

/-- The body of the loop in `setup` (demos/circle_game/src/lib.rs:82-132). -/
def setupOne (ops : Ops) (g : Game) (xy : Nat × Nat) : Game × Outcome Unit :=
  let x := ops.offset xy.1
  let y := ops.offset xy.2
  match (g.realm.baseline .fork).objectCreate Circle.C g.contract [.primitive (.f32 x), .primitive (.f32 y)] [] with
  | (b, .err m) => ({ g with realm := setBaseline g.realm .fork b }, .err m)
  | (b, .panic m) => ({ g with realm := setBaseline g.realm .fork b }, .panic m)
  | (b, .ok o) =>
    let g := { g with realm := setBaseline g.realm .fork b }
    match Circle.x g.contract, Circle.y g.contract with
    | some xId, some yId =>
      match b.bindState xId.id o with
      | .err m => (g, .err m)
      | .panic m => (g, .panic m)
      | .ok xh =>
        match b.bindState yId.id o with
        | .err m => (g, .err m)
        | .panic m => (g, .panic m)
        | .ok yh => ({ g with entities := g.entities ++ [⟨.fork, o, xh, yh, x, y⟩] }, .ok ())
    | _, _ => (g, .panic "no such getter")

/-- The loops of `setup` over a list of grid positions (demos/circle_game/src/lib.rs:80-134). -/
def setupLoop (ops : Ops) (g : Game) : List (Nat × Nat) → Game × Outcome Unit
  | [] => (g, .ok ())
  | p :: ps =>
    match setupOne ops g p with
    | (g', .ok ()) => setupLoop ops g' ps
    | r => r

/-- `for x in 0..SQUARE_SIZE { for y in 0..SQUARE_SIZE` (demos/circle_game/src/lib.rs:78-81). -/
def grid : List (Nat × Nat) := (List.range 10).flatMap fun x => (List.range 10).map fun y => (x, y)

/-- The startup system chained with `report_eyre` (demos/circle_game/src/lib.rs:62, 70-72): an `Err` panics. -/
def setup (ops : Ops) (g : Game) : Outcome Game :=
  match setupLoop ops g grid with
  | (g', .ok ()) => .ok g'
  | (_, .err m) => .panic m
  | (_, .panic m) => .panic m

/-- `base[h].value += d` (demos/circle_game/src/lib.rs:149-150). -/
def bump (ops : Ops) (b : Baseline) (h : Idx) (d : BitVec 32) : Baseline × Outcome Unit :=
  match b.indexState (.prim .f32) h with
  | .ok v => b.indexStateWrite (.prim .f32) h (ops.add v d)
  | .err m => (b, .err m)
  | .panic m => (b, .panic m)

/-- The body of the loop in `random_walk` (demos/circle_game/src/lib.rs:141-150); `r` are the two random numbers drawn. -/
def walkOne (ops : Ops) (realm : Realm) (e : Entity) (r : BitVec 32 × BitVec 32) : Realm × Outcome Unit :=
  match e.kind with
  | .main => (realm, .ok ())
  | .fork =>
    let base := realm.baseline e.kind
    match bump ops base e.x (ops.step r.1) with
    | (b, .ok ()) =>
      match bump ops b e.y (ops.step r.2) with
      | (b, o) => (setBaseline realm e.kind b, o)
    | (b, o) => (setBaseline realm e.kind b, o)

/-- The loop of `random_walk` (demos/circle_game/src/lib.rs:136-153); `rs i` are the numbers drawn for the `i`-th entity. -/
def walkLoop (ops : Ops) (rs : Nat → BitVec 32 × BitVec 32) (i : Nat) (realm : Realm) : List Entity → Realm × Outcome Unit
  | [] => (realm, .ok ())
  | e :: es =>
    match walkOne ops realm e (rs i) with
    | (realm', .ok ()) => walkLoop ops rs (i + 1) realm' es
    | r => r

/-- `sync_transforms` (demos/circle_game/src/lib.rs:155-166). -/
def syncLoop (realm : Realm) : List Entity → Outcome (List Entity)
  | [] => .ok []
  | e :: es =>
    match (realm.baseline e.kind).indexState (.prim .f32) e.x, (realm.baseline e.kind).indexState (.prim .f32) e.y with
    | .ok x, .ok y => (syncLoop realm es).map ({ e with tx := x, ty := y } :: ·)
    | _, _ => .panic "Invalid handle"

/-- One run of a system: `random_walk` with its random numbers, or `sync_transforms` (demos/circle_game/src/lib.rs:63-64). -/
inductive Sys where
  | walk (rs : Nat → BitVec 32 × BitVec 32)
  | sync

/-- Run one system; an `Err` from `random_walk` panics in `report_eyre` (demos/circle_game/src/lib.rs:63, 70-72). -/
def runSys (ops : Ops) (g : Game) : Sys → Outcome Game
  | .walk rs =>
    match walkLoop ops rs 0 g.realm g.entities with
    | (r, .ok ()) => .ok { g with realm := r }
    | (_, .err m) => .panic m
    | (_, .panic m) => .panic m
  | .sync => (syncLoop g.realm g.entities).map fun es => { g with entities := es }

/-- Run a sequence of systems. (the schedule of demos/circle_game/src/lib.rs:60-75) -/
def runAll (ops : Ops) (g : Game) : List Sys → Outcome Game
  | [] => .ok g
  | s :: ss => (runSys ops g s).bind fun g' => runAll ops g' ss

/-- The app from the start (demos/circle_game/src/lib.rs:45-68). -/
def app (ops : Ops) (frames : List Sys) : Outcome Game :=
  (configure.bind (setup ops)).bind fun g => runAll ops g frames

end CircleGame
end Verif
