import Verif.Model.UnitySync
import Verif.Props.Baseline
/-!
# C89: the Unity demo copies a ball frame by frame
-/
namespace Verif.Props
open Verif UnitySync

/-! ## Specification -/

/-- The demo without a baseline: the ball in Unity, the ten numbers of its copy, and what the billboards show. -/
structure Show where
  scene : Scene
  copy : BallData
  boardP : Option BallData
  boardU : Option BallData
deriving DecidableEq

/-- The ten numbers of the ball in Unity; none if it has no renderer or no material. -/
def snapshot (c : Conv) (s : Scene) : Option BallData :=
  match s.renderer with
  | some (m :: _) => some
    { posX := s.position.x, posY := s.position.y, posZ := s.position.z,
      eulerX := c.toShort s.eulerAngles.x, eulerY := c.toShort s.eulerAngles.y, eulerZ := c.toShort s.eulerAngles.z,
      scaleX := s.localScale.x, scaleY := s.localScale.y, scaleZ := s.localScale.z,
      color := unityColor (c.toUshort m.r) (c.toUshort m.g) (c.toUshort m.b) (c.toUshort m.a) }
  | _ => none

/-- The copy at the start. -/
def zeroBall : BallData := ⟨0, 0, 0, 0, 0, 0, 0, 0, 0, 0⟩

/-- What the synchronizer's frame leaves of a copy if the ball has no colour: the nine other numbers are new, the colour is the old
one. -/
def torn (c : Conv) (s : Scene) (old : BallData) : BallData :=
  { posX := s.position.x, posY := s.position.y, posZ := s.position.z,
    eulerX := c.toShort s.eulerAngles.x, eulerY := c.toShort s.eulerAngles.y, eulerZ := c.toShort s.eulerAngles.z,
    scaleX := s.localScale.x, scaleY := s.localScale.y, scaleZ := s.localScale.z, color := old.color }

/-- One event. -/
def Show.step (c : Conv) (ready : Bool) (w : Show) : Ev → Show
  | .scene s => { w with scene := s }
  | .sync =>
    if ready then
      match snapshot c w.scene with
      | some d => { w with copy := d }
      | none => { w with copy := torn c w.scene w.copy }
    else w
  | .viewP => { w with boardP := some w.copy }
  | .viewU =>
    match snapshot c w.scene with
    | some d => { w with boardU := some d }
    | none => w

/-- Any sequence of events. -/
def Show.play (c : Conv) (ready : Bool) (w : Show) (es : List Ev) : Show := es.foldl (Show.step c ready) w

/-- **The full property C89:** whenever the synchronizer runs, the copy becomes what the ball in Unity is at that time, or stays
what it was. -/
def WholeFrames : Prop :=
  ∀ (c : Conv) (s : Scene) (es : List Ev) (w w' : DemoWorld) (old new : BallData),
    demo c true true s es = .ok w → w.plat.read = .ok old → demo c true true s (es ++ [.sync]) = .ok w' → w'.plat.read = .ok new →
    new = old ∨ snapshot c w.scene = some new

/-! ## Proof -/

/-- The handles of the ten states. -/
def withBase (b : Baseline) : Platform :=
  ⟨b, ⟨0, 0⟩, ⟨1, 0⟩, ⟨2, 0⟩, ⟨0, 0⟩, ⟨1, 0⟩, ⟨2, 0⟩, ⟨3, 0⟩, ⟨4, 0⟩, ⟨5, 0⟩, ⟨0, 0⟩⟩

/-- The ten states hold these numbers. -/
structure HoldsBall (b : Baseline) (d : BallData) : Prop where
  px : b.state (.prim .f32) ⟨0, 0⟩ = .ok d.posX
  py : b.state (.prim .f32) ⟨1, 0⟩ = .ok d.posY
  pz : b.state (.prim .f32) ⟨2, 0⟩ = .ok d.posZ
  ex : b.state (.prim .i16) ⟨0, 0⟩ = .ok d.eulerX
  ey : b.state (.prim .i16) ⟨1, 0⟩ = .ok d.eulerY
  ez : b.state (.prim .i16) ⟨2, 0⟩ = .ok d.eulerZ
  sx : b.state (.prim .f32) ⟨3, 0⟩ = .ok d.scaleX
  sy : b.state (.prim .f32) ⟨4, 0⟩ = .ok d.scaleY
  sz : b.state (.prim .f32) ⟨5, 0⟩ = .ok d.scaleZ
  co : b.state (.prim .u64) ⟨0, 0⟩ = .ok d.color

theorem awake_ok : ∃ b, awake = .ok (withBase b) ∧ HoldsBall b zeroBall := by
  refine ⟨_, rfl, ?_⟩
  constructor <;> rfl

theorem HoldsBall.read {b : Baseline} {d : BallData} (h : HoldsBall b d) : (withBase b).read = .ok d := by
  obtain ⟨h1, h2, h3, h4, h5, h6, h7, h8, h9, h10⟩ := h
  simp only [Platform.read, withBase, Baseline.cState, h1, h2, h3, h4, h5, h6, h7, h8, h9, h10, Baseline.expect, Outcome.bind]

/-- Writing one state. -/
theorem set_spec (b : Baseline) (t : PrimType) (h : Idx) (v old : t.Carrier) (ho : b.state (.prim t) h = .ok old) :
    ∃ b', (withBase b).set t h v = (withBase b', .ok ()) ∧ b'.state (.prim t) h = .ok v ∧
      ∀ (t' : PrimType) (h' : Idx), (t', h') ≠ (t, h) → b'.state (.prim t') h' = b.state (.prim t') h' := by
  obtain ⟨b', w1, w2, w3, -⟩ := (C13_state_write b (.prim t) h v).1 old ho
  refine ⟨b', ?_, w2, fun t' h' hne => w3 (.prim t') h' (fun e => hne ?_)⟩
  · simp only [Platform.set, withBase, Baseline.cStateSet, w1, Baseline.expect]
  · injection e with e1 e2
    injection e1 with e1
    rw [e1, e2]

theorem syncUpdate_spec (c : Conv) (s : Scene) (b : Baseline) (d : BallData) (hd : HoldsBall b d) :
    ∃ b' r, syncUpdate c s (withBase b) = (withBase b', r) ∧
      ((∃ n, snapshot c s = some n ∧ r = .ok () ∧ HoldsBall b' n) ∨
       (∃ m, snapshot c s = none ∧ r = .err m ∧ HoldsBall b' (torn c s d))) := by
  obtain ⟨b1, u1, v1, w1⟩ := set_spec b .f32 ⟨0, 0⟩ s.posX _ hd.px
  obtain ⟨b2, u2, v2, w2⟩ := set_spec b1 .f32 ⟨1, 0⟩ s.posY d.posY (by rw [w1 _ _ (by decide)]; exact hd.py)
  obtain ⟨b3, u3, v3, w3⟩ := set_spec b2 .f32 ⟨2, 0⟩ s.posZ d.posZ (by rw [w2 _ _ (by decide), w1 _ _ (by decide)]; exact hd.pz)
  obtain ⟨b4, u4, v4, w4⟩ := set_spec b3 .i16 ⟨0, 0⟩ (s.eulerX c) d.eulerX (by
    rw [w3 _ _ (by decide), w2 _ _ (by decide), w1 _ _ (by decide)]; exact hd.ex)
  obtain ⟨b5, u5, v5, w5⟩ := set_spec b4 .i16 ⟨1, 0⟩ (s.eulerY c) d.eulerY (by
    rw [w4 _ _ (by decide), w3 _ _ (by decide), w2 _ _ (by decide), w1 _ _ (by decide)]; exact hd.ey)
  obtain ⟨b6, u6, v6, w6⟩ := set_spec b5 .i16 ⟨2, 0⟩ (s.eulerZ c) d.eulerZ (by
    rw [w5 _ _ (by decide), w4 _ _ (by decide), w3 _ _ (by decide), w2 _ _ (by decide), w1 _ _ (by decide)]; exact hd.ez)
  obtain ⟨b7, u7, v7, w7⟩ := set_spec b6 .f32 ⟨3, 0⟩ s.scaleX d.scaleX (by
    rw [w6 _ _ (by decide), w5 _ _ (by decide), w4 _ _ (by decide), w3 _ _ (by decide), w2 _ _ (by decide), w1 _ _ (by decide)]; exact hd.sx)
  obtain ⟨b8, u8, v8, w8⟩ := set_spec b7 .f32 ⟨4, 0⟩ s.scaleY d.scaleY (by
    rw [w7 _ _ (by decide), w6 _ _ (by decide), w5 _ _ (by decide), w4 _ _ (by decide), w3 _ _ (by decide), w2 _ _ (by decide),
      w1 _ _ (by decide)]; exact hd.sy)
  obtain ⟨b9, u9, v9, w9⟩ := set_spec b8 .f32 ⟨5, 0⟩ s.scaleZ d.scaleZ (by
    rw [w8 _ _ (by decide), w7 _ _ (by decide), w6 _ _ (by decide), w5 _ _ (by decide), w4 _ _ (by decide), w3 _ _ (by decide),
      w2 _ _ (by decide), w1 _ _ (by decide)]; exact hd.sz)
  have hsync : ∀ x : Platform × Outcome Unit, (match s.color c with
      | .ok v => (withBase b9).set .u64 ⟨0, 0⟩ v
      | .err m => (withBase b9, .err m)
      | .panic m => (withBase b9, .panic m)) = x → syncUpdate c s (withBase b) = x := by
    intro x hx
    rw [← hx]
    unfold syncUpdate
    have e : ∀ b, (withBase b).posX = ⟨0, 0⟩ ∧ (withBase b).posY = ⟨1, 0⟩ ∧ (withBase b).posZ = ⟨2, 0⟩ ∧
      (withBase b).eulerX = ⟨0, 0⟩ ∧ (withBase b).eulerY = ⟨1, 0⟩ ∧ (withBase b).eulerZ = ⟨2, 0⟩ ∧
      (withBase b).scaleX = ⟨3, 0⟩ ∧ (withBase b).scaleY = ⟨4, 0⟩ ∧ (withBase b).scaleZ = ⟨5, 0⟩ ∧ (withBase b).color = ⟨0, 0⟩ :=
      fun b => ⟨rfl, rfl, rfl, rfl, rfl, rfl, rfl, rfl, rfl, rfl⟩
    simp only [(e _).1, u1, andThen, (e _).2.1, u2, (e _).2.2.1, u3, (e _).2.2.2.1, u4, (e _).2.2.2.2.1, u5, (e _).2.2.2.2.2.1, u6,
      (e _).2.2.2.2.2.2.1, u7, (e _).2.2.2.2.2.2.2.1, u8, (e _).2.2.2.2.2.2.2.2.1, u9, (e _).2.2.2.2.2.2.2.2.2]
    try rfl
  have h9 : b9.state (.prim .u64) ⟨0, 0⟩ = .ok d.color := by
    rw [w9 _ _ (by decide), w8 _ _ (by decide), w7 _ _ (by decide), w6 _ _ (by decide), w5 _ _ (by decide), w4 _ _ (by decide), w3 _ _ (by decide),
      w2 _ _ (by decide), w1 _ _ (by decide)]; exact hd.co
  have hold : HoldsBall b9 (torn c s d) :=
    { px := by rw [w9 _ _ (by decide), w8 _ _ (by decide), w7 _ _ (by decide), w6 _ _ (by decide), w5 _ _ (by decide), w4 _ _ (by decide), w3 _ _ (by decide),
                 w2 _ _ (by decide)]; exact v1
      py := by rw [w9 _ _ (by decide), w8 _ _ (by decide), w7 _ _ (by decide), w6 _ _ (by decide), w5 _ _ (by decide), w4 _ _ (by decide), w3 _ _ (by decide)]; exact v2
      pz := by rw [w9 _ _ (by decide), w8 _ _ (by decide), w7 _ _ (by decide), w6 _ _ (by decide), w5 _ _ (by decide), w4 _ _ (by decide)]; exact v3
      ex := by rw [w9 _ _ (by decide), w8 _ _ (by decide), w7 _ _ (by decide), w6 _ _ (by decide), w5 _ _ (by decide)]; exact v4
      ey := by rw [w9 _ _ (by decide), w8 _ _ (by decide), w7 _ _ (by decide), w6 _ _ (by decide)]; exact v5
      ez := by rw [w9 _ _ (by decide), w8 _ _ (by decide), w7 _ _ (by decide)]; exact v6
      sx := by rw [w9 _ _ (by decide), w8 _ _ (by decide)]; exact v7
      sy := by rw [w9 _ _ (by decide)]; exact v8
      sz := v9
      co := h9 }
  rcases hr : s.renderer with _ | _ | ⟨m, ms⟩
  · refine ⟨b9, _, hsync _ (by simp only [Scene.color, hr]; rfl), .inr ⟨_, by simp only [snapshot, hr], rfl, hold⟩⟩
  · refine ⟨b9, _, hsync _ (by simp only [Scene.color, hr]; rfl), .inr ⟨_, by simp only [snapshot, hr], rfl, hold⟩⟩
  · obtain ⟨b10, u10, v10, w10⟩ := set_spec b9 .u64 ⟨0, 0⟩ (unityColor (c.toUshort m.r) (c.toUshort m.g) (c.toUshort m.b) (c.toUshort m.a)) d.color h9
    refine ⟨b10, _, hsync _ (by simp only [Scene.color, hr]; exact u10), .inl ⟨_, by simp only [snapshot, hr]; rfl, rfl, ?_⟩⟩
    exact
      { px := by rw [w10 _ _ (by decide)]; exact hold.px
        py := by rw [w10 _ _ (by decide)]; exact hold.py
        pz := by rw [w10 _ _ (by decide)]; exact hold.pz
        ex := by rw [w10 _ _ (by decide)]; exact hold.ex
        ey := by rw [w10 _ _ (by decide)]; exact hold.ey
        ez := by rw [w10 _ _ (by decide)]; exact hold.ez
        sx := by rw [w10 _ _ (by decide)]; exact hold.sx
        sy := by rw [w10 _ _ (by decide)]; exact hold.sy
        sz := by rw [w10 _ _ (by decide)]; exact hold.sz
        co := v10 }

theorem scene_read (c : Conv) (s : Scene) :
    (∃ d, snapshot c s = some d ∧ s.read c = .ok d) ∨ (∃ m, snapshot c s = none ∧ s.read c = .err m) := by
  rcases hr : s.renderer with _ | _ | ⟨m, ms⟩
  · exact .inr ⟨_, by simp only [snapshot, hr], by simp only [Scene.read, Scene.color, hr]; rfl⟩
  · exact .inr ⟨_, by simp only [snapshot, hr], by simp only [Scene.read, Scene.color, hr]; rfl⟩
  · exact .inl ⟨_, by simp only [snapshot, hr]; rfl, by simp only [Scene.read, Scene.color, hr]; rfl⟩

/-- The demo and the plain demo agree. -/
structure Agrees (w : DemoWorld) (v : Show) (ready : Bool) : Prop where
  ready : w.ready = ready
  scene : w.scene = v.scene
  boardP : w.boardP = v.boardP
  boardU : w.boardU = v.boardU
  plat : ∃ b, w.plat = withBase b ∧ HoldsBall b v.copy

theorem step_agrees (c : Conv) (ready : Bool) (w : DemoWorld) (v : Show) (h : Agrees w v ready) (e : Ev) :
    ∃ w' r, UnitySync.step c w e = (w', r) ∧ r.isPanic = false ∧ Agrees w' (v.step c ready e) ready := by
  obtain ⟨h1, h2, h3, h4, b, h5, h6⟩ := h
  cases e with
  | scene s => exact ⟨_, _, rfl, rfl, h1, rfl, h3, h4, b, h5, h6⟩
  | sync =>
    cases ready with
    | false =>
      refine ⟨w, .ok (), ?_, rfl, h1, h2, h3, h4, b, h5, h6⟩
      simp only [UnitySync.step, h1, Bool.false_eq_true, if_false]
    | true =>
      obtain ⟨b', r, s1, s2⟩ := syncUpdate_spec c w.scene b v.copy h6
      refine ⟨{ w with plat := withBase b' }, r, ?_, ?_, ?_⟩
      · simp only [UnitySync.step, h1, if_true, h5, s1]
      · rcases s2 with ⟨n, -, rfl, -⟩ | ⟨m, -, rfl, -⟩ <;> rfl
      · rcases s2 with ⟨n, q1, -, q3⟩ | ⟨m, q1, -, q3⟩
        · rw [h2] at q1
          have : v.step c true .sync = { v with copy := n } := by simp only [Show.step, if_true, q1]
          rw [this]
          exact ⟨h1, h2, h3, h4, b', rfl, q3⟩
        · rw [h2] at q1 q3
          have : v.step c true .sync = { v with copy := torn c v.scene v.copy } := by simp only [Show.step, if_true, q1]
          rw [this]
          exact ⟨h1, h2, h3, h4, b', rfl, q3⟩
  | viewP =>
    refine ⟨{ w with boardP := some v.copy }, .ok (), ?_, rfl, h1, h2, rfl, h4, b, h5, h6⟩
    simp only [UnitySync.step, h5, h6.read]
  | viewU =>
    rcases scene_read c w.scene with ⟨d, q1, q2⟩ | ⟨m, q1, q2⟩
    · refine ⟨{ w with boardU := some d }, .ok (), by simp only [UnitySync.step, q2], rfl, ?_⟩
      rw [h2] at q1
      have : v.step c ready .viewU = { v with boardU := some d } := by simp only [Show.step, q1]
      rw [this]
      exact ⟨h1, h2, h3, rfl, b, h5, h6⟩
    · refine ⟨w, .err m, by simp only [UnitySync.step, q2], rfl, ?_⟩
      rw [h2] at q1
      have : v.step c ready .viewU = v := by simp only [Show.step, q1]
      rw [this]
      exact ⟨h1, h2, h3, h4, b, h5, h6⟩

theorem run_agrees (c : Conv) (ready : Bool) (es : List Ev) : ∀ (w : DemoWorld) (v : Show), Agrees w v ready →
    ∃ w', UnitySync.run c w es = .ok w' ∧ Agrees w' (v.play c ready es) ready := by
  induction es with
  | nil => exact fun w v h => ⟨w, rfl, h⟩
  | cons e es ih =>
    intro w v h
    obtain ⟨w1, r, s1, s2, s3⟩ := step_agrees c ready w v h e
    obtain ⟨w2, t1, t2⟩ := ih w1 _ s3
    refine ⟨w2, ?_, t2⟩
    rw [UnitySync.run, s1]
    cases r with
    | ok u => exact t1
    | err m => exact t1
    | panic m => cases s2

/-! ## Theorems -/

/-- **C89, partial: what the demo shows, exactly.**  For every order of scene changes and script updates, whatever materials the ball has or
loses, the demo does not crash, and its copy and billboards are those of the plain demo: a frame of the synchronizer
replaces all ten numbers when the ball has a colour, and all but the colour when it has none; the platform's billboard shows the copy
at its last update, Unity's the ball at its last update that had a colour. -/
theorem C89_frames_partial (c : Conv) (aP aU : Bool) (s : Scene) (es : List Ev) :
    ∃ w, demo c aP aU s es = .ok w ∧
      w.scene = (Show.play c (aP && aU) ⟨s, zeroBall, none, none⟩ es).scene ∧
      w.plat.read = .ok (Show.play c (aP && aU) ⟨s, zeroBall, none, none⟩ es).copy ∧
      w.boardP = (Show.play c (aP && aU) ⟨s, zeroBall, none, none⟩ es).boardP ∧
      w.boardU = (Show.play c (aP && aU) ⟨s, zeroBall, none, none⟩ es).boardU := by
  obtain ⟨b, h1, h2⟩ := awake_ok
  obtain ⟨w, r1, r2⟩ := run_agrees c (aP && aU) es ⟨aP && aU, s, withBase b, none, none⟩ ⟨s, zeroBall, none, none⟩
    ⟨rfl, rfl, rfl, rfl, b, rfl, h2⟩
  obtain ⟨-, k2, k3, k4, b', k5, k6⟩ := r2
  refine ⟨w, ?_, k2, ?_, k3, k4⟩
  · simp only [demo, h1, Outcome.bind]
    exact r1
  · rw [k5]
    exact k6.read

/-- **C89, partial: whole frames as long as the ball has a colour.**  If the ball has a renderer with a material when the synchronizer
runs, then after any earlier events, torn frames among them, all ten numbers of the copy are those of the ball. -/
theorem C89_whole_frames_partial (c : Conv) (s : Scene) (es : List Ev) (w w' : DemoWorld) (d : BallData)
    (hw : demo c true true s es = .ok w) (hd : snapshot c w.scene = some d) (hw' : demo c true true s (es ++ [.sync]) = .ok w') :
    w'.plat.read = .ok d ∧ w'.scene = w.scene ∧ w'.boardP = w.boardP ∧ w'.boardU = w.boardU := by
  obtain ⟨w1, a1, a2, a3, a4, a5⟩ := C89_frames_partial c true true s es
  obtain ⟨w2, b1, b2, b3, b4, b5⟩ := C89_frames_partial c true true s (es ++ [.sync])
  rw [hw] at a1
  cases a1
  rw [hw'] at b1
  cases b1
  simp only [Show.play, List.foldl_append, List.foldl_cons, List.foldl_nil] at a2 a3 a4 a5 b2 b3 b4 b5
  generalize List.foldl (Show.step c (true && true)) ⟨s, zeroBall, none, none⟩ es = v at *
  rw [a2] at hd
  have : Show.step c (true && true) v .sync = { v with copy := d } := by
    simp only [Show.step, Bool.and_self, if_true, hd]
  rw [this] at b2 b3 b4 b5
  exact ⟨b3, by rw [a2, b2], by rw [a4, b4], by rw [a5, b5]⟩

/-- A synchronizer without both sources never changes the copy. -/
theorem C89_not_ready_partial (c : Conv) (aP aU : Bool) (s : Scene) (es : List Ev) (h : aP = false ∨ aU = false) :
    ∃ w, demo c aP aU s es = .ok w ∧ w.plat.read = .ok zeroBall := by
  obtain ⟨w, a1, -, a3, -⟩ := C89_frames_partial c aP aU s es
  refine ⟨w, a1, ?_⟩
  rw [a3]
  have hr : (aP && aU) = false := by rcases h with rfl | rfl <;> simp
  rw [hr]
  have : ∀ (es : List Ev) (v : Show), (Show.play c false v es).copy = v.copy := by
    intro es
    induction es with
    | nil => exact fun _ => rfl
    | cons e es ih =>
      intro v
      have := ih (v.step c false e)
      simp only [Show.play, List.foldl_cons] at this ⊢
      rw [this]
      cases e with
      | scene s => rfl
      | sync => rfl
      | viewP => rfl
      | viewU =>
        simp only [Show.step]
        split <;> rfl
  rw [this]

/-- A ball with a red material at the origin, and the same ball moved and without its material. -/
def redBall : Scene := ⟨⟨0, 0, 0⟩, ⟨0, 0, 0⟩, ⟨1, 1, 1⟩, some [⟨0xFFFF, 0, 0, 0xFFFF⟩]⟩
def bareBall : Scene := ⟨⟨7, 0, 0⟩, ⟨0, 0, 0⟩, ⟨1, 1, 1⟩, some []⟩
def plainConv : Conv := ⟨fun x => x.truncate 16, fun x => x.truncate 16⟩

/-- **C89 is false of the code:** when the ball loses its material, a frame moves the copy and then throws: the copy has the new position and
the old colour, which the ball in Unity never had together, and the platform's billboard shows it. -/
theorem C89_negation : ¬ WholeFrames ∧
    ∃ w, demo plainConv true true redBall [.sync, .scene bareBall, .sync, .viewP] = .ok w ∧
      ∃ d, w.boardP = some d ∧ d.posX = 7 ∧ some d.color = (snapshot plainConv redBall).map BallData.color ∧
        snapshot plainConv redBall ≠ some d ∧ snapshot plainConv bareBall ≠ some d := by
  constructor
  · intro h
    obtain ⟨w, a1, a2, a3, -⟩ := C89_frames_partial plainConv true true redBall [.sync, .scene bareBall]
    obtain ⟨w', b1, b2, b3, -⟩ := C89_frames_partial plainConv true true redBall [.sync, .scene bareBall, .sync]
    rcases h plainConv redBall [.sync, .scene bareBall] w w' _ _ a1 a3 b1 b3 with h | h
    · revert h; decide
    · rw [a2] at h; revert h; decide
  · obtain ⟨w, a1, a2, a3, a4, -⟩ := C89_frames_partial plainConv true true redBall [.sync, .scene bareBall, .sync, .viewP]
    refine ⟨w, a1, _, a4, ?_⟩
    decide

/-! Concrete cases. -/

example : ∃ w w', demo plainConv true true bareBall [.sync, .viewU, .scene redBall] = .ok w ∧ (snapshot plainConv w.scene).isSome = true ∧
    demo plainConv true true bareBall [.sync, .viewU, .scene redBall, .sync] = .ok w' := by
  obtain ⟨w, a1, a2, -⟩ := C89_frames_partial plainConv true true bareBall [.sync, .viewU, .scene redBall]
  obtain ⟨w', b1, -⟩ := C89_frames_partial plainConv true true bareBall [.sync, .viewU, .scene redBall, .sync]
  exact ⟨w, w', a1, by rw [a2]; decide, b1⟩

end Verif.Props
