import Verif.Model.CircleGame
import Verif.Proofs.Builder
import Verif.Props.Baseline
/-!
# C70: the circle game
-/
namespace Verif.Props
open Verif CircleGame

/-! ## Specification -/

/-- Where the circles are: one position for each. -/
abbrev Board := List (BitVec 32 × BitVec 32)

/-- The 10 x 10 square, column by column. -/
def startBoard (ops : Ops) : Board :=
  (List.range 10).flatMap fun x => (List.range 10).map fun y => (ops.offset x, ops.offset y)

/-- Every circle makes its own step. -/
def Board.walk (ops : Ops) (rs : Nat → BitVec 32 × BitVec 32) (ps : Board) : Board :=
  ps.mapIdx fun i p => (ops.add p.1 (ops.step (rs i).1), ops.add p.2 (ops.step (rs i).2))

/-- Positions and what is on the screen, after a sequence of system runs. -/
def Board.play (ops : Ops) : Board × Board → List Sys → Board × Board
  | pc, [] => pc
  | (ps, _), .sync :: ss => play ops (ps, ps) ss
  | (ps, screen), .walk rs :: ss => play ops (ps.walk ops rs, screen) ss

/-- The game shows this board: entity `i` exists in the fork, its states hold position `i`, and it is drawn at
`screen[i]`. -/
structure Shows (g : Game) (ps screen : Board) : Prop where
  count : g.entities.length = ps.length
  count' : screen.length = ps.length
  at_ : ∀ (i : Nat) (e : Entity) (p q : BitVec 32 × BitVec 32), g.entities[i]? = some e → ps[i]? = some p → screen[i]? = some q →
    e.kind = .fork ∧ (g.realm.fork.object e.obj).isOk = true ∧
    g.realm.fork.state (.prim .f32) e.x = .ok p.1 ∧ g.realm.fork.state (.prim .f32) e.y = .ok p.2 ∧ (e.tx, e.ty) = q

/-! ## Proof -/

/-- The state handles of a list of entities. -/
def handles (es : List Entity) : List Idx := es.flatMap fun e => [e.x, e.y]

theorem mem_handles {es : List Entity} {h : Idx} : h ∈ handles es ↔ ∃ e ∈ es, h = e.x ∨ h = e.y := by
  simp [handles]

/-- Entities whose states hold these positions. -/
inductive HoldsPos (b : Baseline) : List Entity → Board → Prop
  | nil : HoldsPos b [] []
  | cons (e : Entity) (es : List Entity) (p : BitVec 32 × BitVec 32) (ps : Board) : e.kind = .fork →
      b.state (.prim .f32) e.x = .ok p.1 → b.state (.prim .f32) e.y = .ok p.2 → HoldsPos b es ps → HoldsPos b (e :: es) (p :: ps)

theorem HoldsPos.length {b : Baseline} {es : List Entity} {ps : Board} (h : HoldsPos b es ps) : es.length = ps.length := by
  induction h <;> simp_all

theorem HoldsPos.get {b : Baseline} {es : List Entity} {ps : Board} (h : HoldsPos b es ps) {i : Nat} {e : Entity}
    {p : BitVec 32 × BitVec 32} (he : es[i]? = some e) (hp : ps[i]? = some p) :
    e.kind = .fork ∧ b.state (.prim .f32) e.x = .ok p.1 ∧ b.state (.prim .f32) e.y = .ok p.2 := by
  induction h generalizing i with
  | nil => simp at he
  | cons e' es p' ps h1 h2 h3 _ ih =>
    rcases i with _ | i
    · simp at he hp; subst he hp; exact ⟨h1, h2, h3⟩
    · exact ih (by simpa using he) (by simpa using hp)

theorem HoldsPos.mono {b b' : Baseline} {es : List Entity} {ps : Board} (h : HoldsPos b es ps)
    (hf : ∀ h ∈ handles es, b'.state (.prim .f32) h = b.state (.prim .f32) h) : HoldsPos b' es ps := by
  induction h with
  | nil => exact .nil
  | cons e es p ps h1 h2 h3 _ ih =>
    refine .cons e es p ps h1 ?_ ?_ (ih fun h hh => hf h ?_)
    · rw [hf e.x (mem_handles.2 ⟨e, by simp, .inl rfl⟩), h2]
    · rw [hf e.y (mem_handles.2 ⟨e, by simp, .inr rfl⟩), h3]
    · obtain ⟨e', h1, h2⟩ := mem_handles.1 hh
      exact mem_handles.2 ⟨e', by simp [h1], h2⟩

theorem HoldsPos.snoc {b : Baseline} {es : List Entity} {ps : Board} (h : HoldsPos b es ps) (e : Entity) (p : BitVec 32 × BitVec 32)
    (h1 : e.kind = .fork) (h2 : b.state (.prim .f32) e.x = .ok p.1) (h3 : b.state (.prim .f32) e.y = .ok p.2) :
    HoldsPos b (es ++ [e]) (ps ++ [p]) := by
  induction h with
  | nil => exact .cons _ _ _ _ h1 h2 h3 .nil
  | cons e' es p' ps k1 k2 k3 _ ih => exact .cons _ _ _ _ k1 k2 k3 ih

theorem HoldsPos.resolves {b : Baseline} {es : List Entity} {ps : Board} (h : HoldsPos b es ps) {x : Idx} (hx : x ∈ handles es) :
    ∃ v : BitVec 32, b.state (.prim .f32) x = .ok v := by
  obtain ⟨e, he, hxe⟩ := mem_handles.1 hx
  obtain ⟨i, hi⟩ := List.getElem?_of_mem he
  have hlt := (List.getElem?_eq_some_iff.1 hi).1
  rw [h.length] at hlt
  obtain ⟨-, g1, g2⟩ := h.get hi (List.getElem?_eq_getElem hlt)
  rcases hxe with rfl | rfl
  · exact ⟨_, g1⟩
  · exact ⟨_, g2⟩

/-- Creating one circle. -/
theorem create_circle {kind : Kind} {evs : List Event} {b : Baseline} (hist : History kind evs b) (h : Idx)
    (hreg : (b.contractData h).isOk = true) (vx vy : BitVec 32) :
    ∃ (b' : Baseline) (o xh yh : Idx), b.objectCreate Circle.C h [.primitive (.f32 vx), .primitive (.f32 vy)] [] = (b', .ok o) ∧
      b'.bindState ⟨0, h⟩ o = .ok xh ∧ b'.bindState ⟨1, h⟩ o = .ok yh ∧ b'.state (.prim .f32) xh = .ok vx ∧
      b'.state (.prim .f32) yh = .ok vy ∧ xh ≠ yh ∧
      (b.state (.prim .f32) xh).isErr = true ∧ (b.state (.prim .f32) yh).isErr = true ∧
      (b'.contractData h).isOk = true ∧ (b'.object o).isOk = true ∧ (∀ o' : Idx, (b.object o').isOk = true → b'.object o' = b.object o') ∧
      (∀ (sh : Idx) (v : BitVec 32), b.state (.prim .f32) sh = .ok v → b'.state (.prim .f32) sh = .ok v) ∧
      ∃ evs', History kind evs' b' := by
  have hb := history_binv hist
  obtain ⟨cd, hcd⟩ : ∃ cd, b.contracts.get h = some cd := by
    unfold Baseline.contractData at hreg
    cases hx : b.contracts.get h with
    | none => rw [hx] at hreg; cases hreg
    | some cd => exact ⟨cd, rfl⟩
  obtain ⟨cons, hm, hr⟩ := objectCreate_ok (ss := [.primitive (.f32 vx), .primitive (.f32 vy)]) (cs := []) (C := Circle.C) hcd rfl rfl
  have hS := createAll_created hb.o.sInv ([.primitive (.f32 vx), .primitive (.f32 vy)].map DynProp.typed)
  obtain ⟨b', hb'⟩ : ∃ b', b' = (b.objectCreate Circle.C h [.primitive (.f32 vx), .primitive (.f32 vy)] []).1 := ⟨_, rfl⟩
  have hcr : b.objectCreate Circle.C h [.primitive (.f32 vx), .primitive (.f32 vy)] [] = (b', .ok (b.objects.insert (createdObj b h [.primitive (.f32 vx), .primitive (.f32 vy)] [])).2) := by
    rw [hb', hr]
  obtain ⟨c1, -, -, c4, -⟩ := C09_create_reads_back hist hcr
  obtain ⟨f1, f2, f3, -, -, f6, -⟩ := C10_create_frame hist hcr
  obtain ⟨id0, xh, x1, x2, x3, x4⟩ := c4 0 _ rfl
  obtain ⟨id1, yh, y1, y2, y3, y4⟩ := c4 1 _ rfl
  have e0 : id0 = ⟨.prim .f32, ⟨0, h⟩⟩ := (Option.some.inj x1).symm
  have e1 : id1 = ⟨.prim .f32, ⟨1, h⟩⟩ := (Option.some.inj y1).symm
  subst e0 e1
  have hself := Arena.get_insert_self hb.o.inv (createdObj b h [.primitive (.f32 vx), .primitive (.f32 vy)] [])
  have hob : b'.objects.get (b.objects.insert (createdObj b h [.primitive (.f32 vx), .primitive (.f32 vy)] [])).2 =
      some (createdObj b h [.primitive (.f32 vx), .primitive (.f32 vy)] []) := by rw [hb', hr]; exact hself
  have bx : (Baseline.createAll b.states ([.primitive (.f32 vx), .primitive (.f32 vy)].map DynProp.typed)).2[0]? = some xh := by
    rw [bindState_of_get hob] at x3
    exact (bindIdx_ok.1 x3).2
  have by_ : (Baseline.createAll b.states ([.primitive (.f32 vx), .primitive (.f32 vy)].map DynProp.typed)).2[1]? = some yh := by
    rw [bindState_of_get hob] at y3
    exact (bindIdx_ok.1 y3).2
  refine ⟨b', _, xh, yh, hcr, x3, y3, x4, y4, ?_, ?_, ?_, ?_, ?_, ?_, fun sh v hv => f3 (.prim .f32) sh v hv, ?_⟩
  · intro e
    subst e
    have := hS.distinct 0 1 _ _ xh rfl bx rfl by_ rfl
    cases this
  · have := hS.fresh 0 _ xh rfl bx
    exact state_err.2 this
  · have := hS.fresh 1 _ yh rfl by_
    exact state_err.2 this
  · obtain ⟨_, cd', -, h2, -⟩ := f6
    rw [h2]; rfl
  · obtain ⟨ob, h1, -⟩ := c1
    rw [h1]; rfl
  · intro o' ho'
    refine f2 o' ?_
    rintro rfl
    cases hx : b.object (b.objects.insert (createdObj b h [.primitive (.f32 vx), .primitive (.f32 vy)] [])).2 <;>
      rw [hx] at f1 ho' <;> first | (cases ho'; done) | cases f1
  · refine ⟨_, Trace.append hist (.cons b (.create Circle.C h [.primitive (.f32 vx), .primitive (.f32 vy)] []) [] _ ?_)⟩
    have : (b.step (.create Circle.C h [.primitive (.f32 vx), .primitive (.f32 vy)] [])).1 = b' := by
      simp only [Baseline.step, hcr]
    rw [this]
    exact .nil b'

/-- The invariant of the app. -/
structure GInv (g : Game) (ps : Board) : Prop where
  main : g.realm.main = Baseline.new .main
  holds : HoldsPos g.realm.fork g.entities ps
  nodup : (handles g.entities).Nodup
  objs : ∀ e ∈ g.entities, (g.realm.fork.object e.obj).isOk = true

theorem setupLoop_spec (ops : Ops) (cells : List (Nat × Nat)) (g : Game) (ps : Board) (hg : GInv g ps)
    (hreg : (g.realm.fork.contractData g.contract).isOk = true) (hist : ∃ evs, History .fork evs g.realm.fork)
    (htr : g.entities.map (fun e => (e.tx, e.ty)) = ps) :
    ∃ g', setupLoop ops g cells = (g', .ok ()) ∧ GInv g' (ps ++ cells.map fun c => (ops.offset c.1, ops.offset c.2)) ∧
      g'.entities.map (fun e => (e.tx, e.ty)) = ps ++ cells.map fun c => (ops.offset c.1, ops.offset c.2) := by
  induction cells generalizing g ps with
  | nil => exact ⟨g, rfl, by simpa using hg, by simpa using htr⟩
  | cons c cells ih =>
    obtain ⟨evs, hist⟩ := hist
    obtain ⟨b', o, xh, yh, h1, h2, h3, h4, h5, h6, h7, h8, h9, h10, h11, h12, h13⟩ :=
      create_circle hist g.contract hreg (ops.offset c.1) (ops.offset c.2)
    have hone : setupOne ops g c = (⟨{ g.realm with fork := b' }, g.contract,
        g.entities ++ [⟨.fork, o, xh, yh, ops.offset c.1, ops.offset c.2⟩]⟩, .ok ()) := by
      unfold setupOne
      have hx : Circle.x g.contract = some ⟨.prim .f32, ⟨0, g.contract⟩⟩ := rfl
      have hy : Circle.y g.contract = some ⟨.prim .f32, ⟨1, g.contract⟩⟩ := rfl
      simp only [Realm.baseline, h1, hx, hy, h2, h3, setBaseline]
    have hold : HoldsPos b' g.entities ps := hg.holds.mono fun h hh => by
      obtain ⟨v, hv⟩ := hg.holds.resolves hh
      rw [hv, h12 h v hv]
    have hnew : ∀ h ∈ handles g.entities, h ≠ xh ∧ h ≠ yh := by
      intro h hh
      obtain ⟨v, hv⟩ := hg.holds.resolves hh
      constructor
      · rintro rfl; rw [hv] at h7; cases h7
      · rintro rfl; rw [hv] at h8; cases h8
    obtain ⟨g', e1, e2, e3⟩ := ih ⟨{ g.realm with fork := b' }, g.contract,
        g.entities ++ [⟨.fork, o, xh, yh, ops.offset c.1, ops.offset c.2⟩]⟩ (ps ++ [(ops.offset c.1, ops.offset c.2)])
      ⟨hg.main, hold.snoc _ _ rfl h4 h5, by
        simp only [handles, List.flatMap_append, List.flatMap_cons, List.flatMap_nil, List.append_nil]
        refine List.nodup_append.2 ⟨hg.nodup, by simp [h6], ?_⟩
        intro a ha b hb e
        subst e
        simp only [List.mem_cons, List.not_mem_nil, or_false] at hb
        rcases hb with rfl | rfl
        · exact (hnew a ha).1 rfl
        · exact (hnew a ha).2 rfl, by
        intro e he
        rcases List.mem_append.1 he with he | he
        · have := hg.objs e he
          show (b'.object e.obj).isOk = true
          rw [h11 _ this]; exact this
        · simp at he; subst he; exact h10⟩ h9 h13 (by simp [htr])
    refine ⟨g', ?_, by simpa using e2, by simpa using e3⟩
    unfold setupLoop
    rw [hone]
    exact e1

theorem bump_spec (ops : Ops) (b : Baseline) (h : Idx) (d v : BitVec 32) (hv : b.state (.prim .f32) h = .ok v) :
    ∃ b', bump ops b h d = (b', .ok ()) ∧ b'.state (.prim .f32) h = .ok (ops.add v d) ∧
      (∀ h' : Idx, h' ≠ h → b'.state (.prim .f32) h' = b.state (.prim .f32) h') ∧ (∀ o : Idx, b'.object o = b.object o) := by
  obtain ⟨b', w1, w2, w3, -, w5, -⟩ := (C13_state_write b (.prim .f32) h (ops.add v d)).1 v hv
  refine ⟨b', ?_, w2, fun h' hne => w3 (.prim .f32) h' (fun e => hne (Prod.mk.inj e).2), w5⟩
  unfold bump Baseline.indexState Baseline.indexStateWrite
  rw [hv]
  simp only [Baseline.expect, w1]

theorem walkLoop_spec (ops : Ops) (rs : Nat → BitVec 32 × BitVec 32) (es : List Entity) (i : Nat) (r : Realm) (ps : Board)
    (hold : HoldsPos r.fork es ps) (hnd : (handles es).Nodup) :
    ∃ b', walkLoop ops rs i r es = ({ r with fork := b' }, .ok ()) ∧
      HoldsPos b' es (ps.mapIdx fun k p => (ops.add p.1 (ops.step (rs (i + k)).1), ops.add p.2 (ops.step (rs (i + k)).2))) ∧
      (∀ h : Idx, h ∉ handles es → b'.state (.prim .f32) h = r.fork.state (.prim .f32) h) ∧
      (∀ o : Idx, b'.object o = r.fork.object o) := by
  induction es generalizing i r ps with
  | nil =>
    cases hold
    exact ⟨r.fork, rfl, .nil, fun _ _ => rfl, fun _ => rfl⟩
  | cons e es ih =>
    obtain _ | ⟨_, _, p, ps, k1, k2, k3, k4⟩ := hold
    have hh : handles (e :: es) = e.x :: e.y :: handles es := rfl
    rw [hh] at hnd
    simp only [List.nodup_cons, List.mem_cons, not_or] at hnd
    obtain ⟨⟨n1, n2⟩, n3, n4⟩ := hnd
    obtain ⟨b1, u1, u2, u3, u4⟩ := bump_spec ops r.fork e.x (ops.step (rs i).1) p.1 k2
    obtain ⟨b2, v1, v2, v3, v4⟩ := bump_spec ops b1 e.y (ops.step (rs i).2) p.2 (by rw [u3 e.y (fun h => n1 h.symm), k3])
    have h2 : HoldsPos b2 es ps := k4.mono fun h hm => by
      rw [v3 h (fun e => n3 (e ▸ hm)), u3 h (fun e => n2 (e ▸ hm))]
    obtain ⟨b3, w1, w2, w3, w4⟩ := ih (i + 1) { r with fork := b2 } ps h2 n4
    refine ⟨b3, ?_, ?_, ?_, ?_⟩
    · unfold walkLoop walkOne
      simp only [k1, Realm.baseline, u1, v1, setBaseline]
      exact w1
    · rw [List.mapIdx_cons]
      refine .cons _ _ _ _ k1 ?_ ?_ ?_
      · rw [w3 e.x n2]
        show b2.state (.prim .f32) e.x = _
        rw [v3 e.x n1, u2]
        rfl
      · rw [w3 e.y n3]
        exact v2
      · have : (fun k (p : BitVec 32 × BitVec 32) => (ops.add p.1 (ops.step (rs (i + (k + 1))).1), ops.add p.2 (ops.step (rs (i + (k + 1))).2))) =
            fun k (p : BitVec 32 × BitVec 32) => (ops.add p.1 (ops.step (rs (i + 1 + k)).1), ops.add p.2 (ops.step (rs (i + 1 + k)).2)) := by
          funext k p
          rw [show i + (k + 1) = i + 1 + k by omega]
        rw [this]
        exact w2
    · intro h hm
      rw [hh] at hm
      simp only [List.mem_cons, not_or] at hm
      rw [w3 h hm.2.2]
      show b2.state (.prim .f32) h = _
      rw [v3 h hm.2.1, u3 h hm.1]
    · intro o
      rw [w4 o]
      show b2.object o = _
      rw [v4, u4]

theorem syncLoop_spec (r : Realm) (es : List Entity) (ps : Board) (hold : HoldsPos r.fork es ps) :
    ∃ es', syncLoop r es = .ok es' ∧ es'.map (fun e => (e.tx, e.ty)) = ps ∧ HoldsPos r.fork es' ps ∧ handles es' = handles es ∧
      es'.map Entity.obj = es.map Entity.obj := by
  induction hold with
  | nil => exact ⟨[], rfl, rfl, .nil, rfl, rfl⟩
  | cons e es p ps h1 h2 h3 _ ih =>
    obtain ⟨es', i1, i2, i3, i4, i5⟩ := ih
    refine ⟨{ e with tx := p.1, ty := p.2 } :: es', ?_, by simp [i2], .cons _ _ _ _ h1 h2 h3 i3, ?_, by simp [i5]⟩
    · rw [syncLoop]
      simp only [h1, Realm.baseline, Baseline.indexState, h2, h3, Baseline.expect, i1, Outcome.map, Outcome.bind]
    · show [e.x, e.y] ++ handles es' = [e.x, e.y] ++ handles es
      rw [i4]

theorem runAll_spec (ops : Ops) (ss : List Sys) (g : Game) (ps screen : Board) (hg : GInv g ps)
    (htr : g.entities.map (fun e => (e.tx, e.ty)) = screen) :
    ∃ g', runAll ops g ss = .ok g' ∧ GInv g' (Board.play ops (ps, screen) ss).1 ∧
      g'.entities.map (fun e => (e.tx, e.ty)) = (Board.play ops (ps, screen) ss).2 := by
  induction ss generalizing g ps screen with
  | nil => exact ⟨g, rfl, hg, htr⟩
  | cons s ss ih =>
    cases s with
    | walk rs =>
      obtain ⟨b', w1, w2, w3, w4⟩ := walkLoop_spec ops rs g.entities 0 g.realm ps hg.holds hg.nodup
      have hw : ps.walk ops rs = ps.mapIdx fun k p => (ops.add p.1 (ops.step (rs (0 + k)).1), ops.add p.2 (ops.step (rs (0 + k)).2)) := by
        simp [Board.walk]
      obtain ⟨g', e1, e2, e3⟩ := ih { g with realm := { g.realm with fork := b' } } (ps.walk ops rs) screen
        ⟨hg.main, by rw [hw]; exact w2, hg.nodup, fun e he => by
          show (b'.object e.obj).isOk = true
          rw [w4]; exact hg.objs e he⟩ htr
      refine ⟨g', ?_, e2, e3⟩
      simp only [runAll, runSys, w1, Outcome.bind]
      exact e1
    | sync =>
      obtain ⟨es', s1, s2, s3, s4, s5⟩ := syncLoop_spec g.realm g.entities ps hg.holds
      obtain ⟨g', e1, e2, e3⟩ := ih { g with entities := es' } ps ps ⟨hg.main, s3, by rw [s4]; exact hg.nodup, fun e he => by
          have : e.obj ∈ g.entities.map Entity.obj := by rw [← s5]; exact List.mem_map_of_mem he
          obtain ⟨e', h1, h2⟩ := List.mem_map.1 this
          rw [← h2]; exact hg.objs e' h1⟩ s2
      refine ⟨g', ?_, e2, e3⟩
      simp only [runAll, runSys, s1, Outcome.bind, Outcome.map]
      exact e1

/-- **C70.** For every way the systems are scheduled and all random numbers, the app does not panic; it keeps exactly one hundred
circles, which start on the grid; every walk moves each circle by its own step and no other; after a sync every circle
is drawn where it is; and the main baseline stays as it was created. -/
theorem C70_circle_game (ops : Ops) (frames : List Sys) :
    ∃ g, app ops frames = .ok g ∧ g.entities.length = 100 ∧
      Shows g (Board.play ops (startBoard ops, startBoard ops) frames).1 (Board.play ops (startBoard ops, startBoard ops) frames).2 ∧
      g.realm.main = Baseline.new .main := by
  have hnew : History .fork [] (Baseline.new .fork) := .nil _
  obtain ⟨b, h, r1, -, r3, -⟩ := ((C06_one_contract_per_id hnew).2 Circle.C).2 (by
    rintro ⟨k, cd, hk, -⟩
    have : (Baseline.new .fork).contractData k = .err "no contract exists for that handle" := by
      unfold Baseline.contractData
      have : (Baseline.new .fork).contracts.get k = none := by
        simp [Baseline.new, Arena.get_new]
      rw [this]
    rw [this] at hk; cases hk)
  have hconf : configure = .ok ⟨⟨Ticks.new 0#32, Baseline.new .main, b⟩, h, []⟩ := by
    unfold configure
    have : Realm.new.baseline .fork = Baseline.new .fork := rfl
    rw [this, r1]
    rfl
  have hgrid : grid.map (fun c => (ops.offset c.1, ops.offset c.2)) = startBoard ops := by
    simp only [grid, startBoard, List.map_flatMap, List.map_map]
    rfl
  obtain ⟨g1, s1, s2, s3⟩ := setupLoop_spec ops grid ⟨⟨Ticks.new 0#32, Baseline.new .main, b⟩, h, []⟩ []
    ⟨rfl, .nil, List.nodup_nil, by simp⟩ (by show (b.contractData h).isOk = true; rw [r3]; rfl)
    ⟨_, .cons _ (.register Circle.C) [] b (by
      have : ((Baseline.new .fork).step (.register Circle.C)).1 = b := by simp only [Baseline.step, r1]
      rw [this]; exact .nil b)⟩ rfl
  rw [List.nil_append, hgrid] at s2 s3
  obtain ⟨g, e1, e2, e3⟩ := runAll_spec ops frames g1 _ _ s2 s3
  have hlen : g.entities.length = 100 := by
    have h1 : ∀ (ss : List Sys) (pc : Board × Board), (Board.play ops pc ss).1.length = pc.1.length := by
      intro ss
      induction ss with
      | nil => intro pc; rfl
      | cons s ss ih =>
        rintro ⟨ps, sc⟩
        cases s <;> simp only [Board.play, ih, Board.walk, List.length_mapIdx]
    rw [e2.holds.length, h1]
    rfl
  refine ⟨g, ?_, hlen, ⟨e2.holds.length, ?_, ?_⟩, e2.main⟩
  · unfold app
    rw [hconf]
    simp only [Outcome.bind, setup, s1]
    exact e1
  · rw [← e3, ← e2.holds.length, List.length_map]
  · intro i e p q he hp hq
    obtain ⟨k1, k2, k3⟩ := e2.holds.get he hp
    refine ⟨k1, e2.objs e (List.mem_of_getElem? he), k2, k3, ?_⟩
    rw [← e3, List.getElem?_map, he] at hq
    exact Option.some.inj hq

/-- With integer "floats" (offset `n`, steps as drawn), the circle at column 3, row 4 after two walks and a sync. -/
example : (match app ⟨fun n => BitVec.ofNat 32 n, id, (· + ·)⟩ [.walk fun i => (BitVec.ofNat 32 i, 1), .sync, .walk fun _ => (5, 5)] with
    | .ok g => (g.entities[34]?).map fun e => (e.tx, e.ty)
    | _ => none) = some (37#32, 5#32) := by decide +kernel

end Verif.Props
