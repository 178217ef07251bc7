import Verif.Model.CApi
import Verif.Props.Baseline
/-!
# C67, C68, C69: the C API and the contracts shipped with the repository
-/
namespace Verif.Props
open Verif

/-! ## C67 -/

/-- Specification: the FFI getter returned an id of type `p`; binding it to the object `o` through the C API gives a handle
whose value, read through the C API, is `v`. -/
def ReadsBack (b : Baseline) (o : Idx) (getter : Option DynId) (p : PrimType) (v : p.Carrier) : Prop :=
  ∃ (id : DynId) (sh : Idx), getter = some id ∧ id.ty = .prim p ∧ b.cBindState id.id o = .ok sh ∧ b.cState p sh = .ok v

theorem readsBack_of {kind : Kind} {evs : List Event} {b b' : Baseline} (hist : History kind evs b) {C : ContractTy} {h o : Idx}
    {ss : List DynProp} {cs : List DynChannel} (hcr : b.objectCreate C h ss cs = (b', .ok o)) (i : Nat) (d : DynProp) (p : PrimType)
    (v : p.Carrier) (hd : ss[i]? = some d) (ht : d.typed = ⟨.prim p, v⟩) (g : Option DynId) (hg : g = C.stateId h i) :
    ReadsBack b' o g p v := by
  obtain ⟨id, sh, h1, h2, h3, h4⟩ := (C09_create_reads_back hist hcr).2.2.2.1 i d hd
  rw [ht] at h2 h4
  refine ⟨id, sh, by rw [hg, h1], h2, ?_, ?_⟩
  · rw [Baseline.cBindState, h3]; rfl
  · rw [Baseline.cState]
    show Baseline.expect "unwrap" (b'.state (.prim p) sh) = _
    rw [h4]; rfl

/-- **C67 (ExampleContract).** With the contract registered in any reachable baseline, `ExampleContract__object_create`
returns a new object and, for each of the nine fields, the id returned by the field's FFI getter binds to that object and reads
the argument of the same name, in every case at the field's own type.  Nothing that existed before changes. -/
theorem C67_example_contract {kind : Kind} {evs : List Event} {b : Baseline} (hist : History kind evs b) (h : Idx)
    (hreg : (b.contractData h).isOk = true) (u8_0 u8_1 i8_0 i8_1 : BitVec 8) (f32_0 f32_1 : BitVec 32) (str_0 : String)
    (oh_0 ch_0 : Idx) :
    ∃ (b' : Baseline) (o : Idx),
      Example.objectCreate h b u8_0 u8_1 i8_0 i8_1 f32_0 f32_1 str_0 oh_0 ch_0 = (b', .ok o) ∧
      (b.object o).isErr = true ∧ (b'.object o).isOk = true ∧
      ReadsBack b' o (Example.u8_0 h) .u8 u8_0 ∧ ReadsBack b' o (Example.u8_1 h) .u8 u8_1 ∧
      ReadsBack b' o (Example.i8_0 h) .i8 i8_0 ∧ ReadsBack b' o (Example.i8_1 h) .i8 i8_1 ∧
      ReadsBack b' o (Example.f32_0 h) .f32 f32_0 ∧ ReadsBack b' o (Example.f32_1 h) .f32 f32_1 ∧
      ReadsBack b' o (Example.str_0 h) .string str_0 ∧ ReadsBack b' o (Example.oh_0 h) .objectHandle oh_0 ∧
      ReadsBack b' o (Example.ch_0 h) .contractDataHandle ch_0 ∧
      (∀ o' : Idx, o' ≠ o → b'.object o' = b.object o') ∧
      (∀ (t : PropType) (sh : Idx) (v : t.Carrier), b.state t sh = .ok v → b'.state t sh = .ok v) ∧
      (∀ (t : PropType) (ch : Idx) (v : t.Chan), b.channel t ch = .ok v → b'.channel t ch = .ok v) ∧
      (∀ h' : Idx, h' ≠ h → b'.contractData h' = b.contractData h') ∧
      (∃ cd cd' : ContractData, b.contractData h = .ok cd ∧ b'.contractData h = .ok cd' ∧ cd'.id = cd.id ∧
        o ∉ cd.objects ∧ ∀ x : Idx, x ∈ cd'.objects ↔ x = o ∨ x ∈ cd.objects) ∧
      b'.kind = b.kind := by
  obtain ⟨o, ho⟩ := (C08_create_accepts_exactly b Example.C h [.primitive (.u8 u8_0), .primitive (.u8 u8_1),
    .primitive (.i8 i8_0), .primitive (.i8 i8_1), .primitive (.f32 f32_0), .primitive (.f32 f32_1), .primitive (.string str_0),
    .primitive (.objectHandle oh_0), .primitive (.contractDataHandle ch_0)] []).1.2 ⟨hreg, rfl, rfl⟩
  obtain ⟨b', hb'⟩ : ∃ b', b.objectCreate Example.C h [.primitive (.u8 u8_0), .primitive (.u8 u8_1),
    .primitive (.i8 i8_0), .primitive (.i8 i8_1), .primitive (.f32 f32_0), .primitive (.f32 f32_1), .primitive (.string str_0),
    .primitive (.objectHandle oh_0), .primitive (.contractDataHandle ch_0)] [] = (b', .ok o) := ⟨_, Prod.ext rfl ho⟩
  obtain ⟨f1, f2, f3⟩ := C10_create_frame hist hb'
  have rb := fun (i : Nat) d p v hd ht g hg => readsBack_of hist hb' i d p v hd ht g hg
  refine ⟨b', o, ?_, f1, ?_, rb 0 _ _ _ rfl rfl _ rfl, rb 1 _ _ _ rfl rfl _ rfl, rb 2 _ _ _ rfl rfl _ rfl, rb 3 _ _ _ rfl rfl _ rfl,
    rb 4 _ _ _ rfl rfl _ rfl, rb 5 _ _ _ rfl rfl _ rfl, rb 6 _ _ _ rfl rfl _ rfl, rb 7 _ _ _ rfl rfl _ rfl,
    rb 8 _ _ _ rfl rfl _ rfl, f2, f3⟩
  · unfold Example.objectCreate
    simp only [hb']
    rfl
  · obtain ⟨ob, h1, -⟩ := (C09_create_reads_back hist hb').1
    rw [h1]; rfl

/-- **C67 (BallContract).** The same for the ten fields of the Unity demo's contract. -/
theorem C67_ball_contract {kind : Kind} {evs : List Event} {b : Baseline} (hist : History kind evs b) (h : Idx)
    (hreg : (b.contractData h).isOk = true) (px py pz : BitVec 32) (ex ey ez : BitVec 16) (sx sy sz : BitVec 32)
    (color : BitVec 64) :
    ∃ (b' : Baseline) (o : Idx),
      Ball.objectCreate b h px py pz ex ey ez sx sy sz color = (b', .ok o) ∧
      (b.object o).isErr = true ∧ (b'.object o).isOk = true ∧
      ReadsBack b' o (Ball.pos_x h) .f32 px ∧ ReadsBack b' o (Ball.pos_y h) .f32 py ∧ ReadsBack b' o (Ball.pos_z h) .f32 pz ∧
      ReadsBack b' o (Ball.euler_x h) .i16 ex ∧ ReadsBack b' o (Ball.euler_y h) .i16 ey ∧ ReadsBack b' o (Ball.euler_z h) .i16 ez ∧
      ReadsBack b' o (Ball.scale_x h) .f32 sx ∧ ReadsBack b' o (Ball.scale_y h) .f32 sy ∧ ReadsBack b' o (Ball.scale_z h) .f32 sz ∧
      ReadsBack b' o (Ball.color h) .u64 color ∧
      (∀ o' : Idx, o' ≠ o → b'.object o' = b.object o') ∧
      (∀ (t : PropType) (sh : Idx) (v : t.Carrier), b.state t sh = .ok v → b'.state t sh = .ok v) ∧
      (∀ (t : PropType) (ch : Idx) (v : t.Chan), b.channel t ch = .ok v → b'.channel t ch = .ok v) ∧
      (∀ h' : Idx, h' ≠ h → b'.contractData h' = b.contractData h') ∧
      (∃ cd cd' : ContractData, b.contractData h = .ok cd ∧ b'.contractData h = .ok cd' ∧ cd'.id = cd.id ∧
        o ∉ cd.objects ∧ ∀ x : Idx, x ∈ cd'.objects ↔ x = o ∨ x ∈ cd.objects) ∧
      b'.kind = b.kind := by
  obtain ⟨o, ho⟩ := (C08_create_accepts_exactly b Ball.C h [.primitive (.f32 px), .primitive (.f32 py), .primitive (.f32 pz),
    .primitive (.i16 ex), .primitive (.i16 ey), .primitive (.i16 ez), .primitive (.f32 sx), .primitive (.f32 sy),
    .primitive (.f32 sz), .primitive (.u64 color)] []).1.2 ⟨hreg, rfl, rfl⟩
  obtain ⟨b', hb'⟩ : ∃ b', b.objectCreate Ball.C h [.primitive (.f32 px), .primitive (.f32 py), .primitive (.f32 pz),
    .primitive (.i16 ex), .primitive (.i16 ey), .primitive (.i16 ez), .primitive (.f32 sx), .primitive (.f32 sy),
    .primitive (.f32 sz), .primitive (.u64 color)] [] = (b', .ok o) := ⟨_, Prod.ext rfl ho⟩
  obtain ⟨f1, f2, f3⟩ := C10_create_frame hist hb'
  have rb := fun (i : Nat) d p v hd ht g hg => readsBack_of hist hb' i d p v hd ht g hg
  refine ⟨b', o, ?_, f1, ?_, rb 0 _ _ _ rfl rfl _ rfl, rb 1 _ _ _ rfl rfl _ rfl, rb 2 _ _ _ rfl rfl _ rfl, rb 3 _ _ _ rfl rfl _ rfl,
    rb 4 _ _ _ rfl rfl _ rfl, rb 5 _ _ _ rfl rfl _ rfl, rb 6 _ _ _ rfl rfl _ rfl, rb 7 _ _ _ rfl rfl _ rfl,
    rb 8 _ _ _ rfl rfl _ rfl, rb 9 _ _ _ rfl rfl _ rfl, f2, f3⟩
  · unfold Ball.objectCreate
    simp only [hb']
    rfl
  · obtain ⟨ob, h1, -⟩ := (C09_create_reads_back hist hb').1
    rw [h1]; rfl

/-- **C67 (registration).** Registering one of the contracts through the C API works exactly once: if its id is not taken the
call returns a handle that `object_create` accepts, otherwise it panics and changes nothing. -/
theorem C67_register {kind : Kind} {evs : List Event} {b : Baseline} (hist : History kind evs b) :
    (∀ reg ∈ [((⟨"teleportal.example-ffi-contract", 1, 2, 3⟩ : ContractId), Example.register b),
        ((⟨"Ball", 0, 0, 0⟩ : ContractId), Ball.register b)],
      ((¬ ∃ k cd, b.contractData k = .ok cd ∧ cd.id = reg.1) →
        ∃ b' h, reg.2 = (b', .ok h) ∧ b'.contractData h = .ok ⟨reg.1, []⟩) ∧
      ((∃ k cd, b.contractData k = .ok cd ∧ cd.id = reg.1) → reg.2.2.isPanic = true ∧ reg.2.1 = b)) := by
  have key : ∀ (C : ContractTy) (m : String),
      ((¬ ∃ k cd, b.contractData k = .ok cd ∧ cd.id = C.id) →
        ∃ b' h, ((b.registerContract C).1, Baseline.expect m (b.registerContract C).2) = (b', .ok h) ∧ b'.contractData h = .ok ⟨C.id, []⟩) ∧
      ((∃ k cd, b.contractData k = .ok cd ∧ cd.id = C.id) →
        (Baseline.expect m (b.registerContract C).2).isPanic = true ∧ (b.registerContract C).1 = b) := by
    intro C m
    obtain ⟨h1, h2⟩ := (C06_one_contract_per_id hist).2 C
    constructor
    · intro hn
      obtain ⟨b', k, e, -, e2, -⟩ := h2 hn
      exact ⟨b', k, by rw [e]; rfl, e2⟩
    · intro hy
      obtain ⟨e1, e2⟩ := h1 hy
      refine ⟨?_, e2⟩
      cases hr : (b.registerContract C).2 <;> rw [hr] at e1 <;> first | rfl | cases e1
  intro reg hr
  simp only [List.mem_cons, List.not_mem_nil, or_false] at hr
  rcases hr with rfl | rfl
  · exact key Example.C _
  · exact key Ball.C _

/-- Registering and creating through the C API in a baseline that already holds other contracts and objects. -/
example : (Example.register demoB).2 = .ok ⟨2, 0⟩ ∧
    (Example.objectCreate ⟨2, 0⟩ (Example.register demoB).1 1 2 3 4 5 6 "s" h0 h1).2 = .ok ⟨3, 0⟩ ∧
    (Example.register (Example.register demoB).1).2.isPanic = true ∧
    (Ball.objectCreate (Ball.register demoB).1 ⟨2, 0⟩ 1 2 3 4 5 6 7 8 9 10).2 = .ok ⟨3, 0⟩ := by decide +kernel

/-! ## C68 -/

/-- The full statement of C68 for one call: removing a live object that was created through the contract returns. -/
def RemoveReturns (C : ContractTy) (remove : Baseline → Idx → Baseline × Outcome Unit) : Prop :=
  ∀ (kind : Kind) (evs : List Event) (b : Baseline) (h o : Idx) (ss : List DynProp), History kind evs b →
    (BOp.create C h ss [], Outcome.ok (some o)) ∈ evs → (b.object o).isOk = true → (remove b o).2 = .ok ()

/-- One example object. -/
def exampleOps : List BOp := [.register Example.C, .create Example.C h0 [.primitive (.u8 1), .primitive (.u8 2), .primitive (.i8 3),
  .primitive (.i8 4), .primitive (.f32 5), .primitive (.f32 6), .primitive (.string "s"), .primitive (.objectHandle h0),
  .primitive (.contractDataHandle h1)] []]
/-- One ball. -/
def ballOps : List BOp := [.register Ball.C, .create Ball.C h0 [.primitive (.f32 1), .primitive (.f32 2), .primitive (.f32 3),
  .primitive (.i16 4), .primitive (.i16 5), .primitive (.i16 6), .primitive (.f32 7), .primitive (.f32 8), .primitive (.f32 9),
  .primitive (.u64 10)] []]

/-- **C68, false of the code, in the strongest way:** `ExampleContract__object_remove` and `BallContract__object_remove` panic
on *every* baseline and *every* handle; if the object was live it is removed all the same, its states stay behind, and the
contract still lists it. -/
theorem C68_negation_object_remove_always_panics (b : Baseline) (o : Idx) :
    ((Example.objectRemove b o).2.isPanic = true ∧ (Ball.objectRemove b o).2.isPanic = true) ∧
    ¬ RemoveReturns Example.C Example.objectRemove ∧ ¬ RemoveReturns Ball.C Ball.objectRemove ∧
    ∀ b' ∈ [(Example.objectRemove b o).1, (Ball.objectRemove b o).1],
      ((b'.object o).isErr = true ∧ (∀ o' : Idx, o' ≠ o → b'.object o' = b.object o') ∧
        b'.states = b.states ∧ b'.channels = b.channels ∧ b'.contracts = b.contracts) := by
  have key : ∀ (C : ContractTy) (m : String) (b : Baseline) (o : Idx), C.states ≠ [] →
      (Baseline.expect m (b.objectRemove C o).2).isPanic = true := by
    intro C m b o hC
    have hr : (b.objectRemove C o).2.isErr = true := by
      cases hx : b.object o with
      | ok ob =>
        obtain ⟨-, -, -, -, -, -, h1, h2⟩ := (C16_object_remove_partial b C o).1 (by rw [hx]; rfl)
        cases hy : (b.objectRemove C o).2 with
        | ok u => exact absurd (h2.1 hy).1 hC
        | err m => rfl
        | panic m => rw [hy] at h1; cases h1
      | err m => exact ((C16_object_remove_partial b C o).2 (by rw [hx]; rfl)).1
      | panic m =>
        unfold Baseline.object at hx
        cases hy : b.objects.get o <;> rw [hy] at hx <;> cases hx
    cases hy : (b.objectRemove C o).2 <;> rw [hy] at hr <;> first | rfl | cases hr
  have kE : ∀ (b : Baseline) (o : Idx), (Example.objectRemove b o).2.isPanic = true :=
    fun b o => key Example.C "unwrap" b o (by intro h; cases h)
  have kB : ∀ (b : Baseline) (o : Idx), (Ball.objectRemove b o).2.isPanic = true :=
    fun b o => key Ball.C "unwrap" b o (by intro h; cases h)
  have eff : ∀ C : ContractTy, ((b.objectRemove C o).1.object o).isErr = true ∧
      (∀ o' : Idx, o' ≠ o → (b.objectRemove C o).1.object o' = b.object o') ∧
      (b.objectRemove C o).1.states = b.states ∧ (b.objectRemove C o).1.channels = b.channels ∧
      (b.objectRemove C o).1.contracts = b.contracts := by
    intro C
    cases hx : b.object o with
    | ok ob =>
      obtain ⟨h1, h2, h3, h4, h5, -⟩ := (C16_object_remove_partial b C o).1 (by rw [hx]; rfl)
      exact ⟨h1, h2, h3, h4, h5⟩
    | err m =>
      have := ((C16_object_remove_partial b C o).2 (by rw [hx]; rfl)).2
      rw [this, hx]
      exact ⟨rfl, fun _ _ => rfl, rfl, rfl, rfl⟩
    | panic m =>
      unfold Baseline.object at hx
      cases hy : b.objects.get o <;> rw [hy] at hx <;> cases hx
  refine ⟨⟨kE b o, kB b o⟩, ?_, ?_, ?_⟩
  · intro h
    have hm : ((Baseline.new .main).runOps exampleOps).1[1]? = some (_, Outcome.ok (some h0)) := rfl
    have := h .main _ ((Baseline.new .main).runOps exampleOps).2 h0 h0 _ (runOps_trace _ _) (List.mem_of_getElem? hm) (by decide +kernel)
    have hp := kE ((Baseline.new .main).runOps exampleOps).2 h0
    rw [this] at hp; cases hp
  · intro h
    have hm : ((Baseline.new .main).runOps ballOps).1[1]? = some (_, Outcome.ok (some h0)) := rfl
    have := h .main _ ((Baseline.new .main).runOps ballOps).2 h0 h0 _ (runOps_trace _ _) (List.mem_of_getElem? hm) (by decide +kernel)
    have hp := kB ((Baseline.new .main).runOps ballOps).2 h0
    rw [this] at hp; cases hp
  · intro b' hb'
    simp only [List.mem_cons, List.not_mem_nil, or_false] at hb'
    rcases hb' with rfl | rfl
    · exact eff Example.C
    · exact eff Ball.C

/-- A live object, removed by a call that panics. -/
example : let b := (Ball.objectCreate (Ball.register demoB).1 ⟨2, 0⟩ 1 2 3 4 5 6 7 8 9 10).1
    (b.object ⟨3, 0⟩).isOk = true ∧ ((Ball.objectRemove b ⟨3, 0⟩).1.object ⟨3, 0⟩).isErr = true ∧
    (Ball.objectRemove b ⟨3, 0⟩).2.isPanic = true := by decide +kernel

/-- **C68, partial: `BallContract__unregister`.**  It returns, having unregistered the contract, exactly when the handle names
the contract and no object is listed; in every other case it panics.  Missing (and false): returning when objects
exist. -/
theorem C68_unregister_partial (b : Baseline) (h : Idx) (ord : HashOrder) :
    ((Ball.unregister b h ord).2 = .ok () ↔ b.contractData h = .ok ⟨Ball.C.id, []⟩) ∧
    ((Ball.unregister b h ord).2 ≠ .ok () → (Ball.unregister b h ord).2.isPanic = true) ∧
    (b.contractData h = .ok ⟨Ball.C.id, []⟩ → ((Ball.unregister b h ord).1.contractData h).isErr = true) := by
  have hnf : Ball.C.states ≠ [] := fun h => by cases h
  unfold Ball.unregister Baseline.unregisterContract Baseline.contractData
  cases hg : b.contracts.get h with
  | none => simp [Baseline.expect, Outcome.isPanic]
  | some cd =>
    simp only
    by_cases hid : cd.id = Ball.C.id
    · rw [if_neg (by simpa using hid)]
      cases hm : b.contracts.modify h (fun cd => { cd with objects := [] }) with
      | none => rw [Arena.modify_eq_none] at hm; rw [hm] at hg; cases hg
      | some cs =>
        simp only
        cases hobj : cd.objects with
        | nil =>
          have hnil : ord.order [] = [] := List.perm_nil.1 (ord.perm [])
          rw [hnil]
          have hcd : cd = ⟨Ball.C.id, []⟩ := by
            obtain ⟨i, l⟩ := cd
            simp only at hid hobj
            rw [hid, hobj]
          simp [Baseline.removeObjects, Baseline.expect, hcd, Outcome.isErr, Arena.get_remove]
        | cons o os =>
          have hne : ord.order (o :: os) ≠ [] := fun e => by
            have := (ord.perm (o :: os)).length_eq
            rw [e] at this; simp at this
          obtain ⟨o', os', ho⟩ := List.exists_cons_of_ne_nil hne
          rw [ho]
          have hx : ∀ bb : Baseline, ∃ m, (bb.objectRemove Ball.C o').2 = .err m := by
            intro bb
            have := (C68_negation_object_remove_always_panics bb o').1.2
            unfold Ball.objectRemove at this
            cases hy : (bb.objectRemove Ball.C o').2 with
            | ok u => simp only [hy, Baseline.expect] at this; cases this
            | err m => exact ⟨m, rfl⟩
            | panic m =>
              exfalso
              cases hl : bb.object o' with
              | ok ob =>
                have := ((C16_object_remove_partial bb Ball.C o').1 (by rw [hl]; rfl)).2.2.2.2.2.2.1
                rw [hy] at this; cases this
              | err m =>
                have := ((C16_object_remove_partial bb Ball.C o').2 (by rw [hl]; rfl)).1
                rw [hy] at this; cases this
              | panic m =>
                unfold Baseline.object at hl
                cases hz : bb.objects.get o' <;> rw [hz] at hl <;> cases hl
          obtain ⟨m, hm'⟩ := hx { b with contracts := cs }
          rw [Baseline.removeObjects]
          rcases hr : Baseline.objectRemove { b with contracts := cs } Ball.C o' with ⟨b1, r⟩
          rw [hr] at hm'
          simp only at hm'
          subst hm'
          refine ⟨⟨fun e => by simp [Baseline.expect] at e, fun e => ?_⟩, fun _ => rfl, fun e => ?_⟩
          all_goals
            have := Outcome.ok.inj e
            rw [this] at hobj; cases hobj
    · rw [if_pos (by simpa using hid)]
      refine ⟨⟨fun e => by simp [Baseline.expect] at e, fun e => ?_⟩, fun _ => rfl, fun e => ?_⟩
      all_goals exact absurd (by rw [Outcome.ok.inj e]) hid

example : (Ball.unregister (Ball.register demoB).1 ⟨2, 0⟩ .id).2 = .ok () ∧
    (Ball.unregister (Ball.objectCreate (Ball.register demoB).1 ⟨2, 0⟩ 1 2 3 4 5 6 7 8 9 10).1 ⟨2, 0⟩ .id).2.isPanic = true := by
  decide +kernel

/-! ## C69 -/

/-- **C69.** Every accessor of the C API gives the value of the Rust method it wraps when that is `Ok`, and panics, changing
nothing, exactly when that is `Err`. -/
theorem C69_c_api_agrees (b : Baseline) :
    (∀ (h : Idx) (cd : ContractData), (b.cContractData h = .ok cd ↔ b.contractData h = .ok cd) ∧
      ((b.cContractData h).isPanic = true ↔ (b.contractData h).isErr = true)) ∧
    (∀ (o : Idx) (ob : ObjectD), (b.cObject o = .ok ob ↔ b.object o = .ok ob) ∧
      ((b.cObject o).isPanic = true ↔ (b.object o).isErr = true)) ∧
    (∀ (id : PropId) (o sh : Idx), (b.cBindState id o = .ok sh ↔ b.bindState id o = .ok sh) ∧
      ((b.cBindState id o).isPanic = true ↔ (b.bindState id o).isErr = true)) ∧
    (∀ (id : PropId) (o ch : Idx), (b.cBindChannel id o = .ok ch ↔ b.bindChannel id o = .ok ch) ∧
      ((b.cBindChannel id o).isPanic = true ↔ (b.bindChannel id o).isErr = true)) ∧
    (∀ (p : PrimType) (h : Idx) (v : p.Carrier), (b.cState p h = .ok v ↔ b.state (.prim p) h = .ok v) ∧
      ((b.cState p h).isPanic = true ↔ (b.state (.prim p) h).isErr = true)) ∧
    (∀ (p : PrimType) (h : Idx) (v : (PropType.prim p).Chan), (b.cChannel p h = .ok v ↔ b.channel (.prim p) h = .ok v) ∧
      ((b.cChannel p h).isPanic = true ↔ (b.channel (.prim p) h).isErr = true)) ∧
    (∀ (p : PrimType) (h : Idx) (v : p.Carrier),
      ((∃ old : p.Carrier, b.state (.prim p) h = .ok old) → ∃ b' : Baseline, b.cStateSet p h v = (b', .ok ()) ∧
        b.stateWrite (.prim p) h v = (b', .ok ()) ∧ b'.cState p h = .ok v) ∧
      ((b.state (.prim p) h).isErr = true → (b.cStateSet p h v).2.isPanic = true ∧ (b.cStateSet p h v).1 = b)) ∧
    (∀ (p : PrimType) (h : Idx) (v : (PropType.prim p).Chan),
      ((∃ old : (PropType.prim p).Chan, b.channel (.prim p) h = .ok old) →
        ∃ b' : Baseline, b.cChannelSet p h v = (b', .ok ()) ∧
          b.channelWrite (.prim p) h v = (b', .ok ()) ∧ b'.cChannel p h = .ok v) ∧
      ((b.channel (.prim p) h).isErr = true → (b.cChannelSet p h v).2.isPanic = true ∧ (b.cChannelSet p h v).1 = b)) := by
  refine ⟨?_, ?_, ?_, ?_, ?_, ?_, ?_, ?_⟩
  · intro h cd
    unfold Baseline.cContractData Baseline.contractData
    cases b.contracts.get h <;> simp [Baseline.expect, Outcome.isErr, Outcome.isPanic]
  · intro o ob
    unfold Baseline.cObject Baseline.object
    cases b.objects.get o <;> simp [Baseline.expect, Outcome.isErr, Outcome.isPanic]
  · intro id o sh
    unfold Baseline.cBindState Baseline.bindState
    cases b.objects.get o with
    | none => simp [Baseline.expect, Outcome.isErr, Outcome.isPanic]
    | some ob =>
      simp only [ObjectD.bindState, bindIdx]
      split
      · simp [Baseline.expect, Outcome.isErr, Outcome.isPanic]
      · split <;> simp [Baseline.expect, Outcome.isErr, Outcome.isPanic]
  · intro id o sh
    unfold Baseline.cBindChannel Baseline.bindChannel
    cases b.objects.get o with
    | none => simp [Baseline.expect, Outcome.isErr, Outcome.isPanic]
    | some ob =>
      simp only [ObjectD.bindChannel, bindIdx]
      split
      · simp [Baseline.expect, Outcome.isErr, Outcome.isPanic]
      · split <;> simp [Baseline.expect, Outcome.isErr, Outcome.isPanic]
  · intro p h v
    unfold Baseline.cState Baseline.state
    cases b.states.get (.prim p) h <;> simp [Baseline.expect, Outcome.isErr, Outcome.isPanic]
  · intro p h v
    unfold Baseline.cChannel Baseline.channel
    cases b.channels.get (.prim p) h <;> simp [Baseline.expect, Outcome.isErr, Outcome.isPanic]
  · intro p h v
    obtain ⟨c1, c2⟩ := C13_state_write b (.prim p) h v
    constructor
    · rintro ⟨old, ho⟩
      obtain ⟨b', e1, e2, -⟩ := c1 old ho
      refine ⟨b', by simp only [Baseline.cStateSet, e1]; rfl, e1, by rw [Baseline.cState, e2]; rfl⟩
    · intro he
      obtain ⟨e1, e2⟩ := c2 he
      unfold Baseline.cStateSet
      rcases hw : b.stateWrite (.prim p) h v with ⟨b', r⟩
      rw [hw] at e1 e2
      cases r <;> first | exact ⟨rfl, e2⟩ | cases e1
  · intro p h v
    obtain ⟨c1, c2⟩ := C13_channel_write b (.prim p) h v
    constructor
    · rintro ⟨old, ho⟩
      obtain ⟨b', e1, e2, -⟩ := c1 old ho
      refine ⟨b', by simp only [Baseline.cChannelSet, e1]; rfl, e1, by rw [Baseline.cChannel, e2]; rfl⟩
    · intro he
      obtain ⟨e1, e2⟩ := c2 he
      unfold Baseline.cChannelSet
      rcases hw : b.channelWrite (.prim p) h v with ⟨b', r⟩
      rw [hw] at e1 e2
      cases r <;> first | exact ⟨rfl, e2⟩ | cases e1

example : demoB.cState .u8 ⟨0, 0⟩ = .ok 7#8 ∧ (demoB.cState .u8 ⟨5, 0⟩).isPanic = true ∧
    demoB.cBindState ⟨1, h0⟩ h1 = .ok ⟨1, 0⟩ ∧ (demoB.cBindState ⟨1, h1⟩ h1).isPanic = true := by decide +kernel

end Verif.Props
