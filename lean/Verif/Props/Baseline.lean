import Verif.Proofs.BaselineApi
/-!
# C06-C20, C22, C23: baselines

`History kind evs b` says that `b` is the baseline after the API calls recorded in `evs` (with their
results, including `Err` and panics) on a fresh baseline.
-/
namespace Verif.Props
open Verif

theorem runOps_trace (b : Baseline) (ops : List BOp) : Trace b (b.runOps ops).1 (b.runOps ops).2 := by
  induction ops generalizing b with
  | nil => exact .nil b
  | cons op ops ih => exact .cons b op _ _ (ih _)

/-! ## Demonstration data used by the examples -/

/-- A contract with two states and a channel. -/
def demoC : ContractTy :=
  ⟨⟨"demo", 1, 0, 0⟩, [⟨"hp", .prim .u8⟩, ⟨"score", .prim .u16⟩], [⟨"x", .prim .f32⟩]⟩
/-- A contract without fields. -/
def emptyC : ContractTy := ⟨⟨"empty", 1, 0, 0⟩, [], []⟩

def h0 : Idx := ⟨0, 0⟩
def h1 : Idx := ⟨1, 0⟩

/-- Two contracts, two objects with fields, one without. -/
def demoBOps : List BOp :=
  [.register demoC, .register emptyC,
   .create demoC h0 [.primitive (.u8 7), .primitive (.u16 300)] [⟨.prim .f32, []⟩],
   .create demoC h0 [.primitive (.u8 8), .primitive (.u16 301)] [⟨.prim .f32, [⟨5, 6⟩]⟩],
   .create emptyC h1 [] []]

/-- The baseline after `demoBOps`. -/
def demoB : Baseline := ((Baseline.new .main).runOps demoBOps).2
def demoEvs : List Event := ((Baseline.new .main).runOps demoBOps).1

theorem demo_history : History .main demoEvs demoB := runOps_trace _ _


/-! ## C06, C07 -/

/-- **C06.** In every reachable baseline registered contracts have distinct ids; `register_contract`
returns `Err`, changing nothing, exactly when the id is taken, and otherwise returns a fresh handle
that resolves to an empty contract with that id, leaving all other contracts alone. -/
theorem C06_one_contract_per_id {kind : Kind} {evs : List Event} {b : Baseline}
    (hist : History kind evs b) :
    (∀ (k1 k2 : Idx) (c1 c2 : ContractData), b.contractData k1 = .ok c1 → b.contractData k2 = .ok c2 →
      c1.id = c2.id → k1 = k2) ∧
    ∀ C : ContractTy,
      ((∃ k cd, b.contractData k = .ok cd ∧ cd.id = C.id) →
        (b.registerContract C).2.isErr = true ∧ (b.registerContract C).1 = b) ∧
      ((¬ ∃ k cd, b.contractData k = .ok cd ∧ cd.id = C.id) →
        ∃ b' k, b.registerContract C = (b', .ok k) ∧ (b.contractData k).isErr = true ∧
          b'.contractData k = .ok ⟨C.id, []⟩ ∧
          (∀ k' : Idx, k' ≠ k → b'.contractData k' = b.contractData k') ∧
          b'.objects = b.objects ∧ b'.states = b.states ∧ b'.channels = b.channels ∧ b'.kind = b.kind) := by
  have hb := history_binv hist
  constructor
  · intro k1 k2 c1 c2 g1 g2 e
    exact hb.c.idUnique k1 k2 c1 c2 (contractData_ok.1 g1) (contractData_ok.1 g2) e
  intro C
  rcases registerContract_cases b C with ⟨⟨k, cd, h1, h2⟩, hr⟩ | ⟨hn, hr⟩
  · refine ⟨fun _ => by rw [hr]; exact ⟨rfl, rfl⟩, fun h => absurd ⟨k, cd, contractData_ok.2 h1, h2⟩ h⟩
  · constructor
    · rintro ⟨k, cd, h1, h2⟩
      exact absurd h2 (hn k cd (contractData_ok.1 h1))
    · intro _
      refine ⟨_, _, hr, contractData_err.2 (Arena.insert_fresh hb.c.inv _),
        contractData_ok.2 (Arena.get_insert_self hb.c.inv _),
        fun k' hk => contractData_congr (Arena.get_insert_ne hb.c.inv _ hk), rfl, rfl, rfl, rfl⟩

example : (demoB.registerContract demoC).2.isErr = true ∧
    (demoB.registerContract ⟨⟨"demo", 1, 0, 1⟩, [], []⟩).2 = .ok ⟨2, 0⟩ := by decide +kernel

/-- **C07.** A call other than `object_remove` that returns `Err` leaves the baseline exactly as it
was (for `object_remove` see C16). -/
theorem C07_errors_change_nothing (b : Baseline) (op : BOp)
    (hop : ∀ (C : ContractTy) (o : Idx), op ≠ .remove C o) (herr : (b.step op).2.isErr = true) :
    (b.step op).1 = b := by
  have hmap : ∀ {α : Type} (r : Outcome α) (f : α → Option Idx), (r.map f).isErr = r.isErr := by
    intro α r f; cases r <;> rfl
  cases op with
  | register C =>
    rcases registerContract_cases b C with ⟨_, hr⟩ | ⟨hn, hr⟩
    · simp only [Baseline.step, hr]
    · simp [Baseline.step, hr, Outcome.map, Outcome.bind, Outcome.isErr] at herr
  | unregister C k ord =>
    have herr : (b.unregisterContract C k ord).2.isErr = true := by
      simpa only [Baseline.step, hmap] using herr
    show (b.unregisterContract C k ord).1 = b
    rcases unregister_cases b C k ord with ⟨h1, _⟩ | ⟨cd, cons, done, _, _, _, _, ⟨_, h5⟩ | ⟨_, h5⟩⟩
    · exact h1
    · rw [h5] at herr; cases herr
    · cases hr : (b.unregisterContract C k ord).2 <;> rw [hr] at herr h5 <;> simp_all [Outcome.isErr, Outcome.isPanic]
  | create C k ss cs =>
    have herr : (b.objectCreate C k ss cs).2.isErr = true := by
      simpa only [Baseline.step, hmap] using herr
    show (b.objectCreate C k ss cs).1 = b
    rcases objectCreate_cases b C k ss cs with ⟨⟨cd, hc⟩, hs, hcs⟩ | ⟨h1, h2, _⟩
    · obtain ⟨cons, hm, hr⟩ := objectCreate_ok hc hs hcs
      rw [hr] at herr; cases herr
    · exact h1
  | remove C o => exact absurd rfl (hop C o)
  | writeState t k v =>
    simp only [Baseline.step, Baseline.stateWrite] at herr ⊢
    split at herr
    · rfl
    · cases herr
  | writeChannel t k v =>
    simp only [Baseline.step, Baseline.channelWrite] at herr ⊢
    split at herr
    · rfl
    · cases herr
  | setWarp o w =>
    simp only [Baseline.step, Baseline.setWarp] at herr ⊢
    split at herr
    · rfl
    · cases herr

-- rejected calls on a populated baseline: wrong types, taken id, wrong contract type, dead handle
example : (demoB.step (.create demoC h0 [.primitive (.u8 1)] [])).2.isErr = true ∧
    (demoB.step (.register demoC)).2.isErr = true ∧
    (demoB.step (.unregister emptyC h0 .id)).2.isErr = true ∧
    (demoB.step (.writeState (.prim .u8) ⟨9, 0⟩ 1#8)).2.isErr = true := by decide +kernel

/-! ## C08 - C10: creation -/

/-- **C08.** `object_create` succeeds exactly on a registered handle with states and channels of
exactly the declared types in order; in every other case it returns `Err`; it never panics. -/
theorem C08_create_accepts_exactly (b : Baseline) (C : ContractTy) (h : Idx) (ss : List DynProp)
    (cs : List DynChannel) :
    ((∃ o, (b.objectCreate C h ss cs).2 = .ok o) ↔
      (b.contractData h).isOk = true ∧ ss.map DynProp.propType = C.states.map Field.ty ∧
        cs.map Sigma.fst = C.channels.map Field.ty) ∧
    (b.objectCreate C h ss cs).2.isPanic = false := by
  have hreg : (b.contractData h).isOk = true ↔ ∃ cd, b.contracts.get h = some cd := by
    unfold Baseline.contractData; cases b.contracts.get h <;> simp [Outcome.isOk]
  rw [hreg]
  rcases objectCreate_cases b C h ss cs with ⟨⟨cd, hc⟩, hs, hcs⟩ | ⟨h1, h2, h3⟩
  · obtain ⟨cons, hm, hr⟩ := objectCreate_ok hc hs hcs
    rw [hr]
    exact ⟨⟨fun _ => ⟨⟨cd, hc⟩, hs, hcs⟩, fun _ => ⟨_, rfl⟩⟩, rfl⟩
  · cases hr : (b.objectCreate C h ss cs).2 with
    | ok o => rw [hr] at h2; cases h2
    | err m => exact ⟨⟨fun ⟨o, ho⟩ => by simp at ho, fun hx => absurd hx h3⟩, rfl⟩
    | panic m => rw [hr] at h2; cases h2

example : (demoB.objectCreate demoC h0 [.primitive (.u8 1), .primitive (.u16 2)] [⟨.prim .f32, []⟩]).2 =
      .ok ⟨3, 0⟩ ∧
    (demoB.objectCreate demoC h0 [.primitive (.u16 2), .primitive (.u8 1)] [⟨.prim .f32, []⟩]).2.isErr ∧
    (demoB.objectCreate demoC h0 [.primitive (.u8 1), .primitive (.u16 2)] []).2.isErr ∧
    (demoB.objectCreate demoC ⟨7, 0⟩ [.primitive (.u8 1), .primitive (.u16 2)] [⟨.prim .f32, []⟩]).2.isErr := by
  decide +kernel

/-- **C09.** A freshly created object reads back the supplied values: binding the `i`-th declared id
and reading it yields the `i`-th argument, at its declared type, for states and channels; the
object's contract is the given one and its warp is the default one. -/
theorem C09_create_reads_back {kind : Kind} {evs : List Event} {b b' : Baseline}
    (hist : History kind evs b) {C : ContractTy} {h o : Idx} {ss : List DynProp} {cs : List DynChannel}
    (hcr : b.objectCreate C h ss cs = (b', .ok o)) :
    (∃ ob, b'.object o = .ok ob ∧ ob.contract = h ∧ ob.warp = TimeWarp.default) ∧
    ss.length = C.states.length ∧ cs.length = C.channels.length ∧
    (∀ (i : Nat) (d : DynProp), ss[i]? = some d → ∃ id sh, C.stateId h i = some id ∧ id.ty = d.typed.1 ∧
      b'.bindState id.id o = .ok sh ∧ b'.state d.typed.1 sh = .ok d.typed.2) ∧
    (∀ (i : Nat) (c : DynChannel), cs[i]? = some c → ∃ id ch, C.chanId h i = some id ∧ id.ty = c.1 ∧
      b'.bindChannel id.id o = .ok ch ∧ b'.channel c.1 ch = .ok c.2) := by
  have hb := history_binv hist
  rcases objectCreate_cases b C h ss cs with ⟨⟨cd, hc⟩, hs, hcs⟩ | ⟨h1, h2, h3⟩
  · obtain ⟨cons, hm, hr⟩ := objectCreate_ok hc hs hcs
    rw [hr] at hcr
    cases hcr
    have hself := Arena.get_insert_self hb.o.inv (createdObj b h ss cs)
    have hS := createAll_created hb.o.sInv (ss.map DynProp.typed)
    have hC := createAll_created hb.o.cInv cs
    have hls : ss.length = C.states.length := by simpa [ContractTy.stateTypes] using congrArg List.length hs
    have hlc : cs.length = C.channels.length := by simpa [ContractTy.channelTypes] using congrArg List.length hcs
    refine ⟨⟨_, object_ok.2 hself, rfl, rfl⟩, hls, hlc, ?_, ?_⟩
    · intro i d hd
      have hty : C.stateTypes[i]? = some d.typed.1 := by
        rw [← hs, List.getElem?_map, hd]; simp [DynProp.typed_fst]
      have hp : (ss.map DynProp.typed)[i]? = some d.typed := by rw [List.getElem?_map, hd]; rfl
      have hi : i < (Baseline.createAll b.states (ss.map DynProp.typed)).2.length := by
        rw [hS.len]; exact (List.getElem?_eq_some_iff.1 hp).1
      refine ⟨⟨d.typed.1, ⟨i, h⟩⟩, (Baseline.createAll b.states (ss.map DynProp.typed)).2[i], ?_, rfl, ?_, ?_⟩
      · simp [ContractTy.stateId, hty, DynId.new]
      · rw [bindState_of_get hself]
        exact bindIdx_ok.2 ⟨rfl, List.getElem?_eq_getElem hi⟩
      · exact state_ok.2 (hS.val i d.typed _ hp (List.getElem?_eq_getElem hi))
    · intro i c hd
      have hty : C.channelTypes[i]? = some c.1 := by
        rw [← hcs, List.getElem?_map, hd]; rfl
      have hi : i < (Baseline.createAll b.channels cs).2.length := by
        rw [hC.len]; exact (List.getElem?_eq_some_iff.1 hd).1
      refine ⟨⟨c.1, ⟨i, h⟩⟩, (Baseline.createAll b.channels cs).2[i], ?_, rfl, ?_, ?_⟩
      · simp [ContractTy.chanId, hty, DynId.new]
      · rw [bindChannel_of_get hself]
        exact bindIdx_ok.2 ⟨rfl, List.getElem?_eq_getElem hi⟩
      · exact channel_ok.2 (hC.val i c _ hd (List.getElem?_eq_getElem hi))
  · rw [hcr] at h2; cases h2

example : (demoB.objectCreate demoC h0 [.primitive (.u8 1), .primitive (.u16 2)] [⟨.prim .f32, []⟩]).2 =
    .ok ⟨3, 0⟩ := by decide +kernel

/-- **C10.** A successful `object_create` changes no other object, no value behind an existing state
or channel handle, no other contract; the owning contract gains exactly the new handle. -/
theorem C10_create_frame {kind : Kind} {evs : List Event} {b b' : Baseline}
    (hist : History kind evs b) {C : ContractTy} {h o : Idx} {ss : List DynProp} {cs : List DynChannel}
    (hcr : b.objectCreate C h ss cs = (b', .ok o)) :
    (b.object o).isErr = true ∧
    (∀ o' : Idx, o' ≠ o → b'.object o' = b.object o') ∧
    (∀ (t : PropType) (sh : Idx) (v : t.Carrier), b.state t sh = .ok v → b'.state t sh = .ok v) ∧
    (∀ (t : PropType) (ch : Idx) (v : t.Chan), b.channel t ch = .ok v → b'.channel t ch = .ok v) ∧
    (∀ h' : Idx, h' ≠ h → b'.contractData h' = b.contractData h') ∧
    (∃ cd cd', b.contractData h = .ok cd ∧ b'.contractData h = .ok cd' ∧ cd'.id = cd.id ∧
      o ∉ cd.objects ∧ ∀ x : Idx, x ∈ cd'.objects ↔ x = o ∨ x ∈ cd.objects) ∧
    b'.kind = b.kind := by
  have hb := history_binv hist
  rcases objectCreate_cases b C h ss cs with ⟨⟨cd, hc⟩, hs, hcs⟩ | ⟨h1, h2, h3⟩
  · obtain ⟨cons, hm, hr⟩ := objectCreate_ok hc hs hcs
    rw [hr] at hcr
    cases hcr
    have hS := createAll_created hb.o.sInv (ss.map DynProp.typed)
    have hC := createAll_created hb.o.cInv cs
    have hfr := Arena.insert_fresh hb.o.inv (createdObj b h ss cs)
    refine ⟨object_err.2 hfr, fun o' ho => object_congr (Arena.get_insert_ne hb.o.inv _ ho),
      fun t sh v hv => state_ok.2 (hS.frame t sh v (state_ok.1 hv)),
      fun t ch v hv => channel_ok.2 (hC.frame t ch v (channel_ok.1 hv)),
      fun h' hne => contractData_congr (by rw [Arena.get_modify hm, if_neg hne]), ?_, rfl⟩
    refine ⟨cd, addObj (b.objects.insert (createdObj b h ss cs)).2 cd, contractData_ok.2 hc,
      contractData_ok.2 ?_, rfl, ?_, fun x => List.mem_insert_iff⟩
    · show cons.get h = _
      rw [Arena.get_modify hm, if_pos rfl, hc]; rfl
    · intro ho
      have hs := Arena.insert_spec hb.o.inv (createdObj b h ss cs)
      rcases hb.c.listed h _ cd hc ho with ⟨ob, h1, _⟩ | hd
      · rw [hfr] at h1; cases h1
      · have := hd.2; have := hs.gen; omega
  · rw [hcr] at h2; cases h2

/-! ## C11 - C14: fields -/

/-- **C11.** At every point of every history, every field of every live object can be bound with the
ids of the contract instance that created it, and reads a value of the declared type. -/
theorem C11_every_field_reads {kind : Kind} {evs : List Event} {b : Baseline}
    (hist : History kind evs b) {C : ContractTy} {h o : Idx} {ss : List DynProp} {cs : List DynChannel}
    (hcr : (BOp.create C h ss cs, Outcome.ok (some o)) ∈ evs) (hlive : (b.object o).isOk = true) :
    (∀ (i : Nat) (id : DynId), C.stateId h i = some id →
      ∃ (sh : Idx) (v : id.ty.Carrier), b.bindState id.id o = .ok sh ∧ b.state id.ty sh = .ok v) ∧
    (∀ (i : Nat) (id : DynId), C.chanId h i = some id →
      ∃ (ch : Idx) (v : id.ty.Chan), b.bindChannel id.id o = .ok ch ∧ b.channel id.ty ch = .ok v) := by
  have hb := history_binv hist
  obtain ⟨ob, hob⟩ : ∃ ob, b.objects.get o = some ob := by
    unfold Baseline.object at hlive
    cases hx : b.objects.get o with
    | none => rw [hx] at hlive; cases hlive
    | some ob => exact ⟨ob, rfl⟩
  obtain ⟨h1, h2, h3⟩ := hb.o.live ⟨ss, cs, hcr⟩ hob
  constructor
  · intro i id hid
    obtain ⟨ht, hi⟩ := stateId_some hid
    have hlt : i < ob.states.length := by rw [h2.1]; exact (List.getElem?_eq_some_iff.1 ht).1
    obtain ⟨v, hv⟩ := h2.2 i id.ty _ ht (List.getElem?_eq_getElem hlt)
    refine ⟨ob.states[i], v, ?_, state_ok.2 hv⟩
    rw [bindState_of_get hob, hi]
    exact bindIdx_ok.2 ⟨h1.symm, List.getElem?_eq_getElem hlt⟩
  · intro i id hid
    obtain ⟨ht, hi⟩ := chanId_some hid
    have hlt : i < ob.channels.length := by rw [h3.1]; exact (List.getElem?_eq_some_iff.1 ht).1
    obtain ⟨v, hv⟩ := h3.2 i id.ty _ ht (List.getElem?_eq_getElem hlt)
    refine ⟨ob.channels[i], v, ?_, channel_ok.2 hv⟩
    rw [bindChannel_of_get hob, hi]
    exact bindIdx_ok.2 ⟨h1.symm, List.getElem?_eq_getElem hlt⟩

/-- The second creation of the demo history. -/
theorem demo_created : (BOp.create demoC h0 [.primitive (.u8 8), .primitive (.u16 301)]
    [⟨.prim .f32, [⟨5, 6⟩]⟩], Outcome.ok (some h1)) ∈ demoEvs := by
  have : (demoEvs)[3]? = some (BOp.create demoC h0 [.primitive (.u8 8), .primitive (.u16 301)]
    [⟨.prim .f32, [⟨5, 6⟩]⟩], Outcome.ok (some h1)) := rfl
  exact List.mem_of_getElem? this

example : (demoB.object h1).isOk = true ∧ (demoC.stateId h0 1).isSome ∧ (demoC.chanId h0 0).isSome ∧
    demoB.state (.prim .u16) ⟨1, 0⟩ = .ok 301#16 := by decide +kernel

/-- **C12.** Different (object, field) pairs of live objects never bind to the same state (or the same
channel), so writing one is never observed through another. -/
theorem C12_fields_never_alias {kind : Kind} {evs : List Event} {b : Baseline}
    (hist : History kind evs b) {C1 C2 : ContractTy} {k1 k2 o1 o2 : Idx} {ss1 ss2 : List DynProp}
    {cs1 cs2 : List DynChannel}
    (hc1 : (BOp.create C1 k1 ss1 cs1, Outcome.ok (some o1)) ∈ evs)
    (hc2 : (BOp.create C2 k2 ss2 cs2, Outcome.ok (some o2)) ∈ evs) :
    (∀ (i1 i2 : Nat) (d1 d2 : DynId) (s1 s2 : Idx), (o1, i1) ≠ (o2, i2) →
      C1.stateId k1 i1 = some d1 → C2.stateId k2 i2 = some d2 →
      b.bindState d1.id o1 = .ok s1 → b.bindState d2.id o2 = .ok s2 →
      (d1.ty, s1) ≠ (d2.ty, s2) ∧
      ∀ v : d1.ty.Carrier, (b.stateWrite d1.ty s1 v).1.state d2.ty s2 = b.state d2.ty s2) ∧
    (∀ (i1 i2 : Nat) (d1 d2 : DynId) (s1 s2 : Idx), (o1, i1) ≠ (o2, i2) →
      C1.chanId k1 i1 = some d1 → C2.chanId k2 i2 = some d2 →
      b.bindChannel d1.id o1 = .ok s1 → b.bindChannel d2.id o2 = .ok s2 →
      (d1.ty, s1) ≠ (d2.ty, s2) ∧
      ∀ v : d1.ty.Chan, (b.channelWrite d1.ty s1 v).1.channel d2.ty s2 = b.channel d2.ty s2) := by
  have hb := history_binv hist
  constructor
  · intro i1 i2 d1 d2 s1 s2 hne hd1 hd2 hb1 hb2
    obtain ⟨t1, e1⟩ := stateId_some hd1
    obtain ⟨t2, e2⟩ := stateId_some hd2
    have own : ∀ {C : ContractTy} {k o : Idx} {i : Nat} {d : DynId} {s : Idx} (ss cs) (_ : (BOp.create C k ss cs, Outcome.ok (some o)) ∈ evs)
        (_ : C.stateTypes[i]? = some d.ty) (_ : d.id = ⟨i, k⟩) (_ : b.bindState d.id o = .ok s),
        Owns evs b.objects ContractTy.stateTypes ObjectD.states o i d.ty s := by
      intro C k o i d s ss cs hm ht he hbd
      cases hg : b.objects.get o with
      | none => simp [Baseline.bindState, hg] at hbd
      | some ob =>
        rw [bindState_of_get hg, he] at hbd
        exact ⟨C, k, ob, ⟨ss, cs, hm⟩, hg, ht, (bindIdx_ok.1 hbd).2⟩
    have key : (d1.ty, s1) ≠ (d2.ty, s2) := by
      intro e
      obtain ⟨et, es⟩ := Prod.mk.inj e
      have w1 := own ss1 cs1 hc1 t1 e1 hb1
      have w2 := own ss2 cs2 hc2 t2 e2 hb2
      rw [← et, ← es] at w2
      obtain ⟨a1, a2⟩ := hb.o.aliasS _ _ _ _ _ _ w1 w2
      exact hne (by rw [a1, a2])
    refine ⟨key, fun v => ?_⟩
    unfold Baseline.stateWrite
    cases hw : b.states.write d1.ty s1 v with
    | none => rfl
    | some s =>
      exact state_congr (Store.get_write_ne hw (fun ⟨x, y⟩ => key (by rw [x, y])))
  · intro i1 i2 d1 d2 s1 s2 hne hd1 hd2 hb1 hb2
    obtain ⟨t1, e1⟩ := chanId_some hd1
    obtain ⟨t2, e2⟩ := chanId_some hd2
    have own : ∀ {C : ContractTy} {k o : Idx} {i : Nat} {d : DynId} {s : Idx} (ss cs) (_ : (BOp.create C k ss cs, Outcome.ok (some o)) ∈ evs)
        (_ : C.channelTypes[i]? = some d.ty) (_ : d.id = ⟨i, k⟩) (_ : b.bindChannel d.id o = .ok s),
        Owns evs b.objects ContractTy.channelTypes ObjectD.channels o i d.ty s := by
      intro C k o i d s ss cs hm ht he hbd
      cases hg : b.objects.get o with
      | none => simp [Baseline.bindChannel, hg] at hbd
      | some ob =>
        rw [bindChannel_of_get hg, he] at hbd
        exact ⟨C, k, ob, ⟨ss, cs, hm⟩, hg, ht, (bindIdx_ok.1 hbd).2⟩
    have key : (d1.ty, s1) ≠ (d2.ty, s2) := by
      intro e
      obtain ⟨et, es⟩ := Prod.mk.inj e
      have w1 := own ss1 cs1 hc1 t1 e1 hb1
      have w2 := own ss2 cs2 hc2 t2 e2 hb2
      rw [← et, ← es] at w2
      obtain ⟨a1, a2⟩ := hb.o.aliasC _ _ _ _ _ _ w1 w2
      exact hne (by rw [a1, a2])
    refine ⟨key, fun v => ?_⟩
    unfold Baseline.channelWrite
    cases hw : b.channels.write d1.ty s1 v with
    | none => rfl
    | some s =>
      exact channel_congr (Store.get_write_ne hw (fun ⟨x, y⟩ => key (by rw [x, y])))

example : demoB.bindState ⟨0, h0⟩ h0 = .ok ⟨0, 0⟩ ∧ demoB.bindState ⟨0, h0⟩ h1 = .ok ⟨1, 0⟩ ∧
    demoB.bindState ⟨1, h0⟩ h0 = .ok ⟨0, 0⟩ ∧
    (demoB.stateWrite (.prim .u8) ⟨0, 0⟩ 9#8).1.state (.prim .u8) ⟨1, 0⟩ = .ok 8#8 := by decide +kernel

/-- **C13.** Writing through a live state handle makes it read the new value and changes no other
state of any type, no channel, object or contract; through a dead handle it is `Err` without effect. -/
theorem C13_state_write (b : Baseline) (t : PropType) (sh : Idx) (v : t.Carrier) :
    (∀ old : t.Carrier, b.state t sh = .ok old →
      ∃ b', b.stateWrite t sh v = (b', .ok ()) ∧ b'.state t sh = .ok v ∧
        (∀ (t' : PropType) (sh' : Idx), (t', sh') ≠ (t, sh) → b'.state t' sh' = b.state t' sh') ∧
        (∀ (t' : PropType) (ch : Idx), b'.channel t' ch = b.channel t' ch) ∧
        (∀ o : Idx, b'.object o = b.object o) ∧ (∀ h : Idx, b'.contractData h = b.contractData h) ∧
        b'.kind = b.kind) ∧
    ((b.state t sh).isErr = true →
      (b.stateWrite t sh v).2.isErr = true ∧ (b.stateWrite t sh v).1 = b) := by
  constructor
  · intro old hold
    cases hw : b.states.write t sh v with
    | none => rw [Store.write_eq_none, ] at hw; rw [state_ok, hw] at hold; cases hold
    | some s =>
      refine ⟨{ b with states := s }, by simp [Baseline.stateWrite, hw], state_ok.2 (Store.get_write_self hw),
        fun t' sh' hne => state_congr (Store.get_write_ne hw (fun ⟨x, y⟩ => hne (by rw [x, y]))),
        fun _ _ => rfl, fun _ => rfl, fun _ => rfl, rfl⟩
  · intro herr
    have hw : b.states.write t sh v = none := Store.write_eq_none.2 (state_err.1 herr)
    simp [Baseline.stateWrite, hw, Outcome.isErr]

/-- **C13 (channels).** The same for writes through a channel handle. -/
theorem C13_channel_write (b : Baseline) (t : PropType) (ch : Idx) (v : t.Chan) :
    (∀ old : t.Chan, b.channel t ch = .ok old →
      ∃ b', b.channelWrite t ch v = (b', .ok ()) ∧ b'.channel t ch = .ok v ∧
        (∀ (t' : PropType) (ch' : Idx), (t', ch') ≠ (t, ch) → b'.channel t' ch' = b.channel t' ch') ∧
        (∀ (t' : PropType) (sh : Idx), b'.state t' sh = b.state t' sh) ∧
        (∀ o : Idx, b'.object o = b.object o) ∧ (∀ h : Idx, b'.contractData h = b.contractData h) ∧
        b'.kind = b.kind) ∧
    ((b.channel t ch).isErr = true →
      (b.channelWrite t ch v).2.isErr = true ∧ (b.channelWrite t ch v).1 = b) := by
  constructor
  · intro old hold
    cases hw : b.channels.write t ch v with
    | none => rw [Store.write_eq_none, ] at hw; rw [channel_ok, hw] at hold; cases hold
    | some s =>
      refine ⟨{ b with channels := s }, by simp [Baseline.channelWrite, hw],
        channel_ok.2 (Store.get_write_self hw),
        fun t' sh' hne => channel_congr (Store.get_write_ne hw (fun ⟨x, y⟩ => hne (by rw [x, y]))),
        fun _ _ => rfl, fun _ => rfl, fun _ => rfl, rfl⟩
  · intro herr
    have hw : b.channels.write t ch v = none := Store.write_eq_none.2 (channel_err.1 herr)
    simp [Baseline.channelWrite, hw, Outcome.isErr]

example : demoB.state (.prim .u8) ⟨0, 0⟩ = .ok 7#8 ∧ (demoB.state (.prim .u8) ⟨5, 0⟩).isErr = true ∧
    (demoB.channel (.prim .f32) ⟨1, 0⟩).isOk = true := by decide +kernel

/-- **C14.** Ids of another contract are rejected by bind (`Err`) and by the asserting accessors
(panic); with the right contract both succeed, with the same handle, exactly below the field count. -/
theorem C14_foreign_ids (b : Baseline) (o : Idx) (ob : ObjectD) (hob : b.object o = .ok ob) (id : PropId) :
    (id.contract ≠ ob.contract →
      (b.bindState id o).isErr = true ∧ (b.bindChannel id o).isErr = true ∧
      (ob.state id).isPanic = true ∧ (ob.channel id).isPanic = true) ∧
    (id.contract = ob.contract →
      (id.idx < ob.states.length → ∃ sh, ob.states[id.idx]? = some sh ∧ b.bindState id o = .ok sh ∧
        ob.state id = .ok sh) ∧
      (ob.states.length ≤ id.idx → (b.bindState id o).isErr = true ∧ (ob.state id).isPanic = true) ∧
      (id.idx < ob.channels.length → ∃ ch, ob.channels[id.idx]? = some ch ∧ b.bindChannel id o = .ok ch ∧
        ob.channel id = .ok ch) ∧
      (ob.channels.length ≤ id.idx → (b.bindChannel id o).isErr = true ∧ (ob.channel id).isPanic = true)) := by
  have hg := object_ok.1 hob
  rw [bindState_of_get hg, bindChannel_of_get hg]
  unfold ObjectD.bindState ObjectD.bindChannel ObjectD.state ObjectD.channel bindIdx assertIdx
  constructor
  · intro hne; simp [hne, Outcome.isErr, Outcome.isPanic]
  · intro he
    simp only [he, ne_eq, not_true, if_false]
    refine ⟨?_, ?_, ?_, ?_⟩
    · intro hlt; simp [List.getElem?_eq_getElem hlt]
    · intro hge; simp [List.getElem?_eq_none hge, Outcome.isErr, Outcome.isPanic]
    · intro hlt; simp [List.getElem?_eq_getElem hlt]
    · intro hge; simp [List.getElem?_eq_none hge, Outcome.isErr, Outcome.isPanic]

/-- **C14**, the remaining case: an id of any contract, bound to a handle that names no object, is an `Err`. -/
theorem C14_no_object (b : Baseline) (o : Idx) (hob : (b.object o).isErr = true) (id : PropId) :
    (b.bindState id o).isErr = true ∧ (b.bindChannel id o).isErr = true := by
  have hg := object_err.1 hob
  simp [Baseline.bindState, Baseline.bindChannel, hg, Outcome.isErr]

example : (demoB.object ⟨77, 0⟩).isErr = true := by decide +kernel

example : (demoB.bindState ⟨0, h1⟩ h0).isErr = true ∧ (demoB.bindState ⟨2, h0⟩ h0).isErr = true ∧
    demoB.bindState ⟨1, h0⟩ h0 = .ok ⟨0, 0⟩ := by decide +kernel

/-! ## C15, C16: removal -/

/-- **C15.** After `object_remove` on a live object, whatever it returned, the handle never resolves or
binds again in any later history; likewise a successfully unregistered contract handle. -/
theorem C15_removed_handles_stay_dead {kind : Kind} {evs : List Event} {b : Baseline}
    (hist : History kind evs b) :
    (∀ (C : ContractTy) (o : Idx) (later : List Event) (b' : Baseline), (b.object o).isOk = true →
      Trace (b.objectRemove C o).1 later b' →
      (b'.object o).isErr = true ∧ (∀ id : PropId, (b'.bindState id o).isErr = true ∧
        (b'.bindChannel id o).isErr = true) ∧ ∀ C' : ContractTy, (b'.objectRemove C' o).2.isErr = true) ∧
    (∀ (C : ContractTy) (h : Idx) (ord : HashOrder) (b1 : Baseline) (later : List Event) (b' : Baseline),
      b.unregisterContract C h ord = (b1, .ok ()) → Trace b1 later b' →
      (b'.contractData h).isErr = true ∧
      ∀ (C' : ContractTy) (ss : List DynProp) (cs : List DynChannel),
        (b'.objectCreate C' h ss cs).2.isErr = true) := by
  have hb := history_binv hist
  constructor
  · intro C o later b' hlive ht
    obtain ⟨ob, hob⟩ : ∃ ob, b.objects.get o = some ob := by
      unfold Baseline.object at hlive
      cases hx : b.objects.get o with
      | none => rw [hx] at hlive; cases hlive
      | some ob => exact ⟨ob, rfl⟩
    have h1 := step_binv hb (.remove C o)
    have hfst : (b.step (.remove C o)).1 = (b.objectRemove C o).1 := rfl
    rw [hfst] at h1
    have hd : Arena.Dead (b.objectRemove C o).1.objects o := by
      rw [objectRemove_fst]; exact removeList_dead_of_live hb.o.inv hob (by simp)
    have hd' := (trace_obj_dead h1 ht hd).1
    refine ⟨object_err.2 hd', fun id => ⟨by simp [Baseline.bindState, hd', Outcome.isErr],
      by simp [Baseline.bindChannel, hd', Outcome.isErr]⟩, fun C' => by rw [objectRemove_none hd']; rfl⟩
  · intro C h ord b1 later b' hu ht
    have h1 := step_binv hb (.unregister C h ord)
    have hfst : (b.step (.unregister C h ord)).1 = (b.unregisterContract C h ord).1 := rfl
    rw [hfst, hu] at h1
    have hd : Arena.Dead b1.contracts h := by
      rcases unregister_cases b C h ord with ⟨_, h2, _⟩ | ⟨cd, cons, done, g, _, hm, _, ⟨_, h5⟩ | ⟨_, h5⟩⟩
      · rw [hu] at h2; cases h2
      · rw [hu] at h5
        cases h5
        have : cons.get h = some (clearObjs cd) := by rw [Arena.get_modify hm, if_pos rfl, g]; rfl
        exact Arena.remove_dead (Arena.modify_inv hb.c.inv hm) this
      · rw [hu] at h5; cases h5
    have hd' := (trace_con_dead h1 ht hd).1
    refine ⟨contractData_err.2 hd', fun C' ss cs => ?_⟩
    rcases objectCreate_cases b' C' h ss cs with ⟨⟨cd, hc⟩, _⟩ | ⟨_, h2, _⟩
    · rw [hd'] at hc; cases hc
    · exact h2

example : (demoB.object h1).isOk = true ∧
    (demoB.unregisterContract emptyC h1 .id).2 = .ok () := by decide +kernel

/-- **C16 is false of the code.** There is a reachable baseline with a live object, created through the
very contract passed to `object_remove`, for which the call returns `Err`, the object is gone, and its
state still resolves (it is leaked).  Cause: baseline.rs:194 removes the object before
baseline.rs:206 tries to bind its fields. -/
theorem C16_negation :
    ∃ (evs : List Event) (b : Baseline) (C : ContractTy) (h o : Idx) (ss : List DynProp)
      (cs : List DynChannel) (sh : Idx),
      History .main evs b ∧ (BOp.create C h ss cs, Outcome.ok (some o)) ∈ evs ∧
      (b.object o).isOk = true ∧ b.bindState ⟨0, h⟩ o = .ok sh ∧
      (b.objectRemove C o).2.isErr = true ∧ ((b.objectRemove C o).1.object o).isErr = true ∧
      (b.objectRemove C o).1.state (.prim .u8) sh = .ok 8#8 := by
  refine ⟨demoEvs, demoB, demoC, h0, h1, _, _, ⟨1, 0⟩, demo_history, demo_created, ?_⟩
  decide +kernel

/-- **C16, partial: what `object_remove` really does.**  On a live object it removes exactly the object:
the handle stops resolving, and every other object, every contract, and *every* state and channel
(including those of the removed object, which leak) is unchanged; it returns `Ok` iff the contract type
declares no field at all, `Err` otherwise.  On a dead handle it is `Err` without effect.
Missing with respect to C16: `Ok` and freeing of the fields, which the code does not do. -/
theorem C16_object_remove_partial (b : Baseline) (C : ContractTy) (o : Idx) :
    ((b.object o).isOk = true →
      ((b.objectRemove C o).1.object o).isErr = true ∧
      (∀ o' : Idx, o' ≠ o → (b.objectRemove C o).1.object o' = b.object o') ∧
      (b.objectRemove C o).1.states = b.states ∧ (b.objectRemove C o).1.channels = b.channels ∧
      (b.objectRemove C o).1.contracts = b.contracts ∧ (b.objectRemove C o).1.kind = b.kind ∧
      (b.objectRemove C o).2.isPanic = false ∧
      ((b.objectRemove C o).2 = .ok () ↔ C.states = [] ∧ C.channels = [])) ∧
    ((b.object o).isErr = true → (b.objectRemove C o).2.isErr = true ∧ (b.objectRemove C o).1 = b) := by
  constructor
  · intro hlive
    obtain ⟨ob, hob⟩ : ∃ ob, b.objects.get o = some ob := by
      unfold Baseline.object at hlive
      cases hx : b.objects.get o with
      | none => rw [hx] at hlive; cases hlive
      | some ob => exact ⟨ob, rfl⟩
    rw [objectRemove_some hob]
    refine ⟨object_err.2 (by simp [Arena.get_remove]), fun o' ho => object_congr (by simp [Arena.get_remove, ho]),
      rfl, rfl, rfl, rfl, ?_, ?_⟩
    · by_cases hn : C.NoFields <;> simp [hn, Outcome.isPanic]
    · by_cases hn : C.NoFields
      · simp [hn]; exact hn
      · simp [hn]; exact fun h1 h2 => hn ⟨h1, h2⟩
  · intro herr
    rw [objectRemove_none (object_err.1 herr)]; exact ⟨rfl, rfl⟩

example : (demoB.objectRemove emptyC ⟨2, 0⟩).2 = .ok () ∧ (demoB.objectRemove demoC h0).2.isErr = true := by
  decide +kernel

/-! ## C17, C18, C19: contracts and their objects -/

/-- **C17 is false of the code**, in both directions: after `object_remove` a dead handle stays listed,
and after a panicking `unregister_contract` a live object is no longer listed by its live contract. -/
theorem C17_negation :
    (∃ (evs : List Event) (b : Baseline) (h o : Idx) (cd : ContractData), History .main evs b ∧
      b.contractData h = .ok cd ∧ o ∈ cd.objects ∧ (b.object o).isErr = true) ∧
    (∃ (evs : List Event) (b : Baseline) (h o : Idx) (cd : ContractData) (ob : ObjectD),
      History .main evs b ∧ b.contractData h = .ok cd ∧ b.object o = .ok ob ∧ ob.contract = h ∧
      o ∉ cd.objects) := by
  constructor
  · refine ⟨_, _, h0, h0, ⟨demoC.id, [h1, h0]⟩, runOps_trace _ (demoBOps ++ [.remove demoC h0]), ?_⟩
    decide +kernel
  · refine ⟨_, _, h0, h0, ⟨demoC.id, []⟩, ⟨[⟨0, 0⟩, ⟨0, 0⟩], [⟨0, 0⟩], h0, TimeWarp.default⟩,
      runOps_trace _ (demoBOps ++ [.unregister demoC h0 .id]), ?_⟩
    decide +kernel

/-- **C17, partial.**  In every reachable baseline a contract's object set has no duplicates and every
member is a live object of that contract or a removed one that never resolves again.  If no call
panicked, every live object is in the set of its contract, which is registered.  If moreover no
`object_remove` was called, the set is exactly the live objects of the contract.
Missing: exactness after `object_remove` and after a panicking `unregister_contract` (false). -/
theorem C17_object_set_partial {kind : Kind} {evs : List Event} {b : Baseline} (hist : History kind evs b) :
    (∀ (h : Idx) (cd : ContractData), b.contractData h = .ok cd → cd.objects.Nodup ∧
      ∀ o ∈ cd.objects, (∃ ob, b.object o = .ok ob ∧ ob.contract = h) ∨
        (∀ (later : List Event) (b' : Baseline), Trace b later b' → (b'.object o).isErr = true)) ∧
    ((∀ e ∈ evs, e.2.isPanic = false) → ∀ (o : Idx) (ob : ObjectD), b.object o = .ok ob →
      ∃ cd, b.contractData ob.contract = .ok cd ∧ o ∈ cd.objects) ∧
    ((∀ e ∈ evs, e.2.isPanic = false) → (∀ (C : ContractTy) (o : Idx) (r : BOut), (BOp.remove C o, r) ∉ evs) →
      ∀ (h : Idx) (cd : ContractData), b.contractData h = .ok cd →
        ∀ o : Idx, o ∈ cd.objects ↔ ∃ ob, b.object o = .ok ob ∧ ob.contract = h) := by
  have hb := history_binv hist
  have hcov := fun hp => trace_covered (new_binv kind) (new_covered kind) hist hp
  refine ⟨?_, ?_, ?_⟩
  · intro h cd hg
    have hg := contractData_ok.1 hg
    refine ⟨hb.c.nodup h cd hg, fun o ho => ?_⟩
    rcases hb.c.listed h o cd hg ho with ⟨ob, h1, h2⟩ | hd
    · exact .inl ⟨ob, object_ok.2 h1, h2⟩
    · exact .inr (fun later b' ht => object_err.2 (trace_obj_dead hb ht hd).1)
  · intro hp o ob hob
    obtain ⟨cd, h1, h2⟩ := hcov hp o ob (object_ok.1 hob)
    exact ⟨cd, contractData_ok.2 h1, h2⟩
  · intro hp hr h cd hg o
    have hg := contractData_ok.1 hg
    constructor
    · intro ho
      obtain ⟨ob, h1⟩ := trace_exact (new_binv kind) (new_exact kind) hist hp hr h o cd hg ho
      rcases hb.c.listed h o cd hg ho with ⟨ob', h2, h3⟩ | hd
      · exact ⟨ob', object_ok.2 h2, h3⟩
      · rw [hd.1] at h1; cases h1
    · rintro ⟨ob, h1, rfl⟩
      obtain ⟨cd', h2, h3⟩ := hcov hp o ob (object_ok.1 h1)
      rw [hg] at h2; cases h2; exact h3

-- the demo history has no panic and no removal, and a contract with two objects
example : (∀ e ∈ demoEvs, e.2.isPanic = false) ∧
    demoB.contractData h0 = .ok ⟨demoC.id, [h1, h0]⟩ := by
  constructor
  · have : demoEvs.all (fun e => !e.2.isPanic) = true := by decide +kernel
    intro e he
    simpa using List.all_eq_true.1 this e he
  · decide +kernel

/-- **C18 is false of the code.** Unregistering a registered contract that has a field and one object
panics, and after the panic a second call succeeds, leaving an orphan object whose contract no longer
exists. -/
theorem C18_negation :
    ∃ (evs : List Event) (b : Baseline) (C : ContractTy) (h o : Idx) (ob : ObjectD),
      History .main evs b ∧ b.contractData h = .ok ⟨C.id, [h1, h0]⟩ ∧
      (b.unregisterContract C h .id).2.isPanic = true ∧
      ((b.unregisterContract C h .id).1.unregisterContract C h .id).2 = .ok () ∧
      ((b.unregisterContract C h .id).1.unregisterContract C h .id).1.object o = .ok ob ∧ ob.contract = h ∧
      (((b.unregisterContract C h .id).1.unregisterContract C h .id).1.contractData h).isErr = true := by
  refine ⟨demoEvs, demoB, demoC, h0, h0, ⟨[⟨0, 0⟩, ⟨0, 0⟩], [⟨0, 0⟩], h0, TimeWarp.default⟩, demo_history, ?_⟩
  decide +kernel

/-- **C18, partial.**  On a registered handle whose id is `C`'s id, `unregister_contract` never returns
`Err`; it returns `Ok` exactly if the contract has no recorded objects, or `C` has no fields and all
recorded objects are live; then the contract and exactly its recorded objects are gone, nothing else
changed, and `C` can be registered again.  Otherwise it panics; the contract then stays registered
with an empty object set, so that a second call succeeds.
Missing: absence of panics and removal of the objects of contracts with fields (false). -/
theorem C18_unregister_partial {kind : Kind} {evs : List Event} {b : Baseline} (hist : History kind evs b)
    {C : ContractTy} {h : Idx} {cd : ContractData} (hreg : b.contractData h = .ok cd) (hid : cd.id = C.id)
    (ord : HashOrder) :
    ((b.unregisterContract C h ord).2 = .ok () ↔
      cd.objects = [] ∨ ((C.states = [] ∧ C.channels = []) ∧ ∀ o ∈ cd.objects, (b.object o).isOk = true)) ∧
    ((b.unregisterContract C h ord).2 = .ok () →
      let b' := (b.unregisterContract C h ord).1
      (b'.contractData h).isErr = true ∧ (∀ h' : Idx, h' ≠ h → b'.contractData h' = b.contractData h') ∧
      (∀ o ∈ cd.objects, (b'.object o).isErr = true) ∧
      (∀ o : Idx, o ∉ cd.objects → b'.object o = b.object o) ∧
      b'.states = b.states ∧ b'.channels = b.channels ∧
      (b'.registerContract C).2.isOk = true) ∧
    ((b.unregisterContract C h ord).2 ≠ .ok () →
      let b' := (b.unregisterContract C h ord).1
      (b.unregisterContract C h ord).2.isPanic = true ∧ b'.contractData h = .ok ⟨C.id, []⟩ ∧
      ∀ ord' : HashOrder, (b'.unregisterContract C h ord').2 = .ok ()) := by
  have hb := history_binv hist
  have hg := contractData_ok.1 hreg
  have hlive : ∀ o, (b.object o).isOk = true ↔ ∃ ob, b.objects.get o = some ob := by
    intro o; unfold Baseline.object; cases b.objects.get o <;> simp [Outcome.isOk]
  have hb1 := step_binv hb (.unregister C h ord)
  have hfst : (b.step (.unregister C h ord)).1 = (b.unregisterContract C h ord).1 := rfl
  rw [hfst] at hb1
  refine ⟨?_, ?_, ?_⟩
  · rw [unregister_ok_iff hb hg hid]; simp only [hlive]; rfl
  · intro hok
    rcases unregister_cases b C h ord with ⟨_, h2, _⟩ | ⟨cd', cons, done, g, _, hm, _, ⟨hdn, h5⟩ | ⟨_, h5⟩⟩
    · rw [hok] at h2; cases h2
    · rw [hg] at g; cases g
      rw [h5] at hb1 ⊢
      have hmem : ∀ o, o ∈ done ↔ o ∈ cd.objects := by
        intro o; rw [hdn]; exact (ord.perm _).mem_iff
      have hget : ∀ k : Idx, ((cons.remove h).1).get k = if k = h then none else b.contracts.get k := by
        intro k; rw [Arena.get_remove, Arena.get_modify hm]; by_cases e : k = h <;> simp [e]
      refine ⟨contractData_err.2 (by simp [hget]), fun h' hne => contractData_congr (by simp [hget, hne]),
        fun o ho => object_err.2 (by simp [get_removeList, hmem, ho]),
        fun o ho => object_congr (by simp [get_removeList, hmem, ho]), rfl, rfl, ?_⟩
      rcases registerContract_cases
        { b with objects := removeList b.objects done, contracts := (cons.remove h).1 } C with
          ⟨⟨k, cd', h6, h7⟩, _⟩ | ⟨_, hr⟩
      · have h6 : ((cons.remove h).1).get k = some cd' := h6
        rw [hget] at h6
        split at h6
        · cases h6
        · rename_i hne
          exact absurd (hb.c.idUnique k h cd' cd h6 hg (by rw [h7, hid])) hne
      · rw [hr]; rfl
    · rw [hok] at h5; cases h5
  · intro hnok
    rcases unregister_cases b C h ord with ⟨_, _, h2⟩ | ⟨cd', cons, done, g, _, hm, _, ⟨hdn, h5⟩ | ⟨h4, h5⟩⟩
    · exact absurd ⟨cd, hg, hid⟩ h2
    · rw [h5] at hnok; exact absurd rfl hnok
    · rw [hg] at g; cases g
      have hget : (b.unregisterContract C h ord).1.contracts.get h = some ⟨C.id, []⟩ := by
        rw [h4]
        show cons.get h = _
        rw [Arena.get_modify hm, if_pos rfl, hg]
        simp [clearObjs, hid]
      refine ⟨h5, contractData_ok.2 hget, fun ord' => ?_⟩
      rw [unregister_ok_iff hb1 hget rfl]
      exact .inl rfl

example : demoB.contractData h1 = .ok ⟨emptyC.id, [⟨2, 0⟩]⟩ ∧
    (demoB.unregisterContract emptyC h1 .id).2 = .ok () ∧
    demoB.contractData h0 = .ok ⟨demoC.id, [h1, h0]⟩ ∧
    (demoB.unregisterContract demoC h0 .id).2.isPanic = true := by decide +kernel

/-- **C19.** `unregister_contract` returns `Err` exactly when the handle is not registered or its id is
not `C`'s, and then nothing changes. -/
theorem C19_unregister_rejects (b : Baseline) (C : ContractTy) (h : Idx) (ord : HashOrder) :
    ((b.unregisterContract C h ord).2.isErr = true ↔
      ¬ ∃ cd, b.contractData h = .ok cd ∧ cd.id = C.id) ∧
    ((b.unregisterContract C h ord).2.isErr = true → (b.unregisterContract C h ord).1 = b) := by
  have he : (∃ cd, b.contractData h = .ok cd ∧ cd.id = C.id) ↔
      ∃ cd, b.contracts.get h = some cd ∧ cd.id = C.id := by simp only [contractData_ok]
  rw [he]
  rcases unregister_cases b C h ord with ⟨h1, h2, h3⟩ | ⟨cd, cons, done, g, hid, hm, _, ⟨hdn, h5⟩ | ⟨h4, h5⟩⟩
  · exact ⟨⟨fun _ => h3, fun _ => h2⟩, fun _ => h1⟩
  · rw [h5]
    exact ⟨⟨fun h => by simp [Outcome.isErr] at h, fun h => absurd ⟨cd, g, hid⟩ h⟩,
      fun h => by simp [Outcome.isErr] at h⟩
  · have hne : (b.unregisterContract C h ord).2.isErr = false := by
      cases hr : (b.unregisterContract C h ord).2 <;> rw [hr] at h5 <;> simp_all [Outcome.isErr, Outcome.isPanic]
    rw [hne]
    exact ⟨⟨fun h => by simp at h, fun h => absurd ⟨cd, g, hid⟩ h⟩, fun h => by simp at h⟩

example : (demoB.unregisterContract emptyC h0 .id).2.isErr = true ∧
    (demoB.unregisterContract emptyC h1 .id).2.isErr = false := by decide +kernel

/-! ## C20, C22, C23 -/

/-- **C20.** `iter_objects` yields each live handle exactly once, with the object it resolves to. -/
theorem C20_iter_objects {kind : Kind} {evs : List Event} {b : Baseline} (_hist : History kind evs b) :
    (∀ (o : Idx) (ob : ObjectD), (o, ob) ∈ b.iterObjects ↔ b.object o = .ok ob) ∧
    (b.iterObjects.map Prod.fst).Nodup := by
  exact ⟨fun o ob => by rw [object_ok]; exact Arena.mem_iter, Arena.iter_nodup _⟩

example : demoB.iterObjects.length = 3 := by decide +kernel

/-- Another baseline, with a single object of a contract without fields. -/
def otherB : Baseline := ((Baseline.new .fork).runOps [.register emptyC, .create emptyC h0 [] []]).2

/-- **C22 is false of the code.** Handles of different baselines are not told apart: an object handle
issued by a Main baseline resolves, in a Fork baseline, to an unrelated object of another contract. -/
theorem C22_negation :
    ∃ (evs1 evs2 : List Event) (main fork : Baseline) (C : ContractTy) (h o : Idx) (ss : List DynProp)
      (cs : List DynChannel) (ob1 ob2 : ObjectD),
      History .main evs1 main ∧ History .fork evs2 fork ∧
      (BOp.create C h ss cs, Outcome.ok (some o)) ∈ evs1 ∧
      main.object o = .ok ob1 ∧ fork.object o = .ok ob2 ∧ ob1.states ≠ [] ∧ ob2.states = [] ∧
      fork.contractData ob2.contract = .ok ⟨emptyC.id, [o]⟩ ∧ C.id ≠ emptyC.id := by
  refine ⟨demoEvs, _, demoB, otherB, demoC, h0, h0, [.primitive (.u8 7), .primitive (.u16 300)],
    [⟨.prim .f32, []⟩], ⟨[⟨0, 0⟩, ⟨0, 0⟩], [⟨0, 0⟩], h0, TimeWarp.default⟩, ⟨[], [], h0, TimeWarp.default⟩,
    demo_history, runOps_trace _ _, ?_, ?_⟩
  · have : (demoEvs)[2]? = some (BOp.create demoC h0 [.primitive (.u8 7), .primitive (.u16 300)]
      [⟨.prim .f32, []⟩], Outcome.ok (some h0)) := rfl
    exact List.mem_of_getElem? this
  · decide +kernel

/-- **C22, partial.** A handle resolves in a baseline only if that baseline itself issued an equal one:
live objects come from its own `object_create` calls and live contracts from its own
`register_contract` calls.  Missing: telling equal handles of two baselines apart (false). -/
theorem C22_only_issued_handles_resolve_partial {kind : Kind} {evs : List Event} {b : Baseline}
    (hist : History kind evs b) :
    (∀ (o : Idx) (ob : ObjectD), b.object o = .ok ob →
      ∃ C ss cs, (BOp.create C ob.contract ss cs, Outcome.ok (some o)) ∈ evs) ∧
    (∀ (h : Idx) (cd : ContractData), b.contractData h = .ok cd →
      ∃ C : ContractTy, C.id = cd.id ∧ (BOp.register C, Outcome.ok (some h)) ∈ evs) := by
  have hb := history_binv hist
  exact ⟨fun o ob h => hb.o.origin o ob (object_ok.1 h), fun h cd hc => hb.c.origin h cd (contractData_ok.1 hc)⟩

example : (demoB.object h1).isOk = true ∧ (demoB.contractData h1).isOk = true := by decide +kernel

/-- **C23 is false of the code.** `bind_state` does not check the static type of the id: reading the
field 0 (declared `u8`) of an object through an id of static type `u16` yields the value of another
field, of another object. -/
theorem C23_negation :
    ∃ (evs : List Event) (b : Baseline) (h o1 o2 : Idx) (sh : Idx) (v : BitVec 16),
      History .main evs b ∧ o1 ≠ o2 ∧
      demoC.stateId h 0 = some ⟨.prim .u8, ⟨0, h⟩⟩ ∧ demoC.stateId h 1 = some ⟨.prim .u16, ⟨1, h⟩⟩ ∧
      b.bindState ⟨0, h⟩ o1 = .ok sh ∧ b.state (.prim .u16) sh = .ok v ∧
      b.bindState ⟨1, h⟩ o2 = .ok sh ∧ (b.object o1).isOk = true ∧ (b.object o2).isOk = true := by
  -- an extra contract with a single u8 field shifts the u8 arena by one slot
  refine ⟨_, ((Baseline.new .main).runOps
    [.register demoC, .register ⟨⟨"shift", 1, 0, 0⟩, [⟨"a", .prim .u16⟩], []⟩,
     .create ⟨⟨"shift", 1, 0, 0⟩, [⟨"a", .prim .u16⟩], []⟩ h1 [.primitive (.u16 1)] [],
     .create demoC h0 [.primitive (.u8 7), .primitive (.u16 300)] [⟨.prim .f32, []⟩],
     .create demoC h0 [.primitive (.u8 8), .primitive (.u16 301)] [⟨.prim .f32, []⟩]]).2,
    h0, ⟨2, 0⟩, ⟨1, 0⟩, ⟨1, 0⟩, 300#16, runOps_trace _ _, ?_⟩
  decide +kernel

/-- **C23, partial.** With the declared static type (the ids a contract hands out), the value read is
the value of that field and of no other field of any live object.  Missing: rejection of an id whose
static type was forged (false). -/
theorem C23_declared_type_reads_own_field_partial {kind : Kind} {evs : List Event} {b : Baseline}
    (hist : History kind evs b) {C1 C2 : ContractTy} {k1 k2 o1 o2 : Idx} {ss1 ss2 : List DynProp}
    {cs1 cs2 : List DynChannel}
    (hc1 : (BOp.create C1 k1 ss1 cs1, Outcome.ok (some o1)) ∈ evs)
    (hc2 : (BOp.create C2 k2 ss2 cs2, Outcome.ok (some o2)) ∈ evs)
    {i1 i2 : Nat} {d1 d2 : DynId} {s : Idx} (hd1 : C1.stateId k1 i1 = some d1) (hd2 : C2.stateId k2 i2 = some d2)
    (hty : d1.ty = d2.ty) (hb1 : b.bindState d1.id o1 = .ok s) (hb2 : b.bindState d2.id o2 = .ok s) :
    o1 = o2 ∧ i1 = i2 := by
  by_cases e : (o1, i1) = (o2, i2)
  · exact Prod.mk.inj e
  · exact absurd (by rw [hty]) ((C12_fields_never_alias hist hc1 hc2).1 i1 i2 d1 d2 s s e hd1 hd2 hb1 hb2).1

example : demoB.bindState ⟨1, h0⟩ h1 = .ok ⟨1, 0⟩ := by decide +kernel

end Verif.Props
