import Verif.Proofs.DesSuccess
/-!
# C52-C56, C60: the deserializer

`BuilderRun buf kind regs bd`: `bd` is the builder after `DeserializerBuilder::new` on `buf` and the
`register_contract` calls `regs` (with their results).  `DesRun buf kind regs calls d`: `d` is the
deserializer made from such a builder, after the `deserialize_objects` calls `calls` (with their results).
The buffer is arbitrary.
-/
namespace Verif.Props
open Verif Spec Arena Baseline Store

/-! ## C52 -/

/-- **C52.** `register_contract::<C>` succeeds exactly if some contract table of the buffer describes `C`
(name, version, state names and state types in order), `C` does not reuse the id of the internal null
contract, and no contract with the same id was registered before; otherwise it returns `Err` and changes
nothing.  It never panics. -/
theorem C52_register_iff {buf : FbBaseline} {kind : Kind} {regs : List (ContractTy × Outcome Idx)}
    {bd : Builder} (hb : BuilderRun buf kind regs bd) (C : ContractTy) :
    ((bd.registerContract C).2.isOk = true ↔
      (∃ cs c, buf.contracts = some cs ∧ c ∈ cs ∧ Describes c C) ∧
      C.id ≠ ⟨"teleportal.serialize.NullContract", (0, 0, 0)⟩ ∧
      ∀ (C' : ContractTy) (h : Idx), (C', Outcome.ok h) ∈ regs → C'.id ≠ C.id) ∧
    (bd.registerContract C).2.isPanic = false ∧
    ((bd.registerContract C).2.isOk = false → (bd.registerContract C).1 = bd) := by
  have hB := builderRun_ok hb
  have hfree : (∀ (k : Idx) (cd : ContractData), bd.base.contracts.get k = some cd → cd.id ≠ C.id) ↔
      C.id ≠ ⟨"teleportal.serialize.NullContract", (0, 0, 0)⟩ ∧
      ∀ (C' : ContractTy) (h : Idx), (C', Outcome.ok h) ∈ regs → C'.id ≠ C.id := by
    constructor
    · intro h
      exact ⟨fun e => h _ _ hB.inv.nullCon e.symm, fun C' h' hm => h _ _ (hB.live C' h' hm).1⟩
    · rintro ⟨h1, h2⟩ k cd hg e
      by_cases hk : k = bd.nullContract
      · subst hk
        have := hB.inv.nullCon
        rw [show (Des.new bd).b.base = bd.base from rfl, show (Des.new bd).b.nullContract = bd.nullContract from rfl, hg] at this
        injection this with this; subst this
        exact h1 e.symm
      · obtain ⟨C', hm, rfl⟩ := hB.cons k cd hg hk
        exact h2 C' k hm e
  have hsome : (∃ cs c, buf.contracts = some cs ∧ c ∈ cs ∧ Describes c C) ↔
      ¬ ∃ m, findSerialized C buf = .err m := by
    rw [findSerialized_err]
    simp only [matches_iff]
    constructor
    · rintro ⟨cs, c, h1, h2, h3⟩ h; exact h cs c h1 h2 h3
    · intro h
      apply Classical.byContradiction
      intro hn
      exact h fun cs c h1 h2 h3 => hn ⟨cs, c, h1, h2, h3⟩
  rw [hsome, ← hfree]
  rcases register_spec hB.inv C with ⟨h1, h2, h3⟩ | ⟨k, h, h1, h2, h3, h4, h5, h6⟩
  · rw [hB.bufEq] at h3
    refine ⟨⟨fun h => ?_, fun h => ?_⟩, ?_, fun _ => h1⟩
    · revert h h2; cases (bd.registerContract C).2 <;> simp [Outcome.isOk, Outcome.isErr]
    · rcases h3 with h3 | ⟨h', cd, e1, e2⟩
      · exact absurd h3 h.1
      · exact absurd e2 (h.2 h' cd e1)
    · revert h2; cases (bd.registerContract C).2 <;> simp [Outcome.isPanic, Outcome.isErr]
  · rw [hB.bufEq] at h1
    rw [h4]
    refine ⟨⟨fun _ => ⟨?_, h2⟩, fun _ => rfl⟩, rfl, fun h => by cases h⟩
    rintro ⟨m, e⟩; rw [h1] at e; cases e

/-- C52: a successful registration gives a handle different from those of all earlier registrations, and
the first table that describes `C` is the one used for it: the deserializer maps contract numbers of the
buffer one to one to the registered handles. -/
theorem C52_handles {buf : FbBaseline} {kind : Kind} {regs : List (ContractTy × Outcome Idx)}
    {bd : Builder} (hb : BuilderRun buf kind regs bd) :
    (∀ (C C' : ContractTy) (h : Idx), (C, Outcome.ok h) ∈ regs → (C', Outcome.ok h) ∈ regs → C.id = C'.id) ∧
    (∀ (C C' : ContractTy) (h h' : Idx), (C, Outcome.ok h) ∈ regs → (C', Outcome.ok h') ∈ regs → C.id = C'.id → h = h') ∧
    (∀ (C : ContractTy) (h : Idx), (C, Outcome.ok h) ∈ regs → ∃ k, ContractNo buf C k) ∧
    (∀ (C C' : ContractTy) (h h' : Idx) (k : Nat), (C, Outcome.ok h) ∈ regs → (C', Outcome.ok h') ∈ regs →
      ContractNo buf C k → ContractNo buf C' k → h = h') := by
  have hB := builderRun_ok hb
  have hpair : ∀ (C C' : ContractTy) (h h' : Idx) (k : Nat), (C, Outcome.ok h) ∈ regs → (C', Outcome.ok h') ∈ regs →
      ContractNo buf C k → ContractNo buf C' k → h = h' := by
    intro C C' h h' k h1 h2 h3 h4
    exact BiMap.pair_left hB.inv.cmap ((hB.pairs k h).2 ⟨C, h1, findSerialized_iff.2 h3⟩)
      ((hB.pairs k h').2 ⟨C', h2, findSerialized_iff.2 h4⟩)
  refine ⟨?_, ?_, ?_, hpair⟩
  · intro C C' h h1 h2
    have e1 := (hB.live C h h1).1
    rw [(hB.live C' h h2).1] at e1
    simp only [Option.some.injEq, ContractData.mk.injEq, and_true] at e1
    exact e1.symm
  · intro C C' h h' h1 h2 e
    obtain ⟨evs, hH, _, _⟩ := hB.reach
    exact (history_binv hH).c.idUnique h h' _ _ (hB.live C h h1).1 (hB.live C' h' h2).1 e
  · intro C h h1
    obtain ⟨k, hk⟩ := (hB.live C h h1).2
    exact ⟨k, findSerialized_iff.1 hk⟩

/-! ## Demonstration data -/

/-- Registrations performed one after the other. -/
def runRegs (bd : Builder) : List ContractTy → List (ContractTy × Outcome Idx) × Builder
  | [] => ([], bd)
  | C :: Cs =>
    let (rs, bd') := runRegs (bd.registerContract C).1 Cs
    ((C, (bd.registerContract C).2) :: rs, bd')

/-- The builder `DeserializerBuilder::new` gives. -/
def startBuilder (buf : FbBaseline) : Builder :=
  match Builder.new buf .main with
  | .ok bd => bd
  | _ => ⟨Baseline.new .main, BiMap.empty, buf, ⟨0, 0⟩, ⟨0, 0⟩⟩

theorem startBuilder_run (buf : FbBaseline) (hsize : buf.tables ≤ maxTables) :
    BuilderRun buf .main [] (startBuilder buf) := by
  obtain ⟨bd, h, _⟩ := builder_new buf hsize .main
  unfold startBuilder
  rw [h]; exact .new bd h

theorem runRegs_run {buf : FbBaseline} {regs : List (ContractTy × Outcome Idx)} {bd : Builder}
    (h : BuilderRun buf .main regs bd) (Cs : List ContractTy) :
    BuilderRun buf .main (regs ++ (runRegs bd Cs).1) (runRegs bd Cs).2 := by
  induction Cs generalizing regs bd with
  | nil => simpa [runRegs] using h
  | cons C Cs ih =>
    have := ih (.register regs bd C h (C52_register_iff h C).2.1)
    simpa [runRegs] using this

/-- Calls performed one after the other. -/
def runCalls (d : Des) : List (ContractTy × Idx) → List ((ContractTy × Idx) × Outcome Unit) × Des
  | [] => ([], d)
  | c :: cs =>
    let (rs, d') := runCalls (d.deserializeObjects c.1 c.2).1 cs
    ((c, (d.deserializeObjects c.1 c.2).2) :: rs, d')

theorem runCalls_run {buf : FbBaseline} {regs : List (ContractTy × Outcome Idx)}
    {calls : List ((ContractTy × Idx) × Outcome Unit)} {d : Des} (h : DesRun buf .main regs calls d)
    (cs : List (ContractTy × Idx)) (hp : ∀ e ∈ (runCalls d cs).1, e.2.isPanic = false) :
    DesRun buf .main regs (calls ++ (runCalls d cs).1) (runCalls d cs).2 := by
  induction cs generalizing calls d with
  | nil => simpa [runCalls] using h
  | cons c cs ih =>
    have h1 := hp (c, (d.deserializeObjects c.1 c.2).2) (by simp [runCalls])
    have := ih (.objects calls d c.1 c.2 h h1) (fun e he => hp e (by
      simp only [runCalls, List.mem_cons]; exact .inr he))
    simpa [runCalls] using this

/-- The run with the given registrations and calls. -/
def demoRun (buf : FbBaseline) (Cs : List ContractTy) (cs : List (ContractTy × Idx)) :
    List (ContractTy × Outcome Idx) × List ((ContractTy × Idx) × Outcome Unit) × Des :=
  let r := runRegs (startBuilder buf) Cs
  let c := runCalls (Des.new r.2) cs
  (r.1, c.1, c.2)

theorem demoRun_run (buf : FbBaseline) (Cs : List ContractTy) (cs : List (ContractTy × Idx))
    (hp : (demoRun buf Cs cs).2.1.all (fun e => !e.2.isPanic) = true)
    (hsize : buf.tables ≤ maxTables := by decide +kernel) :
    DesRun buf .main (demoRun buf Cs cs).1 (demoRun buf Cs cs).2.1 (demoRun buf Cs cs).2.2 := by
  have h1 := runRegs_run (startBuilder_run buf hsize) Cs
  rw [List.nil_append] at h1
  have := runCalls_run (.new _ h1) cs (fun e he => by
    have := List.all_eq_true.1 hp e he; simpa using this)
  rw [List.nil_append] at this
  exact this

/-- A contract whose objects have a number and a reference. -/
def nodeC : ContractTy := ⟨⟨"node", 1, 0, 0⟩, [⟨"val", .prim .u8⟩, ⟨"next", .prim .objectHandle⟩], []⟩
/-- A contract whose objects have a string and a contract reference. -/
def tagC : ContractTy := ⟨⟨"tag", 2, 0, 0⟩, [⟨"label", .prim .string⟩, ⟨"of", .prim .contractDataHandle⟩], []⟩

/-- The table describing `nodeC`. -/
def nodeT : FbContract := ⟨some ⟨some "node", 1, 0, 0⟩,
  some ⟨some ["val", "next"], some [some .u8, some .objectHandle]⟩⟩
/-- The table describing `tagC`. -/
def tagT : FbContract := ⟨some ⟨some "tag", 2, 0, 0⟩,
  some ⟨some ["label", "of"], some [some .string, some .contractDataHandle]⟩⟩

/-- Two nodes referring to each other and a tag. -/
def demoBuf : FbBaseline :=
  ⟨some [nodeT, tagT],
   some [.u8 5, .objectHandle 1, .u8 6, .objectHandle 0, .fbString (some "a"), .contractDataHandle 0],
   some [⟨some 0, some [0, 1]⟩, ⟨some 0, some [2, 3]⟩, ⟨some 1, some [4, 5]⟩]⟩

/-- Handles of the first two contracts registered on a deserializer (slot 0 holds the null contract). -/
def c1 : Idx := ⟨1, 0⟩
def c2 : Idx := ⟨2, 0⟩

theorem demoBuf_run : DesRun demoBuf .main (demoRun demoBuf [nodeC, tagC] [(nodeC, c1), (tagC, c2)]).1
    (demoRun demoBuf [nodeC, tagC] [(nodeC, c1), (tagC, c2)]).2.1
    (demoRun demoBuf [nodeC, tagC] [(nodeC, c1), (tagC, c2)]).2.2 :=
  demoRun_run _ _ _ (by decide +kernel)

example : (demoRun demoBuf [nodeC, tagC] [(nodeC, c1), (tagC, c2)]).1 = [(nodeC, .ok c1), (tagC, .ok c2)] ∧
    (demoRun demoBuf [nodeC, tagC] [(nodeC, c1), (tagC, c2)]).2.1 = [((nodeC, c1), .ok ()), ((tagC, c2), .ok ())] ∧
    ((demoRun demoBuf [nodeC, tagC] [(nodeC, c1), (tagC, c2)]).2.2.finish .id .id).isOk = true := by
  decide +kernel

/-- A contract the buffer does not have. -/
def otherC : ContractTy := ⟨⟨"other", 1, 0, 0⟩, [], []⟩

/-- C52's hypotheses and both outcomes occur. -/
example : (runRegs (startBuilder demoBuf) [nodeC, nodeC, otherC, tagC]).1.map (fun e => e.2.isOk) =
    [true, false, false, true] := by decide +kernel

/-! ## C53 -/

/-- **C53.** When `finish` returns `Ok`, whatever the buffer, the registrations and the calls (successful or
not): every contract of the baseline is a registered one (in particular the null contract is gone), every
object belongs to one of them and is listed there, every object-handle state refers to a live object, and
every contract-handle state of an object refers to a live contract. -/
theorem C53_no_placeholder {buf : FbBaseline} {kind : Kind} {regs : List (ContractTy × Outcome Idx)}
    {calls : List ((ContractTy × Idx) × Outcome Unit)} {d : Des} (hd : DesRun buf kind regs calls d)
    (ord : IterOrder (Nat × Idx)) (hord : HashOrder) {b' : Baseline} (hf : d.finish ord hord = .ok b') :
    (∀ (k : Idx) (cd : ContractData), b'.contractData k = .ok cd →
      cd.id ≠ ⟨"teleportal.serialize.NullContract", (0, 0, 0)⟩ ∧
      ∃ C, (C, Outcome.ok k) ∈ regs ∧ cd.id = C.id) ∧
    (∀ (o : Idx) (ob : ObjectD), b'.object o = .ok ob → ∃ cd, b'.contractData ob.contract = .ok cd ∧ o ∈ cd.objects) ∧
    (∀ (j v : Idx), b'.state (.prim .objectHandle) j = .ok v → ∃ ob, b'.object v = .ok ob) ∧
    (∀ (o : Idx) (ob : ObjectD), b'.object o = .ok ob → ∃ (C : ContractTy) (r : Outcome Unit),
      ((C, ob.contract), r) ∈ calls ∧ ob.states.length = C.states.length ∧
      ∀ (n : Nat) (f : Field) (j : Idx), C.states[n]? = some f → f.ty = .prim .contractDataHandle →
        ob.states[n]? = some j → ∃ v cd, b'.state (.prim .contractDataHandle) j = .ok v ∧
          b'.contractData v = .ok cd) := by
  obtain ⟨done, hR⟩ := desRun_ok hd
  have hI := hR.inv
  rcases finish_spec hR ord hord with ⟨_, e⟩ | ⟨_, b2, e, hre, hF⟩
  · rw [hf] at e; cases e
  rw [hf] at e; injection e with e; subst e
  have hlive : ∀ (o : Idx) (ob : ObjectD), b'.object o = .ok ob → ∃ x ∈ done, x.o = o := by
    intro o ob ho
    have ho := object_ok.1 ho
    rw [hF.objects] at ho
    split at ho
    · cases ho
    · rename_i hne
      rcases hI.live o ob ho with h | h
      · exact absurd h hne
      · exact h
  have hcon : ∀ k : Idx, k ≠ d.b.nullContract → ∀ cd : ContractData, d.b.base.contracts.get k = some cd →
      b'.contractData k = .ok cd := by
    intro k hne cd hg
    exact contractData_ok.2 (by rw [hF.contracts, if_neg hne, hg])
  refine ⟨?_, ?_, ?_, ?_⟩
  · intro k cd hg
    have hg := contractData_ok.1 hg
    rw [hF.contracts] at hg
    split at hg
    · cases hg
    · rename_i hne
      exact ⟨(hI.cons k cd hg hne).2.1, hR.cons k cd hg hne⟩
  · intro o ob ho
    obtain ⟨x, hx, rfl⟩ := hlive o ob ho
    obtain ⟨ob', k, obj, C0, g1, g2, _⟩ := finished_object hR hF hx
    have ho := object_ok.1 ho
    rw [g1] at ho; injection ho with ho; subst ho
    obtain ⟨⟨ob2, k2, obj2, a1, a2, a3, a4, a5, a6, a7, a8⟩, a9⟩ := hI.fields x hx
    obtain ⟨r1, cd, C', r2, r3, r4⟩ := hI.reg k2 x.h a5
    rw [g2]
    exact ⟨cd, hcon _ r1 cd r2, ((hI.cons x.h cd r2 r1).2.2 x.o).2 ⟨x, hx, rfl, rfl⟩⟩
  · intro j v hg
    have hg := state_ok.1 hg
    by_cases hp : ∃ i, (i, j) ∈ d.states.pairs
    · obtain ⟨i, hi⟩ := hp
      obtain ⟨x, hx, _, e⟩ := hF.refs i j hi
      rw [e] at hg; injection hg with hg; subst hg
      obtain ⟨ob', k, obj, C0, g1, _⟩ := finished_object hR hF hx
      exact ⟨ob', object_ok.2 g1⟩
    · have hp : ∀ i : Nat, (i, j) ∉ d.states.pairs := fun i hi => hp ⟨i, hi⟩
      rw [hF.other _ j (fun _ => hp)] at hg
      obtain ⟨i, hi⟩ := hI.store j v hg
      exact absurd hi (hp i)
  · intro o ob ho
    obtain ⟨x, hx, rfl⟩ := hlive o ob ho
    obtain ⟨ob', k, obj, C0, g1, g2, g3, g4, g5, g6, g7, g8, g9, g10⟩ := finished_object hR hF hx
    have ho := object_ok.1 ho
    rw [g1] at ho; injection ho with ho; subst ho
    obtain ⟨r, hr⟩ := hR.called x hx
    rw [g2]
    refine ⟨x.C, r, hr, g9, ?_⟩
    intro n f j h1 h2 h3
    have hlt : n < (stateIdxs obj).length := by
      rw [g8.2.1]; exact (List.getElem?_eq_some_iff.1 h1).1
    obtain ⟨v, val, e1, e2, e3⟩ := g10 n _ f j h1 (List.getElem?_eq_getElem hlt) h3
    rcases f with ⟨nm, ty⟩
    simp only at h2
    subst h2
    simp only at e2 e3
    cases e3 with
    | contract c h hc =>
      obtain ⟨C, hm, _⟩ := hc
      obtain ⟨⟨cd, q1, q2⟩, _⟩ := hR.live C val hm
      refine ⟨val, cd, state_ok.2 e2, hcon val ?_ cd q1⟩
      rintro rfl
      obtain ⟨k', hk'⟩ := (hR.live C _ hm).2
      exact (hI.reg k' _ ((hR.pairs _ _).2 ⟨C, hm, hk'⟩)).1 rfl

/-! ## C54 -/

/-- Object number `p` of the buffer belongs to a registered contract whose `deserialize_objects` call gave
`res`. -/
def CalledWith (buf : FbBaseline) (regs : List (ContractTy × Outcome Idx))
    (calls : List ((ContractTy × Idx) × Outcome Unit)) (res : Outcome Unit) (p : Nat) : Prop :=
  ∃ (C C0 : ContractTy) (h : Idx) (k : Nat) (obj : FbObject) (c : BitVec 16),
    ((C, h), res) ∈ calls ∧ (C0, Outcome.ok h) ∈ regs ∧ ContractNo buf C0 k ∧ ObjectAt buf p obj ∧
    obj.contract = some c ∧ c.toNat = k

theorem done_called {buf : FbBaseline} {kind : Kind} {regs : List (ContractTy × Outcome Idx)}
    {calls : List ((ContractTy × Idx) × Outcome Unit)} {d : Des} {done : List DoneObj}
    (hR : RunOk buf kind regs calls d done) {x : DoneObj} (hx : x ∈ done) :
    ∃ res, CalledWith buf regs calls res x.p := by
  obtain ⟨⟨ob, k, obj, a1, a2, a3, a4, a5, a6, a7, a8⟩, a9⟩ := hR.inv.fields x hx
  obtain ⟨C0, c1, c2⟩ := (hR.pairs k x.h).1 a5
  rw [hR.bufEq] at a6
  obtain ⟨r, hr⟩ := hR.called x hx
  obtain ⟨c, e1, e2⟩ := a6.contract
  exact ⟨r, x.C, C0, x.h, k, obj, c, hr, c1, findSerialized_iff.1 c2, a6.here, e1, e2⟩

theorem called_done {buf : FbBaseline} {kind : Kind} {regs : List (ContractTy × Outcome Idx)}
    {calls : List ((ContractTy × Idx) × Outcome Unit)} {d : Des} {done : List DoneObj}
    (hR : RunOk buf kind regs calls d done) {p : Nat} (hp : CalledWith buf regs calls (.ok ()) p) :
    ∃ x ∈ done, x.p = p := by
  obtain ⟨C, C0, h, k, obj, c, h1, h2, h3, ⟨objs, h4, h5⟩, h6, h7⟩ := hp
  obtain ⟨x, hx, e, _⟩ := hR.all C h k p objs obj c h1
    ((hR.pairs k h).2 ⟨C0, h2, findSerialized_iff.2 h3⟩) h4 h5 h6 h7
  exact ⟨x, hx, e⟩

/-- A reference held by a restored object is noted. -/
theorem ref_noted {buf : FbBaseline} {kind : Kind} {regs : List (ContractTy × Outcome Idx)}
    {calls : List ((ContractTy × Idx) × Outcome Unit)} {d : Des} {done : List DoneObj}
    (hR : RunOk buf kind regs calls d done) {x : DoneObj} (hx : x ∈ done) {obj : FbObject}
    (ho : ObjectAt buf x.p obj) {i : Nat} (hi : i ∈ stateIdxs obj) {r : BitVec 32}
    (hs : StateAt buf i (.objectHandle r)) :
    ∃ j, (i, j) ∈ d.states.pairs ∧ d.objRef i = some r.toNat := by
  obtain ⟨⟨ob, k, obj', a1, a2, a3, a4, a5, a6, a7, a8⟩, a9⟩ := hR.inv.fields x hx
  rw [hR.bufEq] at a6
  obtain ⟨objs, e1, e2⟩ := ho
  obtain ⟨objs', e3, e4⟩ := a6.here
  rw [e1] at e3; injection e3 with e3; subst e3
  rw [e2] at e4; injection e4 with e4; subst e4
  obtain ⟨n, hn⟩ := List.getElem?_of_mem hi
  rw [stateIdxs_eq] at hn
  have hlt : n < obj.idxs.length := (List.getElem?_eq_some_iff.1 hn).1
  have hltT : n < x.C.stateTypes.length := by rw [← a6.len]; exact hlt
  have hltS : n < ob.states.length := by rw [a7]; exact hltT
  obtain ⟨sts, v, val, g1, g2, g3, g4⟩ := a8 n i _ _ (List.getElem?_eq_getElem hltT) hn (List.getElem?_eq_getElem hltS)
  rw [hR.bufEq] at g1
  obtain ⟨sts', s1, s2⟩ := hs
  rw [g1] at s1; injection s1 with s1; subst s1
  rw [g2] at s2; injection s2 with s2; subst s2
  rcases g4 with ⟨r', q1, q2, q3⟩ | ⟨q1, _⟩
  · injection q1 with q1; subst q1
    refine ⟨_, q3, ?_⟩
    obtain ⟨⟨sts', r', z1, z2, z3⟩, _⟩ := hR.inv.states i _ q3
    rw [hR.bufEq, g1] at z1; injection z1 with z1; subst z1
    rw [g2] at z2; injection z2 with z2; injection z2 with z2; subst z2
    exact z3
  · cases q1

/-- **C54.** If a successfully deserialized object has a state that refers to a serialized object that is
not part of any contract `deserialize_objects` was called for (or does not exist), `finish` returns `Err`. -/
theorem C54_dangling_is_err {buf : FbBaseline} {kind : Kind} {regs : List (ContractTy × Outcome Idx)}
    {calls : List ((ContractTy × Idx) × Outcome Unit)} {d : Des} (hd : DesRun buf kind regs calls d)
    {p i : Nat} {obj : FbObject} {r : BitVec 32}
    (hp : CalledWith buf regs calls (.ok ()) p) (ho : ObjectAt buf p obj) (hi : i ∈ stateIdxs obj)
    (hs : StateAt buf i (.objectHandle r))
    (htarget : ∀ res : Outcome Unit, ¬ CalledWith buf regs calls res r.toNat)
    (ord : IterOrder (Nat × Idx)) (hord : HashOrder) : (d.finish ord hord).isErr = true := by
  obtain ⟨done, hR⟩ := desRun_ok hd
  obtain ⟨x, hx, rfl⟩ := called_done hR hp
  obtain ⟨j, h1, h2⟩ := ref_noted hR hx ho hi hs
  rcases finish_spec hR ord hord with ⟨_, e⟩ | ⟨hall, _⟩
  · exact e
  · obtain ⟨y, hy, e⟩ := List.mem_map.1 (hall i r.toNat j h1 h2)
    obtain ⟨res, hc⟩ := done_called hR hy
    rw [e] at hc
    exact absurd hc (htarget res)

/-- **C54**, exactly: when every call succeeded, `finish` succeeds iff every reference held by an object of a
deserialized contract leads to an object of a deserialized contract; otherwise it returns `Err`.  It never
panics, and the outcome does not depend on the hash iteration orders. -/
theorem C54_finish_ok_iff {buf : FbBaseline} {kind : Kind} {regs : List (ContractTy × Outcome Idx)}
    {calls : List ((ContractTy × Idx) × Outcome Unit)} {d : Des} (hd : DesRun buf kind regs calls d)
    (hok : ∀ e ∈ calls, e.2 = .ok ()) (ord : IterOrder (Nat × Idx)) (hord : HashOrder) :
    ((d.finish ord hord).isOk = true ↔
      ∀ (p i : Nat) (obj : FbObject) (r : BitVec 32), CalledWith buf regs calls (.ok ()) p →
        ObjectAt buf p obj → i ∈ stateIdxs obj → StateAt buf i (.objectHandle r) →
        CalledWith buf regs calls (.ok ()) r.toNat) ∧
    (d.finish ord hord).isPanic = false := by
  obtain ⟨done, hR⟩ := desRun_ok hd
  have hcd : ∀ x ∈ done, CalledWith buf regs calls (.ok ()) x.p := by
    intro x hx
    obtain ⟨res, h⟩ := done_called hR hx
    obtain ⟨C, C0, h', k, obj, c, h1, h2⟩ := h
    have := hok _ h1
    simp only at this
    subst this
    exact ⟨C, C0, h', k, obj, c, h1, h2⟩
  rcases finish_spec hR ord hord with ⟨⟨i, p, j, h1, h2, h3⟩, e⟩ | ⟨hall, b', e, _⟩
  · refine ⟨⟨fun h => ?_, fun h => ?_⟩, ?_⟩
    · revert e h; cases d.finish ord hord <;> simp [Outcome.isErr, Outcome.isOk]
    · exfalso
      obtain ⟨x, hx, objs, obj, g1, g2, g3⟩ := hR.inv.owner i j h1
      obtain ⟨⟨sts, r, s1, s2, s3⟩, _⟩ := hR.inv.states i j h1
      rw [hR.bufEq] at g1 s1
      have := h x.p i obj r (hcd x hx) ⟨objs, g1, g2⟩ (by rw [stateIdxs_eq]; exact g3) ⟨sts, s1, s2⟩
      obtain ⟨y, hy, ey⟩ := called_done hR this
      rw [h2] at s3; injection s3 with s3; subst s3
      exact h3 (List.mem_map.2 ⟨y, hy, ey⟩)
    · revert e; cases d.finish ord hord <;> simp [Outcome.isErr, Outcome.isPanic]
  · rw [e]
    refine ⟨⟨fun _ => ?_, fun _ => rfl⟩, rfl⟩
    intro p i obj r hp ho hi hs
    obtain ⟨x, hx, rfl⟩ := called_done hR hp
    obtain ⟨j, h1, h2⟩ := ref_noted hR hx ho hi hs
    obtain ⟨y, hy, ey⟩ := List.mem_map.1 (hall i r.toNat j h1 h2)
    rw [← ey]; exact hcd y hy

/-- A node that refers to a tag. -/
def crossBuf : FbBaseline :=
  ⟨some [nodeT, tagT], some [.u8 5, .objectHandle 1, .fbString (some "a"), .contractDataHandle 0],
   some [⟨some 0, some [0, 1]⟩, ⟨some 1, some [2, 3]⟩]⟩

example : DesRun crossBuf .main (demoRun crossBuf [nodeC, tagC] [(nodeC, c1)]).1
    (demoRun crossBuf [nodeC, tagC] [(nodeC, c1)]).2.1 (demoRun crossBuf [nodeC, tagC] [(nodeC, c1)]).2.2 ∧
    (demoRun crossBuf [nodeC, tagC] [(nodeC, c1)]).2.1 = [((nodeC, c1), .ok ())] ∧
    ((demoRun crossBuf [nodeC, tagC] [(nodeC, c1)]).2.2.finish .id .id).isErr = true ∧
    ((demoRun crossBuf [nodeC, tagC] [(nodeC, c1), (tagC, c2)]).2.2.finish .id .id).isOk = true :=
  ⟨demoRun_run _ _ _ (by decide +kernel), by decide +kernel⟩

/-! ## C55 -/

/-- What C55 asks: no `deserialize_objects` call ever panics. -/
def NeverPanics (good : FbBaseline → Prop) : Prop :=
  ∀ (buf : FbBaseline) (kind : Kind) (regs : List (ContractTy × Outcome Idx))
    (calls : List ((ContractTy × Idx) × Outcome Unit)) (d : Des) (C : ContractTy) (h : Idx), good buf →
    DesRun buf kind regs calls d → (C, Outcome.ok h) ∈ regs → (d.deserializeObjects C h).2.isPanic = false

/-- A state index out of range. -/
def rangeBuf : FbBaseline := ⟨some [nodeT], some [.u8 5], some [⟨some 0, some [0, 7]⟩]⟩
/-- A union discriminant unknown to the schema. -/
def unknownBuf : FbBaseline := ⟨some [nodeT], some [.unknown 99, .u8 1], some [⟨some 0, some [0, 1]⟩]⟩
/-- A string table without its string. -/
def stringBuf : FbBaseline :=
  ⟨some [tagT], some [.fbString none, .contractDataHandle 0], some [⟨some 0, some [0, 1]⟩]⟩
/-- A contract with a plain number, to be deserialized twice. -/
def numC : ContractTy := ⟨⟨"num", 1, 0, 0⟩, [⟨"v", .prim .u8⟩], []⟩
def numBuf : FbBaseline :=
  ⟨some [⟨some ⟨some "num", 1, 0, 0⟩, some ⟨some ["v"], some [some .u8]⟩⟩], some [.u8 5], some [⟨some 0, some [0]⟩]⟩

/-- **C55 (false of the code).** Buffers the verifier accepts make `deserialize_objects` panic: with a state
index out of range, with an unknown union discriminant, with a string table lacking its string; and so
does a second call for the same contract on a flawless buffer, or a call for a contract that was not
registered. -/
theorem C55_negation :
    (∃ d regs, DesRun rangeBuf .main regs [] d ∧ (nodeC, Outcome.ok c1) ∈ regs ∧
      (d.deserializeObjects nodeC c1).2.isPanic = true) ∧
    (∃ d regs, DesRun unknownBuf .main regs [] d ∧ (nodeC, Outcome.ok c1) ∈ regs ∧
      (d.deserializeObjects nodeC c1).2.isPanic = true) ∧
    (∃ d regs, DesRun stringBuf .main regs [] d ∧ (tagC, Outcome.ok c1) ∈ regs ∧
      (d.deserializeObjects tagC c1).2.isPanic = true) ∧
    (NoHidden numBuf ∧ ∃ d regs, DesRun numBuf .main regs [((numC, c1), .ok ())] d ∧ (numC, Outcome.ok c1) ∈ regs ∧
      (d.deserializeObjects numC c1).2.isPanic = true) ∧
    (∃ d regs, DesRun numBuf .main regs [] d ∧ (d.deserializeObjects numC c2).2.isPanic = true) ∧
    ¬ NeverPanics (fun _ => True) ∧ ¬ NeverPanics NoHidden := by
  have hno : NoHidden numBuf := by
    have hst : ∀ (i : Nat) (v : FbVal), StateAt numBuf i v → v = .u8 5 := by
      rintro i v ⟨sts, h1, h2⟩
      simp only [numBuf, Option.some.injEq] at h1; subst h1
      have := List.mem_of_getElem? h2
      simpa using this
    refine ⟨?_, fun i g h => by simpa using hst i _ h, fun i h => by simpa using hst i _ h⟩
    rintro p i obj sts ⟨objs, h1, h2⟩ h3 h4
    simp only [numBuf, Option.some.injEq] at h1 h3; subst h1 h3
    have := List.mem_of_getElem? h2
    simp only [List.mem_singleton] at this; subst this
    simp [stateIdxs] at h4; subst h4; decide
  have a1 : ∃ d regs, DesRun rangeBuf .main regs [] d ∧ (nodeC, Outcome.ok c1) ∈ regs ∧
      (d.deserializeObjects nodeC c1).2.isPanic = true :=
    ⟨_, _, demoRun_run rangeBuf [nodeC] [] (by decide +kernel), by decide +kernel, by decide +kernel⟩
  have a4 : ∃ d regs, DesRun numBuf .main regs [((numC, c1), .ok ())] d ∧ (numC, Outcome.ok c1) ∈ regs ∧
      (d.deserializeObjects numC c1).2.isPanic = true := by
    have h := demoRun_run numBuf [numC] [(numC, c1)] (by decide +kernel)
    rw [show (demoRun numBuf [numC] [(numC, c1)]).2.1 = [((numC, c1), .ok ())] from by decide +kernel] at h
    exact ⟨_, _, h, by decide +kernel, by decide +kernel⟩
  refine ⟨a1, ⟨_, _, demoRun_run unknownBuf [nodeC] [] (by decide +kernel), by decide +kernel, by decide +kernel⟩,
    ⟨_, _, demoRun_run stringBuf [tagC] [] (by decide +kernel), by decide +kernel, by decide +kernel⟩,
    ⟨hno, a4⟩, ⟨_, _, demoRun_run numBuf [numC] [] (by decide +kernel), by decide +kernel⟩, ?_, ?_⟩
  · intro h
    obtain ⟨d, regs, h1, h2, h3⟩ := a1
    rw [h _ _ _ _ _ _ _ trivial h1 h2] at h3; cases h3
  · intro h
    obtain ⟨d, regs, h1, h2, h3⟩ := a4
    rw [h _ _ _ _ _ _ _ hno h1 h2] at h3; cases h3

/-- **C55, partial.** On every buffer in which no object of the contract has one of the three hidden defects (whatever is wrong
elsewhere), with any registrations and any earlier calls, `deserialize_objects` for a registered contract it was not called
for before returns `Ok` or `Err`.  On every buffer whatsoever, building, registering and finishing never panic. -/
theorem C55_no_panic_partial {buf : FbBaseline} {kind : Kind} {regs : List (ContractTy × Outcome Idx)}
    {calls : List ((ContractTy × Idx) × Outcome Unit)} {d : Des} (hd : DesRun buf kind regs calls d) :
    (∀ (C C0 : ContractTy) (h : Idx), NoHiddenIn buf [C0] → (C0, Outcome.ok h) ∈ regs →
      (∀ (C' : ContractTy) (r : Outcome Unit), ((C', h), r) ∉ calls) →
      (d.deserializeObjects C h).2.isPanic = false) ∧
    (∀ (buf' : FbBaseline) (kind' : Kind), (Builder.new buf' kind').isPanic = false) ∧
    (∀ ord hord, (d.finish ord hord).isPanic = false) := by
  obtain ⟨done, hR⟩ := desRun_ok hd
  refine ⟨?_, ?_, ?_⟩
  · intro C C0 h hn hreg hcalls
    obtain ⟨k, hk⟩ := (hR.live C0 h hreg).2
    have hmem := (hR.pairs k h).2 ⟨C0, hreg, hk⟩
    have hgr := (BiMap.getR_iff hR.inv.cmap).2 hmem
    unfold Des.deserializeObjects
    rw [hgr]
    simp only
    split
    · rfl
    · rename_i objs ho
      refine objectLoop_noPanic _ d done hR.inv hmem (nodup_objectsWithContract _ _) ?_ ?_
      · intro p hp
        obtain ⟨obj, c, h1, h2, h3⟩ := mem_objectsWithContract.1 hp
        obtain ⟨h4, h5⟩ := List.getElem?_eq_some_iff.1 h1
        refine ⟨objs, ho, h4, ?_⟩
        rw [hR.bufEq] at ho ⊢
        rw [h5]
        exact sane_of_noHidden hn ⟨C0, by simp, k, obj, c, findSerialized_iff.1 hk, ⟨objs, ho, h1⟩, h2, h3⟩ ⟨objs, ho, h1⟩
      · intro p hp hm
        obtain ⟨x, hx, rfl⟩ := List.mem_map.1 hm
        obtain ⟨obj, c, g1, g2, g3⟩ := mem_objectsWithContract.1 hp
        obtain ⟨⟨ob, k', obj', a1, a2, a3, a4, a5, a6, a7, a8⟩, a9⟩ := hR.inv.fields x hx
        obtain ⟨objs', e1, e2⟩ := a6.here
        rw [ho] at e1; injection e1 with e1; subst e1
        rw [g1] at e2; injection e2 with e2; subst e2
        obtain ⟨c', e3, e4⟩ := a6.contract
        rw [g2] at e3; injection e3 with e3; subst e3
        have : k' = k := by rw [← e4, g3]
        subst this
        have : x.h = h := BiMap.pair_left hR.inv.cmap a5 hmem
        obtain ⟨r, hr⟩ := hR.called x hx
        rw [this] at hr
        exact hcalls x.C r hr
  · intro buf' kind'
    by_cases hs : maxTables < buf'.tables
    · rw [builder_new_err kind' hs]; rfl
    · obtain ⟨bd, h, _⟩ := builder_new buf' (by omega) kind'
      rw [h]; rfl
  · intro ord hord
    rcases finish_spec hR ord hord with ⟨_, e⟩ | ⟨_, b', e, _⟩
    · revert e; cases d.finish ord hord <;> simp [Outcome.isErr, Outcome.isPanic]
    · rw [e]; rfl

/-- Object number `p` of the buffer is the first that names contract number `k`. -/
def FirstOf (buf : FbBaseline) (k p : Nat) (obj : FbObject) : Prop :=
  ObjectAt buf p obj ∧ (∃ c, obj.contract = some c ∧ c.toNat = k) ∧
  ∀ (q : Nat) (obj' : FbObject) (c : BitVec 16), q < p → ObjectAt buf q obj' → obj'.contract = some c → c.toNat ≠ k

theorem objectsWithContract_first {k p : Nat} {objs : List FbObject} {obj : FbObject} {c : BitVec 16} (hp : objs[p]? = some obj)
    (hc : obj.contract = some c) (hk : c.toNat = k)
    (hfirst : ∀ (q : Nat) (obj' : FbObject) (c : BitVec 16), q < p → objs[q]? = some obj' → obj'.contract = some c → c.toNat ≠ k) :
    ∃ rest, objectsWithContract k objs = p :: rest := by
  have hm := mem_objectsWithContract.2 ⟨obj, c, hp, hc, hk⟩
  have hs : (objectsWithContract k objs).Pairwise (· < ·) := by
    unfold objectsWithContract
    have h : (objs.zipIdx.map Prod.snd).Pairwise (· < ·) := by
      rw [List.zipIdx_map_snd]; exact List.pairwise_lt_range'
    exact h.sublist (List.filter_sublist.map _)
  cases hl : objectsWithContract k objs with
  | nil => rw [hl] at hm; cases hm
  | cons q rest =>
    rw [hl] at hm hs
    rcases List.mem_cons.1 hm with rfl | hr
    · exact ⟨rest, rfl⟩
    · have hlt := (List.pairwise_cons.1 hs).1 p hr
      obtain ⟨obj', c', g1, g2, g3⟩ := mem_objectsWithContract.1 (show q ∈ objectsWithContract k objs by rw [hl]; simp)
      exact absurd g3 (hfirst q obj' c' hlt g1 g2)

theorem checkStates_crash {sts : List FbVal} (is : List (BitVec 32)) : ∀ (ts : List PropType) (n : Nat) (i : BitVec 32),
    is.length = ts.length → is[n]? = some i →
    (∀ (m : Nat) (j : BitVec 32) (t : PropType), m < n → is[m]? = some j → ts[m]? = some t →
      ∃ v tag, sts[j.toNat]? = some v ∧ v.tag = some tag ∧ tag.eqProp t = true) →
    (sts[i.toNat]? = none ∨ ∃ v, sts[i.toNat]? = some v ∧ v.tag = none) → (checkStates sts is ts).isPanic = true := by
  induction is with
  | nil => intro ts n i _ h; simp at h
  | cons a is ih =>
    intro ts n i hl hi hb hbad
    cases ts with
    | nil => simp at hl
    | cons t ts =>
      cases n with
      | zero =>
        simp only [List.getElem?_cons_zero, Option.some.injEq] at hi
        subst hi
        unfold checkStates
        rcases hbad with h | ⟨v, h, h'⟩
        · rw [h]; rfl
        · rw [h]; simp only [h']; rfl
      | succ n =>
        obtain ⟨v, tag, h1, h2, h3⟩ := hb 0 a t (by omega) (by simp) (by simp)
        unfold checkStates
        rw [h1]
        simp only [h2, h3, if_true]
        exact ih ts n i (by simpa using hl) (by simpa using hi)
          (fun m j t' hm g1 g2 => hb (m + 1) j t' (by omega) (by simpa using g1) (by simpa using g2)) hbad

/-- **C55, partial.** And such a defect does make it panic: if the first object table of a registered contract has the right number
of states, one of which is out of range or of a kind the schema does not define, and the states before that one are of the declared
types, then `deserialize_objects` panics, whatever was called before. -/
theorem C55_damage_panics_partial {buf : FbBaseline} {kind : Kind} {regs : List (ContractTy × Outcome Idx)}
    {calls : List ((ContractTy × Idx) × Outcome Unit)} {d : Des} (hd : DesRun buf kind regs calls d) {C C0 : ContractTy} {h : Idx}
    (hreg : (C0, Outcome.ok h) ∈ regs) {k p : Nat} {obj : FbObject} (hk : ContractNo buf C0 k) (hf : FirstOf buf k p obj)
    (hlen : (stateIdxs obj).length = C.states.length) {sts : List FbVal} (hs : buf.states = some sts) {n i : Nat}
    (hi : (stateIdxs obj)[n]? = some i)
    (hbefore : ∀ (m j : Nat) (f : Field), m < n → (stateIdxs obj)[m]? = some j → C.states[m]? = some f →
      ∃ v q, StateAt buf j v ∧ valPrim v = some q ∧ f.ty = .prim q)
    (hbad : sts.length ≤ i ∨ ∃ g, StateAt buf i (.unknown g)) : (d.deserializeObjects C h).2.isPanic = true := by
  obtain ⟨done, hR⟩ := desRun_ok hd
  obtain ⟨⟨objs, ho, hp⟩, ⟨c, hc, hck⟩, hfirst⟩ := hf
  have hmem := (hR.pairs k h).2 ⟨C0, hreg, findSerialized_iff.2 hk⟩
  obtain ⟨rest, hrest⟩ := objectsWithContract_first hp hc hck fun q obj' c' hq g1 => hfirst q obj' c' hq ⟨objs, ho, g1⟩
  cases hst : obj.states with
  | none => simp [stateIdxs, hst] at hi
  | some is =>
    have e : stateIdxs obj = is.map BitVec.toNat := by simp [stateIdxs, hst]
    rw [e] at hlen hi hbefore
    simp only [List.getElem?_map, Option.map_eq_some_iff] at hi
    obtain ⟨a, ha, rfl⟩ := hi
    have hcr : (checkStates sts is C.stateTypes).isPanic = true := by
      refine checkStates_crash is C.stateTypes n a (by simpa [ContractTy.stateTypes] using hlen) ha ?_ ?_
      · intro m j t hm g1 g2
        simp only [ContractTy.stateTypes, List.getElem?_map, Option.map_eq_some_iff] at g2
        obtain ⟨f, g2, rfl⟩ := g2
        obtain ⟨v, q, ⟨sts', e1, e2⟩, e3, e4⟩ := hbefore m j.toNat f hm (by simp [g1]) g2
        rw [hs] at e1; injection e1 with e1; subst e1
        obtain ⟨tag, e5, e6⟩ := tag_valPrim.2 ⟨q, e3, e4⟩
        exact ⟨v, tag, e2, e5, e6⟩
      · rcases hbad with hb | ⟨g, sts', e1, e2⟩
        · exact .inl (List.getElem?_eq_none_iff.2 hb)
        · rw [hs] at e1; injection e1 with e1; subst e1
          exact .inr ⟨_, e2, rfl⟩
    have hval : ∃ m, validateObj C k buf p = .panic m := by
      unfold validateObj
      rw [ho]
      simp only [hp, hc, hck, ne_eq, not_true_eq_false, if_false, hst, hs]
      have hn : obj.numStates = C.stateTypes.length := by
        simp only [FbObject.numStates, hst, ContractTy.stateTypes, List.length_map]
        simpa using hlen
      rw [if_neg (by simpa using hn)]
      cases hx : checkStates sts is C.stateTypes with
      | ok u => rw [hx] at hcr; cases hcr
      | err m => rw [hx] at hcr; cases hcr
      | panic m => exact ⟨m, rfl⟩
    obtain ⟨m, hval⟩ := hval
    unfold Des.deserializeObjects
    rw [(BiMap.getR_iff hR.inv.cmap).2 hmem]
    simp only [hR.bufEq, ho, hrest]
    unfold Des.objectLoop
    rw [hR.bufEq, hval]
    rfl

theorem restoreProps_crash {sts : List FbVal} (L : List (DynId × Nat)) : ∀ (d : Des) (n : Nat) (x : DynId × Nat), d.b.buf.states = some sts →
    L[n]? = some x → sts[x.2]? = some (.fbString none) →
    (∀ (m : Nat) (y : DynId × Nat), m < n → L[m]? = some y → ∃ v q, sts[y.2]? = some v ∧ valPrim v = some q ∧
      q ≠ .objectHandle ∧ q ≠ .contractDataHandle) → (d.restoreProps L).2.isPanic = true := by
  induction L with
  | nil => intro d n x _ h; simp at h
  | cons y L ih =>
    intro d n x hs hx hn hb
    obtain ⟨id, j⟩ := y
    have hcase : sts[j]? = some (.fbString none) ∨
        ∃ n', n = n' + 1 ∧ ∃ v p, sts[j]? = some v ∧ (∀ r, v ≠ .objectHandle r) ∧ Des.decodeVal d.b.contracts v = .ok p := by
      cases n with
      | zero =>
        simp only [List.getElem?_cons_zero, Option.some.injEq] at hx
        subst hx
        exact .inl hn
      | succ n =>
        obtain ⟨v, q, h1, h2, h3, h4⟩ := hb 0 (id, j) (by omega) (by simp)
        cases v with
        | fbString t =>
          cases t with
          | none => exact .inl h1
          | some t => exact .inr ⟨n, rfl, _, _, h1, by simp, rfl⟩
        | none_ => simp [valPrim] at h2
        | unknown g => simp [valPrim] at h2
        | objectHandle r => simp only [valPrim, Option.some.injEq] at h2; exact absurd h2.symm h3
        | contractDataHandle c => simp only [valPrim, Option.some.injEq] at h2; exact absurd h2.symm h4
        | _ => exact .inr ⟨n, rfl, _, _, h1, by simp, rfl⟩
    unfold Des.restoreProps
    rw [hs]
    rcases hcase with h1 | ⟨n', rfl, v, p, h1, h2, h3⟩
    · simp only [h1, Des.decodeVal]; rfl
    · have hrec := ih d n' x hs (by simpa using hx) hn (fun m y hm g => hb (m + 1) y (by omega) (by simpa using g))
      rcases hr : d.restoreProps L with ⟨d2, res⟩
      rw [hr] at hrec
      cases res with
      | ok e => cases hrec
      | err m => cases hrec
      | panic m =>
        cases v with
        | objectHandle r => exact absurd rfl (h2 r)
        | _ => simp only [h1, h3]; rfl

/-- **C55, partial.** So does a string table without a string: if the first object table of a registered contract is well formed, one
of its states is such a table and no state before that one is a handle, then `deserialize_objects` panics, whatever was called before. -/
theorem C55_missing_string_panics_partial {buf : FbBaseline} {kind : Kind} {regs : List (ContractTy × Outcome Idx)}
    {calls : List ((ContractTy × Idx) × Outcome Unit)} {d : Des} (hd : DesRun buf kind regs calls d) {C C0 : ContractTy} {h : Idx}
    (hreg : (C0, Outcome.ok h) ∈ regs) {k p : Nat} {obj : FbObject} (hk : ContractNo buf C0 k) (hf : FirstOf buf k p obj)
    (hw : WellFormedObj buf C k obj) {n i : Nat} (hi : (stateIdxs obj)[n]? = some i) (hs : StateAt buf i (.fbString none))
    (hbefore : ∀ (m : Nat) (f : Field), m < n → C.states[m]? = some f → f.ty ≠ .prim .objectHandle ∧ f.ty ≠ .prim .contractDataHandle) :
    (d.deserializeObjects C h).2.isPanic = true := by
  obtain ⟨done, hR⟩ := desRun_ok hd
  obtain ⟨⟨objs, ho, hp⟩, ⟨c, hc, hck⟩, hfirst⟩ := hf
  have hmem := (hR.pairs k h).2 ⟨C0, hreg, findSerialized_iff.2 hk⟩
  obtain ⟨rest, hrest⟩ := objectsWithContract_first hp hc hck fun q obj' c' hq g1 => hfirst q obj' c' hq ⟨objs, ho, g1⟩
  obtain ⟨sts, hs1, hs2⟩ := hs
  unfold Des.deserializeObjects
  rw [(BiMap.getR_iff hR.inv.cmap).2 hmem]
  simp only [hR.bufEq, ho, hrest]
  unfold Des.objectLoop
  rw [hR.bufEq]
  have hval : validateObj C k buf p = .ok obj := wellFormed_valid (fun _ => ⟨sts, hs1⟩) ⟨objs, ho, hp⟩ hw
  rw [hval]
  simp only
  rw [stateIdxs_eq] at hi
  have hln : n < C.states.length := by
    have := hw.2.1
    rw [stateIdxs_eq] at this
    rw [← this]
    exact (List.getElem?_eq_some_iff.1 hi).1
  have hcr : (d.restoreProps ((C.stateIds h).zip obj.idxs)).2.isPanic = true := by
    refine restoreProps_crash (sts := sts) _ d n _ (by rw [hR.bufEq]; exact hs1)
      (stateIds_zip_mk (C := C) (h := h) (t := C.states[n].ty) (by simp [ContractTy.stateTypes, hln]) hi) hs2 ?_
    rintro m ⟨id', j⟩ hm hj
    rw [List.getElem?_zip_eq_some] at hj
    have hlm : m < C.states.length := by omega
    obtain ⟨v, q, ⟨sts', e1, e2⟩, e3, e4⟩ := hw.2.2 m j C.states[m] (by rw [stateIdxs_eq]; exact hj.2) (List.getElem?_eq_getElem hlm)
    rw [hs1] at e1; injection e1 with e1; subst e1
    obtain ⟨b1, b2⟩ := hbefore m C.states[m] hm (List.getElem?_eq_getElem hlm)
    rw [e4] at b1 b2
    exact ⟨v, q, e2, e3, fun e => b1 (by rw [e]), fun e => b2 (by rw [e])⟩
  rw [deserializeObj_unf]
  rcases hr : d.restoreProps ((C.stateIds h).zip obj.idxs) with ⟨d1, r⟩
  rw [hr] at hcr
  cases r with
  | ok e => cases hcr
  | err m => cases hcr
  | panic m => rfl

/-- Both theorems apply to the buffers of `C55_negation`. -/
example : FirstOf rangeBuf 0 0 ⟨some 0, some [0, 7]⟩ ∧ ContractNo rangeBuf nodeC 0 ∧ (stateIdxs ⟨some 0, some [0, 7]⟩)[1]? = some 7 ∧
    FirstOf stringBuf 0 0 ⟨some 0, some [0, 1]⟩ ∧ ContractNo stringBuf tagC 0 ∧ WellFormedObj stringBuf tagC 0 ⟨some 0, some [0, 1]⟩ ∧
    StateAt stringBuf 0 (.fbString none) := by
  refine ⟨⟨⟨_, rfl, rfl⟩, ⟨0, rfl, rfl⟩, fun q _ _ h => absurd h (by omega)⟩, findSerialized_iff.1 (by decide +kernel), rfl,
    ⟨⟨_, rfl, rfl⟩, ⟨0, rfl, rfl⟩, fun q _ _ h => absurd h (by omega)⟩, findSerialized_iff.1 (by decide +kernel), ⟨⟨0, rfl, rfl⟩, rfl, ?_⟩, ⟨_, rfl, rfl⟩⟩
  intro n i f h1 h2
  rcases n with _ | _ | n
  · simp [stateIdxs] at h1; simp [tagC] at h2; subst h1 h2
    exact ⟨.fbString none, .string, ⟨_, rfl, rfl⟩, rfl, rfl⟩
  · simp [stateIdxs] at h1; simp [tagC] at h2; subst h1 h2
    exact ⟨.contractDataHandle 0, .contractDataHandle, ⟨_, rfl, rfl⟩, rfl, rfl⟩
  · simp [stateIdxs] at h1

/-! ## C56, C60, C61 -/

theorem eq_of_same_o {done : List DoneObj} (h : (done.map DoneObj.o).Nodup) {x y : DoneObj} (hx : x ∈ done)
    (hy : y ∈ done) (e : x.o = y.o) : x = y := by
  induction done with
  | nil => cases hx
  | cons z done ih =>
    simp only [List.map_cons, List.nodup_cons, List.mem_map, not_exists, not_and] at h
    rcases List.mem_cons.1 hx with e1 | hx' <;> rcases List.mem_cons.1 hy with e2 | hy'
    · rw [e1, e2]
    · subst e1; exact absurd e.symm (h.1 y hy')
    · subst e2; exact absurd e (h.1 x hx')
    · exact ih h.2 hx' hy'

theorem eq_of_same_p {done : List DoneObj} (h : (done.map DoneObj.p).Nodup) {x y : DoneObj} (hx : x ∈ done)
    (hy : y ∈ done) (e : x.p = y.p) : x = y := by
  induction done with
  | nil => cases hx
  | cons z done ih =>
    simp only [List.map_cons, List.nodup_cons, List.mem_map, not_exists, not_and] at h
    rcases List.mem_cons.1 hx with e1 | hx' <;> rcases List.mem_cons.1 hy with e2 | hy'
    · rw [e1, e2]
    · subst e1; exact absurd e.symm (h.1 y hy')
    · subst e2; exact absurd e (h.1 x hx')
    · exact ih h.2 hx' hy'

/-- The number of the buffer object an object was restored from. -/
def numberOf (done : List DoneObj) (o : Idx) : Nat :=
  match done.find? (fun x => x.o = o) with
  | some x => x.p
  | none => 0

theorem numberOf_eq {done : List DoneObj} (h : (done.map DoneObj.o).Nodup) {x : DoneObj} (hx : x ∈ done) :
    numberOf done x.o = x.p := by
  unfold numberOf
  cases hf : done.find? (fun y => y.o = x.o) with
  | none => have := List.find?_eq_none.1 hf x hx; simp at this
  | some y =>
    have h1 := List.find?_some hf
    simp only [decide_eq_true_eq] at h1
    rw [eq_of_same_o h (List.mem_of_find?_eq_some hf) hx h1]

/-- The restored objects of a finished run are exactly the live objects. -/
theorem finished_live {d : Des} {done : List DoneObj} {b' : Baseline} (hI : DInv d done) (hF : Finished d done b')
    {o : Idx} {ob : ObjectD} (ho : b'.object o = .ok ob) : ∃ x ∈ done, x.o = o := by
  have ho := object_ok.1 ho
  rw [hF.objects] at ho
  split at ho
  · cases ho
  · rename_i hne
    rcases hI.live o ob ho with h | h
    · exact absurd h hne
    · exact h

/-- **C56.** When `finish` returns `Ok` after any calls (some of which may have failed), every object of the
baseline was restored from its own object table of the buffer, which is well formed for the contract type of
the call that restored it.  So an object table that fails validation has no object, not even a partial one. -/
theorem C56_only_valid_objects {buf : FbBaseline} {kind : Kind} {regs : List (ContractTy × Outcome Idx)}
    {calls : List ((ContractTy × Idx) × Outcome Unit)} {d : Des} (hd : DesRun buf kind regs calls d)
    (ord : IterOrder (Nat × Idx)) (hord : HashOrder) {b' : Baseline} (hf : d.finish ord hord = .ok b') :
    ∃ number : Idx → Nat,
      (∀ (o o' : Idx) (ob ob' : ObjectD), b'.object o = .ok ob → b'.object o' = .ok ob' →
        number o = number o' → o = o') ∧
      ∀ (o : Idx) (ob : ObjectD), b'.object o = .ok ob →
        ∃ (C C0 : ContractTy) (r : Outcome Unit) (k : Nat) (obj : FbObject),
          ((C, ob.contract), r) ∈ calls ∧ (C0, Outcome.ok ob.contract) ∈ regs ∧ ContractNo buf C0 k ∧
          ObjectAt buf (number o) obj ∧ WellFormedObj buf C k obj ∧
          C.channels = [] ∧ ob.channels = [] ∧ ob.states.length = C.states.length ∧
          ∀ (n : Nat) (f : Field) (j : Idx), C.states[n]? = some f → ob.states[n]? = some j →
            ∃ v, b'.state f.ty j = .ok v := by
  obtain ⟨done, hR⟩ := desRun_ok hd
  have hI := hR.inv
  rcases finish_spec hR ord hord with ⟨_, e⟩ | ⟨_, b2, e, hre, hF⟩
  · rw [hf] at e; cases e
  rw [hf] at e; injection e with e; subst e
  refine ⟨numberOf done, ?_, ?_⟩
  · intro o o' ob ob' h1 h2 e
    obtain ⟨x, hx, rfl⟩ := finished_live hI hF h1
    obtain ⟨y, hy, rfl⟩ := finished_live hI hF h2
    rw [numberOf_eq hI.onodup hx, numberOf_eq hI.onodup hy] at e
    rw [eq_of_same_p hI.pnodup hx hy e]
  · intro o ob ho
    obtain ⟨x, hx, rfl⟩ := finished_live hI hF ho
    obtain ⟨ob', k, obj, C0, g1, g2, g3, g4, g5, g6, g7, g8, g9, g10⟩ := finished_object hR hF hx
    have ho := object_ok.1 ho
    rw [g1] at ho; injection ho with ho; subst ho
    obtain ⟨r, hr⟩ := hR.called x hx
    rw [numberOf_eq hI.onodup hx, g2]
    refine ⟨x.C, C0, r, k, obj, hr, g5, findSerialized_iff.1 g6, g7, g8, (hI.fields x hx).noChan, g3, g9, ?_⟩
    intro n f j h1 h2
    have hlt : n < (stateIdxs obj).length := by
      rw [g8.2.1]; exact (List.getElem?_eq_some_iff.1 h1).1
    obtain ⟨v, val, e1, e2, e3⟩ := g10 n _ f j h1 (List.getElem?_eq_getElem hlt) h2
    exact ⟨val, state_ok.2 e2⟩

/-- A node whose second state has the wrong type: the call fails and no object appears. -/
def badBuf : FbBaseline :=
  ⟨some [nodeT], some [.u8 5, .objectHandle 0, .u8 6, .u8 7], some [⟨some 0, some [0, 1]⟩, ⟨some 0, some [2, 3]⟩]⟩

example : (demoRun badBuf [nodeC] [(nodeC, c1)]).2.1 = [((nodeC, c1), .err "state has the wrong type")] ∧
    (match (demoRun badBuf [nodeC] [(nodeC, c1)]).2.2.finish .id .id with
      | .ok b => b.iterObjects.length | _ => 99) = 1 := by decide +kernel

/-- **C60.** When `finish` returns `Ok`, the objects of the baseline correspond one to one to object tables of
the buffer, all tables of the contracts whose call succeeded among them, and every state has the value its
table gives: numbers, booleans, floats and strings bit for bit, object references as the object restored for
the referenced table, contract references as the contract registered for the referenced table. -/
theorem C60_faithful {buf : FbBaseline} {kind : Kind} {regs : List (ContractTy × Outcome Idx)}
    {calls : List ((ContractTy × Idx) × Outcome Unit)} {d : Des} (hd : DesRun buf kind regs calls d)
    (ord : IterOrder (Nat × Idx)) (hord : HashOrder) {b' : Baseline} (hf : d.finish ord hord = .ok b') :
    ∃ number : Idx → Nat,
      (∀ (o o' : Idx) (ob ob' : ObjectD), b'.object o = .ok ob → b'.object o' = .ok ob' →
        number o = number o' → o = o') ∧
      (∀ p : Nat, CalledWith buf regs calls (.ok ()) p → ∃ o ob, b'.object o = .ok ob ∧ number o = p) ∧
      ∀ (o : Idx) (ob : ObjectD), b'.object o = .ok ob →
        ∃ (C : ContractTy) (r : Outcome Unit) (obj : FbObject), ((C, ob.contract), r) ∈ calls ∧
          ObjectAt buf (number o) obj ∧ ob.states.length = C.states.length ∧
          (stateIdxs obj).length = C.states.length ∧ ob.warp = TimeWarp.default ∧ ob.channels = [] ∧
          ∀ (n i : Nat) (f : Field) (j : Idx), C.states[n]? = some f → (stateIdxs obj)[n]? = some i →
            ob.states[n]? = some j → ∃ v val, StateAt buf i v ∧ b'.state f.ty j = .ok val ∧
              Denotes (fun c h => ∃ C', (C', Outcome.ok h) ∈ regs ∧ ContractNo buf C' c)
                (fun r o' => number o' = r ∧ ∃ ob', b'.object o' = .ok ob') v (DynProp.ofTyped f.ty val) := by
  obtain ⟨done, hR⟩ := desRun_ok hd
  have hI := hR.inv
  rcases finish_spec hR ord hord with ⟨_, e⟩ | ⟨_, b2, e, hre, hF⟩
  · rw [hf] at e; cases e
  rw [hf] at e; injection e with e; subst e
  refine ⟨numberOf done, ?_, ?_, ?_⟩
  · intro o o' ob ob' h1 h2 e
    obtain ⟨x, hx, rfl⟩ := finished_live hI hF h1
    obtain ⟨y, hy, rfl⟩ := finished_live hI hF h2
    rw [numberOf_eq hI.onodup hx, numberOf_eq hI.onodup hy] at e
    rw [eq_of_same_p hI.pnodup hx hy e]
  · intro p hp
    obtain ⟨x, hx, rfl⟩ := called_done hR hp
    obtain ⟨ob', k, obj, C0, g1, _⟩ := finished_object hR hF hx
    exact ⟨x.o, ob', object_ok.2 g1, numberOf_eq hI.onodup hx⟩
  · intro o ob ho
    obtain ⟨x, hx, rfl⟩ := finished_live hI hF ho
    obtain ⟨ob', k, obj, C0, g1, g2, g3, g4, g5, g6, g7, g8, g9, g10⟩ := finished_object hR hF hx
    have ho := object_ok.1 ho
    rw [g1] at ho; injection ho with ho; subst ho
    obtain ⟨r, hr⟩ := hR.called x hx
    rw [numberOf_eq hI.onodup hx, g2]
    refine ⟨x.C, r, obj, hr, g7, g9, g8.2.1, g4, g3, ?_⟩
    intro n i f j h1 h2 h3
    obtain ⟨v, val, e1, e2, e3⟩ := g10 n i f j h1 h2 h3
    refine ⟨v, val, e1, state_ok.2 e2, ?_⟩
    have q1 : (fun (c : Nat) (h : Idx) => ∃ C', (C', Outcome.ok h) ∈ regs ∧ ContractNo buf C' c) =
        (fun c h => ∃ C, (C, Outcome.ok h) ∈ regs ∧ findSerialized C buf = .ok c) := by
      funext c h; simp only [findSerialized_iff]
    have q2 : (fun (r : Nat) (o' : Idx) => numberOf done o' = r ∧ ∃ ob', b'.object o' = .ok ob') =
        (fun r o => ∃ y ∈ done, y.p = r ∧ y.o = o) := by
      funext r o'
      apply propext
      constructor
      · rintro ⟨h1, ob2, h2⟩
        obtain ⟨y, hy, rfl⟩ := finished_live hI hF h2
        rw [numberOf_eq hI.onodup hy] at h1
        exact ⟨y, hy, h1, rfl⟩
      · rintro ⟨y, hy, h1, rfl⟩
        obtain ⟨ob2, _, _, _, g1, _⟩ := finished_object hR hF hy
        exact ⟨by rw [numberOf_eq hI.onodup hy, h1], ob2, object_ok.2 g1⟩
    rw [q1, q2]; exact e3

/-- **C61.** The baseline returned by `finish` is one the API of `Baseline` itself can produce, by calls none
of which panics: whatever holds of all reachable baselines holds of deserialized ones. -/
theorem C61_reachable {buf : FbBaseline} {kind : Kind} {regs : List (ContractTy × Outcome Idx)}
    {calls : List ((ContractTy × Idx) × Outcome Unit)} {d : Des} (hd : DesRun buf kind regs calls d)
    (ord : IterOrder (Nat × Idx)) (hord : HashOrder) {b' : Baseline} (hf : d.finish ord hord = .ok b') :
    ∃ evs, History kind evs b' ∧ ∀ e ∈ evs, e.2.isPanic = false := by
  obtain ⟨done, hR⟩ := desRun_ok hd
  rcases finish_spec hR ord hord with ⟨_, e⟩ | ⟨_, b2, e, hre, hF⟩
  · rw [hf] at e; cases e
  rw [hf] at e; injection e with e; subst e
  obtain ⟨evs, h1, h2, _⟩ := hre
  exact ⟨evs, h1, h2⟩

example : ∃ b', (demoRun demoBuf [nodeC, tagC] [(nodeC, c1), (tagC, c2)]).2.2.finish .id .id = .ok b' ∧
    b'.iterObjects.length = 3 := by
  have h : (match (demoRun demoBuf [nodeC, tagC] [(nodeC, c1), (tagC, c2)]).2.2.finish .id .id with
    | .ok b => decide (b.iterObjects.length = 3) | _ => false) = true := by decide +kernel
  revert h
  cases (demoRun demoBuf [nodeC, tagC] [(nodeC, c1), (tagC, c2)]).2.2.finish .id .id with
  | ok b => intro h; exact ⟨b, rfl, by simpa using h⟩
  | err m => intro h; cases h
  | panic m => intro h; cases h

end Verif.Props
