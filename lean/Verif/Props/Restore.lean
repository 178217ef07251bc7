import Verif.Props.Deserialize
import Verif.Proofs.DesSuccess
/-!
# C62: complete buffers are always restored

`Restorable buf Cs` (Spec/Buffer.lean) says that the buffer holds everything that is needed to restore the objects of
the contract types `Cs`.  `restore` is the sequence of calls a user makes: build, register, deserialize in some
order, finish.
-/
namespace Verif.Props
open Verif Spec Arena Baseline Store

theorem registerAll_succeeds {buf : FbBaseline} {kind : Kind} (Cs : List ContractTy)
    (hdesc : ∀ C ∈ Cs, ∃ k, ContractNo buf C k) (hids : (Cs.map ContractTy.id).Nodup)
    (hnull : ∀ C ∈ Cs, C.id ≠ ⟨"teleportal.serialize.NullContract", (0, 0, 0)⟩)
    {regs : List (ContractTy × Outcome Idx)} {bd : Builder} (hb : BuilderRun buf kind regs bd)
    (hold : ∀ C ∈ Cs, ∀ (C' : ContractTy) (h : Idx), (C', Outcome.ok h) ∈ regs → C'.id ≠ C.id) :
    ∃ bd' cs, bd.registerAll Cs = (bd', .ok cs) ∧ cs.map Prod.fst = Cs ∧
      BuilderRun buf kind (regs ++ cs.map fun e => (e.1, Outcome.ok e.2)) bd' := by
  induction Cs generalizing regs bd with
  | nil => exact ⟨bd, [], rfl, rfl, by simpa using hb⟩
  | cons C Cs ih =>
    obtain ⟨h1, h2, h3⟩ := C52_register_iff hb C
    obtain ⟨k, cs, c, e1, e2, e3, _⟩ := hdesc C (by simp)
    have hok := h1.2 ⟨⟨cs, c, e1, List.mem_of_getElem? e2, e3⟩, hnull C (by simp), hold C (by simp)⟩
    simp only [List.map_cons, List.nodup_cons, List.mem_map, not_exists, not_and] at hids
    have hrun := BuilderRun.register regs bd C hb h2
    unfold Builder.registerAll
    rcases hr : bd.registerContract C with ⟨bd1, r⟩
    rw [hr] at hok hrun
    cases r with
    | err m => cases hok
    | panic m => cases hok
    | ok h =>
      simp only at hrun ⊢
      obtain ⟨bd', cs', a1, a2, a3⟩ := ih (fun C hC => hdesc C (by simp [hC])) hids.2
        (fun C hC => hnull C (by simp [hC])) hrun (by
          intro C' hC' C'' h' hm
          rcases List.mem_append.1 hm with hm | hm
          · exact hold C' (by simp [hC']) C'' h' hm
          · simp only [List.mem_singleton, Prod.mk.injEq] at hm
            obtain ⟨rfl, _⟩ := hm
            exact fun e => hids.1 C' hC' e.symm)
      rw [a1]
      exact ⟨bd', (C, h) :: cs', rfl, by simp [a2], by simpa using a3⟩

theorem deserializeAll_succeeds {buf : FbBaseline} {kind : Kind} {regs : List (ContractTy × Outcome Idx)}
    {Cs : List ContractTy} (hB : Restorable buf Cs)
    (hregs : ∀ (C : ContractTy), C ∈ Cs → ∃ h, (C, Outcome.ok h) ∈ regs)
    (honly : ∀ (C : ContractTy) (h : Idx), (C, Outcome.ok h) ∈ regs → C ∈ Cs)
    (hch : ChannelsUnused buf Cs) (cs : List (ContractTy × Idx)) (hcs : ∀ e ∈ cs, e.1 ∈ Cs ∧ (e.1, Outcome.ok e.2) ∈ regs)
    (hnd : (cs.map Prod.snd).Nodup) {calls : List ((ContractTy × Idx) × Outcome Unit)} {d : Des} {done : List DoneObj}
    (hd : DesRun buf kind regs calls d) (hR : RunOk buf kind regs calls d done) (hO : RefsOwned d done)
    (hnew : ∀ e ∈ cs, ∀ (C' : ContractTy) (r : Outcome Unit), ((C', e.2), r) ∉ calls) :
    ∃ d', d.deserializeAll cs = (d', .ok ()) ∧ DesRun buf kind regs (calls ++ cs.map fun e => (e, Outcome.ok ())) d' := by
  induction cs generalizing calls d done with
  | nil => exact ⟨d, rfl, by simpa using hd⟩
  | cons e cs ih =>
    obtain ⟨C, h⟩ := e
    obtain ⟨c1, c2⟩ := hcs (C, h) (by simp)
    obtain ⟨a1, done', a2, a3⟩ := desRun_refsOwned hB hregs honly hR hO c1 (hch C c1) c2 (hnew (C, h) (by simp))
    have hrun := DesRun.objects calls d C h hd (by rw [a1]; rfl)
    rw [a1] at hrun
    simp only [List.map_cons, List.nodup_cons, List.mem_map, not_exists, not_and] at hnd
    unfold Des.deserializeAll
    rcases hr : d.deserializeObjects C h with ⟨d1, r⟩
    rw [hr] at a1 a2 a3 hrun
    simp only at a1 a2 a3 hrun
    subst a1
    simp only
    obtain ⟨d', b1, b2⟩ := ih (fun e he => hcs e (by simp [he])) hnd.2 hrun a2 a3 (by
      intro e he C' r hm
      rcases List.mem_append.1 hm with hm | hm
      · exact hnew e (by simp [he]) C' r hm
      · simp only [List.mem_singleton, Prod.mk.injEq] at hm
        exact hnd.1 e he hm.1.2)
    exact ⟨d', b1, by simpa using b2⟩

/-- Contract types without channels. -/
theorem _root_.Verif.Spec.ChannelsUnused.of_none {buf : FbBaseline} {Cs : List ContractTy} (h : ∀ C ∈ Cs, C.channels = []) :
    ChannelsUnused buf Cs := fun C hC hne => absurd (h C hC) hne

/-- Restoring a complete buffer: every call succeeds. -/
theorem restore_run {buf : FbBaseline} {Cs : List ContractTy} (hB : Restorable buf Cs)
    (hids : (Cs.map ContractTy.id).Nodup)
    (hnull : ∀ C ∈ Cs, C.id ≠ ⟨"teleportal.serialize.NullContract", (0, 0, 0)⟩)
    (hch : ChannelsUnused buf Cs) (hsize : buf.tables ≤ 1000000) (kind : Kind) (sched : IterOrder (ContractTy × Idx))
    (ord : IterOrder (Nat × Idx)) (hord : HashOrder) :
    ∃ cs b' d, restore buf kind Cs sched ord hord = .ok (cs, b') ∧ cs.map Prod.fst = Cs ∧ (cs.map Prod.snd).Nodup ∧
      DesRun buf kind (cs.map fun e => (e.1, Outcome.ok e.2)) ((sched.order cs).map fun e => (e, Outcome.ok ())) d ∧
      d.finish ord hord = .ok b' := by
  obtain ⟨bd, hbd, _⟩ := builder_new buf hsize kind
  obtain ⟨bd', cs, a1, a2, a3⟩ := registerAll_succeeds Cs hB.described hids hnull (.new bd hbd) (by simp)
  rw [List.nil_append] at a3
  have hmem : ∀ (C : ContractTy) (h : Idx), (C, Outcome.ok h) ∈ cs.map (fun e => (e.1, Outcome.ok e.2)) ↔ (C, h) ∈ cs := by
    intro C h
    simp only [List.mem_map, Prod.mk.injEq, Outcome.ok.injEq]
    constructor
    · rintro ⟨e, he, rfl, rfl⟩; exact he
    · intro he; exact ⟨_, he, rfl, rfl⟩
  have hregs : ∀ (C : ContractTy), C ∈ Cs → ∃ h, (C, Outcome.ok h) ∈ cs.map (fun e => (e.1, Outcome.ok e.2)) := by
    intro C hC
    rw [← a2] at hC
    obtain ⟨e, he, rfl⟩ := List.mem_map.1 hC
    exact ⟨e.2, (hmem _ _).2 he⟩
  have hcsC : ∀ e ∈ cs, e.1 ∈ Cs := fun e he => by rw [← a2]; exact List.mem_map.2 ⟨e, he, rfl⟩
  have hh := C52_handles a3
  have hsnd : (cs.map Prod.snd).Nodup := by
    refine nodup_of_getElem? fun n n' h h1 h2 => ?_
    simp only [List.getElem?_map, Option.map_eq_some_iff] at h1 h2
    obtain ⟨e1, g1, rfl⟩ := h1
    obtain ⟨e2, g2, e⟩ := h2
    have hid := hh.1 e1.1 e2.1 e1.2 ((hmem _ _).2 (List.mem_of_getElem? g1))
      ((hmem _ _).2 (by rw [← e]; exact List.mem_of_getElem? g2))
    have i1 : (Cs.map ContractTy.id)[n]? = some e1.1.id := by rw [← a2]; simp [g1]
    have i2 : (Cs.map ContractTy.id)[n']? = some e1.1.id := by rw [← a2, hid]; simp [g2]
    have hlt := (List.getElem?_eq_some_iff.1 i1).1
    exact (List.getElem?_inj hlt hids).1 (i1.trans i2.symm)
  have hperm := sched.perm cs
  have hnew := DesRun.new bd' a3
  have hBd := builderRun_ok a3
  have hR0 : RunOk buf kind (cs.map fun e => (e.1, Outcome.ok e.2)) [] (Des.new bd') [] := by
    refine ⟨hBd.inv, hBd.bufEq, hBd.reach.mono (fun C k hk => .inl hk), hBd.pairs, ?_, ?_, by simp, by simp⟩
    · intro h cd hg hne
      obtain ⟨C, e1, e2⟩ := hBd.cons h cd hg hne
      exact ⟨C, e1, by rw [e2]⟩
    · intro C h hm
      obtain ⟨e1, e2⟩ := hBd.live C h hm
      exact ⟨⟨_, e1, rfl⟩, e2⟩
  obtain ⟨d, b1, b2⟩ := deserializeAll_succeeds hB hregs (fun C h hm => hcsC (C, h) ((hmem C h).1 hm)) hch (sched.order cs)
    (fun e he => ⟨hcsC e (hperm.mem_iff.1 he), (hmem _ _).2 (hperm.mem_iff.1 he)⟩)
    ((hperm.map _).nodup_iff.2 hsnd) hnew hR0 (by intro i hi; simp [Des.objRef, Des.new] at hi) (by simp)
  rw [List.nil_append] at b2
  have hall : ∀ (p : Nat), ObjectOf buf Cs p ↔ CalledWith buf (cs.map fun e => (e.1, Outcome.ok e.2))
      ((sched.order cs).map fun e => (e, Outcome.ok ())) (.ok ()) p := by
    intro p
    constructor
    · rintro ⟨C, hC, k, obj, c, e1, e2, e3, e4⟩
      obtain ⟨h, hh⟩ := hregs C hC
      refine ⟨C, C, h, k, obj, c, ?_, hh, e1, e2, e3, e4⟩
      exact List.mem_map.2 ⟨(C, h), hperm.mem_iff.2 ((hmem _ _).1 hh), rfl⟩
    · rintro ⟨C, C0, h, k, obj, c, e1, e2, e3, e4, e5, e6⟩
      exact ⟨C0, hcsC _ ((hmem _ _).1 e2), k, obj, c, e3, e4, e5, e6⟩
  have hfin := (C54_finish_ok_iff b2 (fun e he => by obtain ⟨_, _, rfl⟩ := List.mem_map.1 he; rfl) ord hord).1.2 (by
    intro p i obj r hp ho hi hs
    exact (hall _).1 (hB.objectRefs p i obj r ((hall _).2 hp) ho hi hs))
  unfold restore
  rw [hbd]
  simp only
  rw [a1]
  simp only
  rw [b1]
  simp only
  cases hf : d.finish ord hord with
  | err m => rw [hf] at hfin; cases hfin
  | panic m => rw [hf] at hfin; cases hfin
  | ok b' => exact ⟨cs, b', d, rfl, a2, hsnd, b2, hf⟩

/-- **C62.** If a buffer of at most a million tables holds everything needed for the contract types `Cs` (which have
pairwise different ids, none of them the internal one, and no objects in the buffer if they have channels), then registering them, deserializing their objects in any order and finishing
succeeds, on a main or a fork baseline and whatever the hash iteration orders; and the result has exactly the contracts
`Cs` and exactly one object for each object table of theirs, holding what the table says.  `number o` is the table of
object `o`. -/
theorem C62_complete_buffers_restore {buf : FbBaseline} {Cs : List ContractTy} (hB : Restorable buf Cs)
    (hids : (Cs.map ContractTy.id).Nodup)
    (hnull : ∀ C ∈ Cs, C.id ≠ ⟨"teleportal.serialize.NullContract", (0, 0, 0)⟩)
    (hch : ChannelsUnused buf Cs) (hsize : buf.tables ≤ 1000000) (kind : Kind) (sched : IterOrder (ContractTy × Idx))
    (ord : IterOrder (Nat × Idx)) (hord : HashOrder) :
    ∃ (cs : List (ContractTy × Idx)) (b' : Baseline) (number : Idx → Nat),
      restore buf kind Cs sched ord hord = .ok (cs, b') ∧ cs.map Prod.fst = Cs ∧ (cs.map Prod.snd).Nodup ∧
      (∀ (C : ContractTy) (h : Idx), (C, h) ∈ cs → ∃ cd, b'.contractData h = .ok cd ∧ cd.id = C.id ∧
        ∀ o : Idx, o ∈ cd.objects ↔ ∃ ob, b'.object o = .ok ob ∧ ob.contract = h) ∧
      (∀ (h : Idx) (cd : ContractData), b'.contractData h = .ok cd → ∃ C, (C, h) ∈ cs) ∧
      (∀ (o o' : Idx) (ob ob' : ObjectD), b'.object o = .ok ob → b'.object o' = .ok ob' →
        number o = number o' → o = o') ∧
      (∀ p : Nat, ObjectOf buf Cs p → ∃ o ob, b'.object o = .ok ob ∧ number o = p) ∧
      ∀ (o : Idx) (ob : ObjectD), b'.object o = .ok ob →
        ∃ (C : ContractTy) (k : Nat) (obj : FbObject), (C, ob.contract) ∈ cs ∧ ContractNo buf C k ∧
          ObjectAt buf (number o) obj ∧ WellFormedObj buf C k obj ∧ ob.states.length = C.states.length ∧
          ob.warp = TimeWarp.default ∧ ob.channels = [] ∧
          ∀ (n i : Nat) (f : Field) (j : Idx), C.states[n]? = some f → (stateIdxs obj)[n]? = some i →
            ob.states[n]? = some j → ∃ v val, StateAt buf i v ∧ b'.state f.ty j = .ok val ∧
              Denotes (fun c h => ∃ C', (C', h) ∈ cs ∧ ContractNo buf C' c)
                (fun r o' => number o' = r ∧ ∃ ob', b'.object o' = .ok ob') v (DynProp.ofTyped f.ty val) := by
  obtain ⟨cs, b', d, h1, h2, h3, h4, h5⟩ := restore_run hB hids hnull hch hsize kind sched ord hord
  have hmem : ∀ (C : ContractTy) (h : Idx), (C, Outcome.ok h) ∈ cs.map (fun e => (e.1, Outcome.ok e.2)) ↔ (C, h) ∈ cs := by
    intro C h
    simp only [List.mem_map, Prod.mk.injEq, Outcome.ok.injEq]
    constructor
    · rintro ⟨e, he, rfl, rfl⟩; exact he
    · intro he; exact ⟨_, he, rfl, rfl⟩
  have hperm := sched.perm cs
  have hcsC : ∀ e ∈ cs, e.1 ∈ Cs := fun e he => by rw [← h2]; exact List.mem_map.2 ⟨e, he, rfl⟩
  obtain ⟨done, hR⟩ := desRun_ok h4
  have hI := hR.inv
  rcases finish_spec hR ord hord with ⟨_, e⟩ | ⟨_, b2, e, hre, hF⟩
  · rw [h5] at e; cases e
  rw [h5] at e; injection e with e; subst e
  -- a call uses the type the contract was registered with
  have hcallC : ∀ (C C0 : ContractTy) (h : Idx) (r : Outcome Unit), ((C, h), r) ∈ (sched.order cs).map (fun e => (e, Outcome.ok ())) →
      (C0, h) ∈ cs → C = C0 := by
    intro C C0 h r hm h0
    simp only [List.mem_map, Prod.mk.injEq] at hm
    obtain ⟨e, he, rfl, _⟩ := hm
    have he := hperm.mem_iff.1 he
    obtain ⟨n, hn⟩ := List.getElem?_of_mem he
    obtain ⟨n', hn'⟩ := List.getElem?_of_mem h0
    have := (List.getElem?_inj (i := n) (j := n') (l := cs.map Prod.snd)
      (by simpa using (List.getElem?_eq_some_iff.1 hn).1) h3).1 (by simp [hn, hn'])
    subst this
    rw [hn] at hn'; injection hn' with hn'; injection hn' with e1 e2
  have hobj : ∀ (o : Idx) (ob : ObjectD), b'.object o = .ok ob → ∃ x ∈ done, x.o = o ∧ x.h = ob.contract := by
    intro o ob ho
    obtain ⟨x, hx, rfl⟩ := finished_live hI hF ho
    obtain ⟨ob', k, obj, C0, g1, g2, _⟩ := finished_object hR hF hx
    have ho := object_ok.1 ho
    rw [g1] at ho; injection ho with ho; subst ho
    exact ⟨x, hx, rfl, g2.symm⟩
  have hnoNull : ∀ (C : ContractTy) (h : Idx), (C, h) ∈ cs → h ≠ d.b.nullContract := by
    intro C h hm
    have hm := (hmem _ _).2 hm
    obtain ⟨k, hk⟩ := (hR.live C h hm).2
    exact (hI.reg k h ((hR.pairs _ _).2 ⟨C, hm, hk⟩)).1
  refine ⟨cs, b', numberOf done, h1, h2, h3, ?_, ?_, ?_, ?_, ?_⟩
  · intro C h hm
    have hne := hnoNull C h hm
    obtain ⟨⟨cd, g1, g2⟩, _⟩ := hR.live C h ((hmem _ _).2 hm)
    refine ⟨cd, contractData_ok.2 (by rw [hF.contracts, if_neg hne, g1]), g2, ?_⟩
    intro o
    rw [(hI.cons h cd g1 hne).2.2 o]
    constructor
    · rintro ⟨x, hx, rfl, rfl⟩
      obtain ⟨ob', k, obj, C0, g1, g2, _⟩ := finished_object hR hF hx
      exact ⟨ob', object_ok.2 g1, g2⟩
    · rintro ⟨ob, e1, e2⟩
      obtain ⟨x, hx, e3, e4⟩ := hobj o ob e1
      exact ⟨x, hx, e3, by rw [e4, e2]⟩
  · intro h cd hg
    have hg := contractData_ok.1 hg
    rw [hF.contracts] at hg
    split at hg
    · cases hg
    · rename_i hne
      obtain ⟨C, e1, _⟩ := hR.cons h cd hg hne
      exact ⟨C, (hmem _ _).1 e1⟩
  · intro o o' ob ob' h1 h2 e
    obtain ⟨x, hx, rfl⟩ := finished_live hI hF h1
    obtain ⟨y, hy, rfl⟩ := finished_live hI hF h2
    rw [numberOf_eq hI.onodup hx, numberOf_eq hI.onodup hy] at e
    rw [eq_of_same_p hI.pnodup hx hy e]
  · rintro p ⟨C, hC, k, obj, c, e1, e2, e3, e4⟩
    rw [← h2] at hC
    obtain ⟨⟨C', h⟩, he, rfl⟩ := List.mem_map.1 hC
    obtain ⟨x, hx, rfl⟩ := called_done hR ⟨C', C', h, k, obj, c,
      List.mem_map.2 ⟨(C', h), hperm.mem_iff.2 he, rfl⟩, (hmem _ _).2 he, e1, e2, e3, e4⟩
    obtain ⟨ob', k, obj, C0, g1, _⟩ := finished_object hR hF hx
    exact ⟨x.o, ob', object_ok.2 g1, numberOf_eq hI.onodup hx⟩
  · intro o ob ho
    obtain ⟨x, hx, rfl, hxh⟩ := hobj o ob ho
    obtain ⟨ob', k, obj, C0, g1, g2, g3, g4, g5, g6, g7, g8, g9, g10⟩ := finished_object hR hF hx
    have ho := object_ok.1 ho
    rw [g1] at ho; injection ho with ho; subst ho
    obtain ⟨r, hr⟩ := hR.called x hx
    have g5 := (hmem _ _).1 g5
    have hC := hcallC x.C C0 x.h r hr g5
    rw [← hC] at g5 g6
    rw [numberOf_eq hI.onodup hx, ← hxh]
    refine ⟨x.C, k, obj, g5, findSerialized_iff.1 g6, g7, g8, g9, g4, g3, ?_⟩
    intro n i f j h1 h2 h3
    obtain ⟨v, val, e1, e2, e3⟩ := g10 n i f j h1 h2 h3
    refine ⟨v, val, e1, state_ok.2 e2, ?_⟩
    have q1 : (fun (c : Nat) (h : Idx) => ∃ C', (C', h) ∈ cs ∧ ContractNo buf C' c) =
        (fun c h => ∃ C, (C, Outcome.ok h) ∈ cs.map (fun e => (e.1, Outcome.ok e.2)) ∧ findSerialized C buf = .ok c) := by
      funext c h; simp only [findSerialized_iff, hmem]
    have q2 : (fun (r : Nat) (o' : Idx) => numberOf done o' = r ∧ ∃ ob', b'.object o' = .ok ob') =
        (fun r o => ∃ y ∈ done, y.p = r ∧ y.o = o) := by
      funext r o'
      apply propext
      constructor
      · rintro ⟨h1, ob2, h2⟩
        obtain ⟨y, hy, rfl⟩ := finished_live hI hF h2
        rw [numberOf_eq hI.onodup hy] at h1
        exact ⟨y, hy, h1, rfl⟩
      · rintro ⟨y, hy, h1, rfl⟩
        obtain ⟨ob2, _, _, _, g1, _⟩ := finished_object hR hF hy
        exact ⟨by rw [numberOf_eq hI.onodup hy, h1], ob2, object_ok.2 g1⟩
    rw [q1, q2]; exact e3

/-! ## The hypotheses of C62 are met by a buffer with a cycle of references -/

theorem demo_obj {p : Nat} {obj : FbObject} (h : ObjectAt demoBuf p obj) :
    (p = 0 ∧ obj = ⟨some 0, some [0, 1]⟩) ∨ (p = 1 ∧ obj = ⟨some 0, some [2, 3]⟩) ∨ (p = 2 ∧ obj = ⟨some 1, some [4, 5]⟩) := by
  obtain ⟨objs, h1, h2⟩ := h
  simp only [demoBuf, Option.some.injEq] at h1; subst h1
  rcases p with _ | _ | _ | p <;> simp at h2 <;> simp [h2]

theorem demo_con {C : ContractTy} {k : Nat} (hC : C ∈ [nodeC, tagC]) (h : ContractNo demoBuf C k) :
    (C = nodeC ∧ k = 0) ∨ (C = tagC ∧ k = 1) := by
  have h := findSerialized_iff.2 h
  rcases List.mem_cons.1 hC with rfl | hC
  · rw [show findSerialized nodeC demoBuf = .ok 0 from by decide +kernel] at h
    injection h with h; exact .inl ⟨rfl, h.symm⟩
  · rw [List.mem_singleton.1 hC] at h ⊢
    rw [show findSerialized tagC demoBuf = .ok 1 from by decide +kernel] at h
    injection h with h; exact .inr ⟨rfl, h.symm⟩

theorem demo_st (i : Nat) (v : FbVal) : StateAt demoBuf i v ↔
    [FbVal.u8 5, .objectHandle 1, .u8 6, .objectHandle 0, .fbString (some "a"), .contractDataHandle 0][i]? = some v := by
  constructor
  · rintro ⟨sts, h1, h2⟩
    simp only [demoBuf, Option.some.injEq] at h1; subst h1; exact h2
  · intro h; exact ⟨_, rfl, h⟩

theorem demo_restorable : Restorable demoBuf [nodeC, tagC] := by
  have n0 : ContractNo demoBuf nodeC 0 := findSerialized_iff.1 (by decide +kernel)
  have n1 : ContractNo demoBuf tagC 1 := findSerialized_iff.1 (by decide +kernel)
  refine ⟨?_, fun _ _ _ _ _ => ⟨_, rfl⟩, ?_, ?_, ?_, ?_, ?_⟩
  · intro C hC
    rcases List.mem_cons.1 hC with rfl | hC
    · exact ⟨0, n0⟩
    · rw [List.mem_singleton.1 hC]; exact ⟨1, n1⟩
  · intro C k p obj c hC hk ho hc hck
    refine ⟨⟨c, hc, hck⟩, ?_⟩
    rcases demo_con hC hk with ⟨rfl, rfl⟩ | ⟨rfl, rfl⟩ <;>
      rcases demo_obj ho with ⟨rfl, rfl⟩ | ⟨rfl, rfl⟩ | ⟨rfl, rfl⟩ <;>
      (injection hc with hc; subst hc) <;> first | (exact absurd hck (by decide)) | skip
    all_goals
      refine ⟨rfl, ?_⟩
      intro n i f h1 h2
      rcases n with _ | _ | n <;> simp [stateIdxs, nodeC, tagC] at h1 h2
      all_goals
        subst h1 h2
        simp only [demo_st]
        exact ⟨_, _, rfl, rfl, rfl⟩
  · intro p p' n n' i obj obj' _ _ _ h1 h2 h3 h4 _
    rcases demo_obj h1 with ⟨rfl, rfl⟩ | ⟨rfl, rfl⟩ | ⟨rfl, rfl⟩ <;>
      rcases demo_obj h2 with ⟨rfl, rfl⟩ | ⟨rfl, rfl⟩ | ⟨rfl, rfl⟩ <;>
      rcases n with _ | _ | n <;> rcases n' with _ | _ | n' <;> simp [stateIdxs] at h3 h4 <;> omega
  · intro p i obj _ ho hi hs
    rw [demo_st] at hs
    rcases i with _ | _ | _ | _ | _ | _ | i <;> simp at hs
  · intro p i obj c _ ho hi hs
    rw [demo_st] at hs
    rcases i with _ | _ | _ | _ | _ | _ | i <;> simp at hs
    subst hs
    exact ⟨nodeC, by simp, n0⟩
  · intro p i obj r _ ho hi hs
    rw [demo_st] at hs
    rcases i with _ | _ | _ | _ | _ | _ | i <;> simp at hs
    all_goals subst hs
    · exact ⟨nodeC, by simp, 0, ⟨some 0, some [2, 3]⟩, 0, n0, ⟨_, rfl, rfl⟩, rfl, rfl⟩
    · exact ⟨nodeC, by simp, 0, ⟨some 0, some [0, 1]⟩, 0, n0, ⟨_, rfl, rfl⟩, rfl, rfl⟩

example (kind : Kind) (sched : IterOrder (ContractTy × Idx)) (ord : IterOrder (Nat × Idx)) (hord : HashOrder) :
    ∃ cs b', restore demoBuf kind [nodeC, tagC] sched ord hord = .ok (cs, b') := by
  obtain ⟨cs, b', _, h, _⟩ := C62_complete_buffers_restore demo_restorable (by decide) (by decide)
    (.of_none (by decide)) (by decide +kernel) kind sched ord hord
  exact ⟨cs, b', h⟩

end Verif.Props
