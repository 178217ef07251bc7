import Verif.Props.SaveRestore
import Verif.Props.SaveLimit
import Verif.Props.Determinism
/-!
# C62, exactly: which buffers can be restored

`Restorable` and the other conditions of C62 are not only sufficient but necessary.
-/
namespace Verif.Props
open Verif Spec Arena Baseline Store

/-- What successful registrations tell about the buffer and the types. -/
theorem registerAll_needs {buf : FbBaseline} {kind : Kind} (Cs : List ContractTy)
    {regs : List (ContractTy × Outcome Idx)} {bd bd' : Builder} {cs : List (ContractTy × Idx)}
    (hb : BuilderRun buf kind regs bd) (h : bd.registerAll Cs = (bd', .ok cs)) :
    (∀ C ∈ Cs, C.id ≠ ⟨"teleportal.serialize.NullContract", (0, 0, 0)⟩) ∧ (Cs.map ContractTy.id).Nodup ∧
    ∀ C ∈ Cs, ∀ (C' : ContractTy) (h : Idx), (C', Outcome.ok h) ∈ regs → C'.id ≠ C.id := by
  induction Cs generalizing regs bd cs with
  | nil => simp
  | cons C Cs ih =>
    obtain ⟨h1, h2, h3⟩ := C52_register_iff hb C
    have hrun := BuilderRun.register regs bd C hb h2
    unfold Builder.registerAll at h
    rcases hr : bd.registerContract C with ⟨bd1, r⟩
    rw [hr] at h h1 hrun
    cases r with
    | err m => simp at h
    | panic m => simp at h
    | ok hh =>
      simp only at h hrun
      rcases hr2 : bd1.registerAll Cs with ⟨bd2, r2⟩
      rw [hr2] at h
      cases r2 with
      | err m => simp at h
      | panic m => simp at h
      | ok cs' =>
        simp only [Prod.mk.injEq, Outcome.ok.injEq] at h
        obtain ⟨rfl, rfl⟩ := h
        obtain ⟨a1, a2, a3⟩ := ih hrun hr2
        obtain ⟨_, b1, b2⟩ := h1.1 rfl
        refine ⟨?_, ?_, ?_⟩
        · intro C' hC'
          rcases List.mem_cons.1 hC' with rfl | hC'
          · exact b1
          · exact a1 C' hC'
        · simp only [List.map_cons, List.nodup_cons, List.mem_map, not_exists, not_and]
          refine ⟨fun C' hC' e => ?_, a2⟩
          exact a3 C' hC' C hh (by simp) e.symm
        · intro C' hC' C'' h'' hm
          rcases List.mem_cons.1 hC' with rfl | hC'
          · exact b2 C'' h'' hm
          · exact a3 C' hC' C'' h'' (List.mem_append_left _ hm)

/-- What a successful restoration tells about the buffer and the types. -/
theorem restore_needs {buf : FbBaseline} {kind : Kind} {Cs : List ContractTy} {sched : IterOrder (ContractTy × Idx)}
    {ord : IterOrder (Nat × Idx)} {hord : HashOrder} {cs : List (ContractTy × Idx)} {b' : Baseline}
    (h : restore buf kind Cs sched ord hord = .ok (cs, b')) :
    buf.tables ≤ 1000000 ∧ (∀ C ∈ Cs, C.id ≠ ⟨"teleportal.serialize.NullContract", (0, 0, 0)⟩) ∧
      (Cs.map ContractTy.id).Nodup := by
  unfold restore at h
  cases hbd : Builder.new buf kind with
  | err m => rw [hbd] at h; simp at h
  | panic m => rw [hbd] at h; simp at h
  | ok bd =>
    have hs := (C101_reader_limit_partial buf kind).1
    rw [hbd] at h hs
    simp only at h
    rcases hr : bd.registerAll Cs with ⟨bd1, r⟩
    rw [hr] at h
    cases r with
    | err m => simp at h
    | panic m => simp at h
    | ok cs1 =>
      obtain ⟨a1, a2, _⟩ := registerAll_needs Cs (.new bd hbd) hr
      exact ⟨hs.1 rfl, a1, a2⟩

theorem registerAll_no_panic {buf : FbBaseline} {kind : Kind} (Cs : List ContractTy) {regs : List (ContractTy × Outcome Idx)}
    {bd : Builder} (hb : BuilderRun buf kind regs bd) : (bd.registerAll Cs).2.isPanic = false := by
  induction Cs generalizing regs bd with
  | nil => rfl
  | cons C Cs ih =>
    have hn := (C52_register_iff hb C).2.1
    have hrun := BuilderRun.register _ _ C hb hn
    unfold Builder.registerAll
    rcases hr : bd.registerContract C with ⟨bd1, r⟩
    rw [hr] at hn hrun
    cases r with
    | err m => rfl
    | panic m => cases hn
    | ok h =>
      have := ih hrun
      simp only at this ⊢
      rcases hr2 : bd1.registerAll Cs with ⟨bd2, r2⟩
      rw [hr2] at this
      cases r2 with
      | err m => rfl
      | panic m => cases this
      | ok l => rfl

theorem deserializeAll_no_panic {buf : FbBaseline} {kind : Kind} {regs : List (ContractTy × Outcome Idx)}
    (cs : List (ContractTy × Idx)) (hno : ∀ e ∈ cs, NoHiddenIn buf [e.1]) (hreg : ∀ e ∈ cs, (e.1, Outcome.ok e.2) ∈ regs) (hnd : (cs.map Prod.snd).Nodup)
    {calls : List ((ContractTy × Idx) × Outcome Unit)} {d : Des} (hd : DesRun buf kind regs calls d)
    (hfresh : ∀ e ∈ cs, ∀ (C' : ContractTy) (r : Outcome Unit), ((C', e.2), r) ∉ calls) :
    (d.deserializeAll cs).2.isPanic = false := by
  induction cs generalizing calls d with
  | nil => rfl
  | cons e cs ih =>
    obtain ⟨C, h⟩ := e
    have hn := (C55_no_panic_partial hd).1 C C h (hno (C, h) (by simp)) (hreg (C, h) (by simp)) (hfresh (C, h) (by simp))
    have hrun := DesRun.objects _ _ C h hd hn
    unfold Des.deserializeAll
    rcases hr : d.deserializeObjects C h with ⟨d1, r⟩
    rw [hr] at hn hrun
    rw [List.map_cons, List.nodup_cons] at hnd
    cases r with
    | err m => rfl
    | panic m => cases hn
    | ok u =>
      cases u
      simp only
      refine ih (fun e he => hno e (by simp [he])) (fun e he => hreg e (by simp [he])) hnd.2 hrun ?_
      intro e he C' r hm
      rcases List.mem_append.1 hm with hm | hm
      · exact hfresh e (by simp [he]) C' r hm
      · simp only [List.mem_singleton, Prod.mk.injEq] at hm
        exact hnd.1 (hm.1.2 ▸ List.mem_map.2 ⟨e, he, rfl⟩)

/-- **C55, partial.** Restoring contracts from a buffer in which none of their objects has one of the defects that the verifier
lets through never panics, whatever else is in the buffer, the contract types, the kind of baseline, the order of the calls and the hash iteration orders. -/
theorem C55_restore_no_panic_partial {buf : FbBaseline} {Cs : List ContractTy} (hno : NoHiddenIn buf Cs) (kind : Kind)
    (sched : IterOrder (ContractTy × Idx)) (ord : IterOrder (Nat × Idx)) (hord : HashOrder) :
    (restore buf kind Cs sched ord hord).isPanic = false := by
  unfold restore
  cases hbd : Builder.new buf kind with
  | err m => rfl
  | panic m =>
    have := (C101_reader_limit_partial buf kind)
    rw [hbd] at this
    simp only [Outcome.isOk, Outcome.isErr, Bool.false_eq_true, false_iff] at this
    omega
  | ok bd =>
    simp only
    have h1 := registerAll_no_panic Cs (.new bd hbd)
    rcases hr : bd.registerAll Cs with ⟨bd1, r⟩
    rw [hr] at h1
    cases r with
    | err m => rfl
    | panic m => cases h1
    | ok cs1 =>
      simp only
      obtain ⟨_, hids, _⟩ := registerAll_needs Cs (.new bd hbd) hr
      obtain ⟨e1, e2⟩ := registerAll_run Cs (.new bd hbd) hr
      rw [List.nil_append] at e2
      have hmem : ∀ e ∈ cs1, (e.1, Outcome.ok e.2) ∈ cs1.map (fun e => (e.1, Outcome.ok e.2)) :=
        fun e he => List.mem_map.2 ⟨e, he, rfl⟩
      have hsnd : (cs1.map Prod.snd).Nodup := by
        refine nodup_of_getElem? fun n n' h h1 h2 => ?_
        simp only [List.getElem?_map, Option.map_eq_some_iff] at h1 h2
        obtain ⟨x1, g1, rfl⟩ := h1
        obtain ⟨x2, g2, e⟩ := h2
        have hid := (C52_handles e2).1 x1.1 x2.1 x1.2 (hmem _ (List.mem_of_getElem? g1))
          (by rw [← e]; exact hmem _ (List.mem_of_getElem? g2))
        have i1 : (Cs.map ContractTy.id)[n]? = some x1.1.id := by rw [← e1]; simp [g1]
        have i2 : (Cs.map ContractTy.id)[n']? = some x1.1.id := by rw [← e1, hid]; simp [g2]
        exact (List.getElem?_inj (List.getElem?_eq_some_iff.1 i1).1 hids).1 (i1.trans i2.symm)
      have hperm := sched.perm cs1
      have h2 := deserializeAll_no_panic (sched.order cs1) (fun e he => by
          have hC : e.1 ∈ Cs := by rw [← e1]; exact List.mem_map.2 ⟨e, hperm.mem_iff.1 he, rfl⟩
          rintro p i obj sts ⟨C', hC', hx⟩
          rw [List.mem_singleton.1 hC'] at hx
          exact hno p i obj sts ⟨e.1, hC, hx⟩) (fun e he => hmem e (hperm.mem_iff.1 he))
        ((hperm.map _).nodup_iff.2 hsnd) (.new bd1 e2) (by simp)
      rcases hr2 : (Des.new bd1).deserializeAll (sched.order cs1) with ⟨d, r2⟩
      rw [hr2] at h2
      cases r2 with
      | err m => rfl
      | panic m => cases h2
      | ok u =>
        cases u
        simp only
        have hrun := deserializeAll_run _ (.new bd1 e2) hr2
        have h3 := (C55_no_panic_partial hrun).2.2 ord hord
        cases hf : d.finish ord hord with
        | err m => rfl
        | panic m => rw [hf] at h3; cases h3
        | ok b2 => rfl

/-- A buffer from which the types were restored held everything that was needed. -/
theorem restorable_of_ok {buf : FbBaseline} {kind : Kind} {Cs : List ContractTy} {sched : IterOrder (ContractTy × Idx)}
    {ord : IterOrder (Nat × Idx)} {hord : HashOrder} {cs : List (ContractTy × Idx)} {b' : Baseline}
    (h : restore buf kind Cs sched ord hord = .ok (cs, b')) : Restorable buf Cs ∧ ChannelsUnused buf Cs := by
  obtain ⟨_, _, hids⟩ := restore_needs h
  obtain ⟨hsnd, _⟩ := restore_typed h hids
  obtain ⟨h1, d, h2, h3⟩ := restore_inv h
  have hmem : ∀ (C : ContractTy) (h : Idx), (C, Outcome.ok h) ∈ cs.map (fun e => (e.1, Outcome.ok e.2)) ↔ (C, h) ∈ cs := by
    intro C h
    simp only [List.mem_map, Prod.mk.injEq, Outcome.ok.injEq]
    constructor
    · rintro ⟨e, he, rfl, rfl⟩; exact he
    · intro he; exact ⟨_, he, rfl, rfl⟩
  have hperm := sched.perm cs
  obtain ⟨done, hR⟩ := desRun_ok h2
  have hI := hR.inv
  have hreg : ∀ C ∈ Cs, ∃ h, (C, h) ∈ cs := by
    intro C hC
    rw [← h1] at hC
    obtain ⟨⟨C', h⟩, he, rfl⟩ := List.mem_map.1 hC
    exact ⟨h, he⟩
  have hone : ∀ (C C' : ContractTy) (h : Idx), (C, h) ∈ cs → (C', h) ∈ cs → C = C' := by
    intro C C' h m m'
    obtain ⟨n, hn⟩ := List.getElem?_of_mem m
    obtain ⟨n', hn'⟩ := List.getElem?_of_mem m'
    have := (List.getElem?_inj (i := n) (j := n') (l := cs.map Prod.snd)
      (by simpa using (List.getElem?_eq_some_iff.1 hn).1) hsnd).1 (by simp [hn, hn'])
    subst this
    rw [hn] at hn'; injection hn' with hn'; injection hn'
  have hcall : ∀ (C : ContractTy) (h : Idx) (r : Outcome Unit),
      ((C, h), r) ∈ (sched.order cs).map (fun e => (e, Outcome.ok ())) → (C, h) ∈ cs := by
    intro C h r hm
    simp only [List.mem_map, Prod.mk.injEq] at hm
    obtain ⟨e, he, rfl, _⟩ := hm
    exact hperm.mem_iff.1 he
  -- every object of a type of `Cs` was restored
  have hdone : ∀ (C : ContractTy) (k p : Nat) (obj : FbObject) (c : BitVec 16), C ∈ Cs → ContractNo buf C k →
      ObjectAt buf p obj → obj.contract = some c → c.toNat = k → ∃ x ∈ done, x.p = p ∧ x.C = C ∧
        ValidObj C k buf p obj := by
    intro C k p obj c hC hk ⟨objs, g1, g2⟩ hc hck
    obtain ⟨hh, hm⟩ := hreg C hC
    have hp := (hR.pairs k hh).2 ⟨C, (hmem _ _).2 hm, findSerialized_iff.2 hk⟩
    obtain ⟨x, hx, rfl, rfl, rfl⟩ := hR.all C hh k p objs obj c
      (List.mem_map.2 ⟨(C, hh), hperm.mem_iff.2 hm, rfl⟩) hp g1 g2 hc hck
    obtain ⟨⟨ob, k', obj', a1, a2, a3, a4, a5, a6, a7, a8⟩, a9⟩ := hI.fields x hx
    rw [hR.bufEq] at a6
    have : k' = k := BiMap.pair_right hI.cmap a5 hp
    subst this
    obtain ⟨objs', e1, e2⟩ := a6.here
    rw [g1] at e1; injection e1 with e1; subst e1
    rw [g2] at e2; injection e2 with e2; subst e2
    exact ⟨x, hx, rfl, rfl, a6⟩
  have hof : ∀ (p : Nat) (obj : FbObject), ObjectOf buf Cs p → ObjectAt buf p obj → ∃ x ∈ done, x.p = p := by
    rintro p obj ⟨C, hC, k, obj', c, e1, e2, e3, e4⟩ _
    obtain ⟨x, hx, e, _⟩ := hdone C k p obj' c hC e1 e2 e3 e4
    exact ⟨x, hx, e⟩
  -- the fields of a restored object
  have hfield : ∀ (x : DoneObj), x ∈ done → ∀ (obj : FbObject), ObjectAt buf x.p obj → obj.states ≠ none →
      ∃ sts, buf.states = some sts := by
    intro x hx obj ho hne
    obtain ⟨⟨ob, k', obj', a1, a2, a3, a4, a5, a6, a7, a8⟩, a9⟩ := hI.fields x hx
    rw [hR.bufEq] at a6
    have : obj = obj' := by
      obtain ⟨objs', e1, e2⟩ := a6.here
      obtain ⟨objs, g1, g2⟩ := ho
      rw [g1] at e1; injection e1 with e1; subst e1
      rw [g2] at e2; injection e2
    subst this
    exact a6.hasStates hne
  have hval : ∀ (x : DoneObj), x ∈ done → ∀ (obj : FbObject) (n i : Nat) (v : FbVal), ObjectAt buf x.p obj →
      (stateIdxs obj)[n]? = some i → StateAt buf i v → ∃ (ob : ObjectD) (t : PropType) (j : Idx),
        d.b.base.objects.get x.o = some ob ∧ ob.contract = x.h ∧ x.C.stateTypes[n]? = some t ∧ ob.states[n]? = some j ∧
        ((∃ r, v = .objectHandle r ∧ t = objT ∧ (i, j) ∈ d.states.pairs) ∨
          (v.isObj = false ∧ (Des.decodeVal d.b.contracts v).isOk = true)) := by
    intro x hx obj n i v ho hn ⟨sts, s1, s2⟩
    obtain ⟨⟨ob, k', obj', a1, a2, a3, a4, a5, a6, a7, a8⟩, a9⟩ := hI.fields x hx
    rw [hR.bufEq] at a6
    have : obj = obj' := by
      obtain ⟨objs', e1, e2⟩ := a6.here
      obtain ⟨objs, g1, g2⟩ := ho
      rw [g1] at e1; injection e1 with e1; subst e1
      rw [g2] at e2; injection e2
    subst this
    rw [stateIdxs_eq] at hn
    have hl := (List.getElem?_eq_some_iff.1 hn).1
    have hl1 : n < x.C.stateTypes.length := by rw [← a6.len]; exact hl
    have hl2 : n < ob.states.length := by rw [a7]; exact hl1
    refine ⟨ob, _, _, a1, a2, List.getElem?_eq_getElem hl1, List.getElem?_eq_getElem hl2, ?_⟩
    obtain ⟨sts', v', y, e1, e2, e3, e4⟩ := a8 n i _ _ (List.getElem?_eq_getElem hl1) hn (List.getElem?_eq_getElem hl2)
    rw [hR.bufEq, s1] at e1; injection e1 with e1; subst e1
    rw [s2] at e2; injection e2 with e2; subst e2
    rcases e4 with e4 | ⟨e4, e5⟩
    · exact .inl e4
    · exact .inr ⟨e4, by rw [e5]; rfl⟩
  have hfin := (C54_finish_ok_iff h2 (fun e he => by obtain ⟨_, _, rfl⟩ := List.mem_map.1 he; rfl) ord hord).1.1 (by rw [h3]; rfl)
  have hall : ∀ (p : Nat), ObjectOf buf Cs p ↔ CalledWith buf (cs.map fun e => (e.1, Outcome.ok e.2))
      ((sched.order cs).map fun e => (e, Outcome.ok ())) (.ok ()) p := by
    intro p
    constructor
    · rintro ⟨C, hC, k, obj, c, e1, e2, e3, e4⟩
      obtain ⟨h, hh⟩ := hreg C hC
      refine ⟨C, C, h, k, obj, c, ?_, (hmem _ _).2 hh, e1, e2, e3, e4⟩
      exact List.mem_map.2 ⟨(C, h), hperm.mem_iff.2 hh, rfl⟩
    · rintro ⟨C, C0, h, k, obj, c, e1, e2, e3, e4, e5, e6⟩
      exact ⟨C0, by rw [← h1]; exact List.mem_map.2 ⟨_, (hmem _ _).1 e2, rfl⟩, k, obj, c, e3, e4, e5, e6⟩
  refine ⟨⟨?_, ?_, ?_, ?_, ?_, ?_, ?_⟩, ?_⟩
  · intro C hC
    obtain ⟨hh, hm⟩ := hreg C hC
    obtain ⟨k, hk⟩ := (hR.live C hh ((hmem _ _).2 hm)).2
    exact ⟨k, findSerialized_iff.1 hk⟩
  · intro p obj hp ho hne
    obtain ⟨x, hx, rfl⟩ := hof p obj hp ho
    exact hfield x hx obj ho hne
  · intro C k p obj c hC hk ho hc hck
    obtain ⟨x, hx, _, _, hv⟩ := hdone C k p obj c hC hk ho hc hck
    exact (validObj_wellFormed hv).2
  · intro p p' n n' i obj obj' r hp hp' ho ho' hn hn' hs
    obtain ⟨x, hx, rfl⟩ := hof p obj hp ho
    obtain ⟨y, hy, rfl⟩ := hof p' obj' hp' ho'
    obtain ⟨ob, t, j, b1, b2, b3, b4, b5⟩ := hval x hx obj n i _ ho hn hs
    obtain ⟨ob', t', j', b1', b2', b3', b4', b5'⟩ := hval y hy obj' n' i _ ho' hn' hs
    rcases b5 with ⟨r1, _, rfl, m⟩ | ⟨q, _⟩
    · rcases b5' with ⟨r2, _, rfl, m'⟩ | ⟨q, _⟩
      · have : j = j' := BiMap.pair_left hI.smap m m'
        subst this
        obtain ⟨evs, hH, _, hcr⟩ := hR.reach
        have hB := history_binv hH
        have howns : ∀ (x : DoneObj) (ob : ObjectD) (n : Nat), x ∈ done → d.b.base.objects.get x.o = some ob →
            ob.contract = x.h → x.C.stateTypes[n]? = some objT → ob.states[n]? = some j →
            Owns evs d.b.base.objects ContractTy.stateTypes ObjectD.states x.o n objT j := by
          intro x ob n hx c1 c2 c3 c4
          obtain ⟨C', hC'⟩ := hB.o.origin x.o ob c1
          rw [c2] at hC'
          obtain ⟨ss, cs', hev⟩ := hC'
          obtain ⟨r, hr⟩ := hR.called x hx
          have hin := hcall _ _ _ hr
          rcases hcr C' x.h x.o ss cs' hev with e | ⟨r', hr'⟩
          · obtain ⟨k, hk⟩ := (hR.live x.C x.h ((hmem _ _).2 hin)).2
            exact absurd e (hI.reg k x.h ((hR.pairs _ _).2 ⟨x.C, (hmem _ _).2 hin, hk⟩)).1
          · have := hone _ _ _ (hcall _ _ _ hr') hin
            subst this
            exact ⟨x.C, x.h, ob, ⟨ss, cs', hev⟩, c1, c3, c4⟩
        obtain ⟨e1, e2⟩ := hB.o.aliasS x.o y.o n n' objT j (howns x ob n hx b1 b2 b3 b4)
          (howns y ob' n' hy b1' b2' b3' b4')
        have hx' := (hI.objs x.o x.p).2 ⟨x, hx, rfl, rfl⟩
        have hy' := (hI.objs y.o y.p).2 ⟨y, hy, rfl, rfl⟩
        rw [← e1] at hy'
        exact ⟨BiMap.pair_left hI.omap hx' hy', e2⟩
      · cases q
    · cases q
  · intro p i obj hp ho hi hs
    obtain ⟨x, hx, rfl⟩ := hof p obj hp ho
    obtain ⟨n, hn⟩ := List.getElem?_of_mem hi
    obtain ⟨_, _, _, _, _, _, _, b5⟩ := hval x hx obj n i _ ho hn hs
    rcases b5 with ⟨r, e, _⟩ | ⟨_, e⟩
    · cases e
    · cases e
  · intro p i obj c hp ho hi hs
    obtain ⟨x, hx, rfl⟩ := hof p obj hp ho
    obtain ⟨n, hn⟩ := List.getElem?_of_mem hi
    obtain ⟨_, _, _, _, _, _, _, b5⟩ := hval x hx obj n i _ ho hn hs
    rcases b5 with ⟨r, e, _⟩ | ⟨_, e⟩
    · cases e
    · simp only [Des.decodeVal] at e
      cases hg : d.b.contracts.getL c.toNat with
      | none => rw [hg] at e; cases e
      | some hh =>
        obtain ⟨C, e1, e2⟩ := (hR.pairs _ _).1 ((BiMap.getL_iff hI.cmap).1 hg)
        exact ⟨C, by rw [← h1]; exact List.mem_map.2 ⟨_, (hmem _ _).1 e1, rfl⟩, findSerialized_iff.1 e2⟩
  · intro p i obj r hp ho hi hs
    exact (hall _).2 (hfin p i obj r ((hall _).1 hp) ho hi hs)
  · rintro C hC hne p ⟨C1, hC1, k, obj, c, e1, e2, e3, e4⟩
    rw [List.mem_singleton.1 hC1] at e1
    obtain ⟨x, hx, _, rfl, _⟩ := hdone C k p obj c hC e1 e2 e3 e4
    exact hne (hI.fields x hx).noChan

/-- **C62**, exactly: the contract types `Cs` can be restored from a buffer if and only if the buffer has at most a
million tables and holds everything that is needed for `Cs`, and the types have pairwise different ids, none of them the
internal one, and no objects in the buffer if they have channels.  So whether it succeeds depends neither on the kind of
baseline, nor on the order of the calls, nor on the hash iteration orders. -/
theorem C62_restore_iff (buf : FbBaseline) (kind : Kind) (Cs : List ContractTy) (sched : IterOrder (ContractTy × Idx))
    (ord : IterOrder (Nat × Idx)) (hord : HashOrder) :
    (∃ (cs : List (ContractTy × Idx)) (b' : Baseline), restore buf kind Cs sched ord hord = .ok (cs, b')) ↔
      buf.tables ≤ 1000000 ∧ Restorable buf Cs ∧ (Cs.map ContractTy.id).Nodup ∧
      (∀ C ∈ Cs, C.id ≠ ⟨"teleportal.serialize.NullContract", (0, 0, 0)⟩) ∧ ChannelsUnused buf Cs := by
  constructor
  · rintro ⟨cs, b', h⟩
    obtain ⟨a1, a2, a3⟩ := restore_needs h
    obtain ⟨b1, b2⟩ := restorable_of_ok h
    exact ⟨a1, b1, a3, a2, b2⟩
  · rintro ⟨a1, a2, a3, a4, a5⟩
    obtain ⟨cs, b', _, h, _⟩ := restore_run a2 a3 a4 a5 a1 kind sched ord hord
    exact ⟨cs, b', h⟩

/-- **C102.** If contract types can be restored from a buffer - any buffer -, they can be restored in every other order
of the calls, onto the other kind of baseline and in every other process, and the result has the same contents. -/
theorem C102_any_order {buf : FbBaseline} {kind1 : Kind} {Cs1 : List ContractTy} {sched1 : IterOrder (ContractTy × Idx)}
    {ord1 : IterOrder (Nat × Idx)} {hord1 : HashOrder} {cs1 : List (ContractTy × Idx)} {b1 : Baseline}
    (h : restore buf kind1 Cs1 sched1 ord1 hord1 = .ok (cs1, b1)) {Cs2 : List ContractTy} (hp : Cs2.Perm Cs1) (kind2 : Kind)
    (sched2 : IterOrder (ContractTy × Idx)) (ord2 : IterOrder (Nat × Idx)) (hord2 : HashOrder) :
    ∃ (cs2 : List (ContractTy × Idx)) (b2 : Baseline) (φ ψ : Idx → Idx),
      restore buf kind2 Cs2 sched2 ord2 hord2 = .ok (cs2, b2) ∧ SameExactly b1 cs1 b2 cs2 φ ψ := by
  obtain ⟨a1, a2, a3, a4, a5⟩ := (C62_restore_iff buf kind1 Cs1 sched1 ord1 hord1).1 ⟨cs1, b1, h⟩
  obtain ⟨cs1', b1', cs2, b2, φ, ψ, e1, e2, e3⟩ :=
    C102_orders_agree a2 hp a3 a4 a5 a1 kind1 kind2 sched1 sched2 ord1 ord2 hord1 hord2
  rw [h] at e1; injection e1 with e1; injection e1 with e1 e1'
  subst e1 e1'
  exact ⟨cs2, b2, φ, ψ, e2, e3⟩

/-- Two objects that share a plain state. -/
def sharedBuf : FbBaseline :=
  ⟨some [⟨some ⟨some "num", 1, 0, 0⟩, some ⟨some ["v"], some [some .u8]⟩⟩], some [.u8 5], some [⟨some 0, some [0]⟩, ⟨some 0, some [0]⟩]⟩

/-- Two objects that share a reference. -/
def sharedRefBuf : FbBaseline :=
  ⟨some [nodeT], some [.u8 5, .objectHandle 1], some [⟨some 0, some [0, 1]⟩, ⟨some 0, some [0, 1]⟩]⟩

/-- The condition tells the two apart: the first is restored, the second is not. -/
example : Restorable sharedBuf [numC] ∧ ¬ Restorable sharedRefBuf [nodeC] := by
  constructor
  · have h : (restore sharedBuf .main [numC] .id .id .id).isOk = true := by decide +kernel
    cases hr : restore sharedBuf .main [numC] .id .id .id with
    | ok e => exact ((C62_restore_iff sharedBuf .main [numC] .id .id .id).1 ⟨e.1, e.2, hr⟩).2.1
    | err m => rw [hr] at h; cases h
    | panic m => rw [hr] at h; cases h
  · intro hB
    obtain ⟨cs, b', h⟩ := (C62_restore_iff sharedRefBuf .main [nodeC] .id .id .id).2
      ⟨by decide +kernel, hB, by decide, by decide, .of_none (by decide)⟩
    have hn : (restore sharedRefBuf .main [nodeC] .id .id .id).isOk = false := by decide +kernel
    rw [h] at hn; cases hn

/-- The first one is restored as a fork too, in whatever process, with the same contents. -/
example (sched : IterOrder (ContractTy × Idx)) (ord : IterOrder (Nat × Idx)) (hord : HashOrder) :
    ∃ cs1 b1 cs2 b2 φ ψ, restore sharedBuf .main [numC] .id .id .id = .ok (cs1, b1) ∧
      restore sharedBuf .fork [numC] sched ord hord = .ok (cs2, b2) ∧ SameExactly b1 cs1 b2 cs2 φ ψ := by
  have h : (restore sharedBuf .main [numC] .id .id .id).isOk = true := by decide +kernel
  cases hr : restore sharedBuf .main [numC] .id .id .id with
  | ok e =>
    obtain ⟨cs2, b2, φ, ψ, e1, e2⟩ := C102_any_order hr (List.Perm.refl _) .fork sched ord hord
    exact ⟨e.1, e.2, cs2, b2, φ, ψ, rfl, e1, e2⟩
  | err m => rw [hr] at h; cases h
  | panic m => rw [hr] at h; cases h

/-- The second buffer has none of the hidden defects: restoring it is an error, not a panic. -/
example (kind : Kind) (sched : IterOrder (ContractTy × Idx)) (ord : IterOrder (Nat × Idx)) (hord : HashOrder) :
    (restore sharedRefBuf kind [nodeC] sched ord hord).isPanic = false := by
  refine C55_restore_no_panic_partial (NoHidden.inside ⟨?_, ?_, ?_⟩ _) kind sched ord hord
  · rintro p i obj sts ⟨objs, h1, h2⟩ h3 h4
    simp only [sharedRefBuf, Option.some.injEq] at h1 h3
    subst h1 h3
    have : obj = ⟨some 0, some [0, 1]⟩ := by rcases p with _ | _ | p <;> simp at h2 <;> exact h2.symm
    subst this
    simp [stateIdxs] at h4
    rcases h4 with rfl | rfl <;> decide
  · rintro i g ⟨sts, h1, h2⟩
    simp only [sharedRefBuf, Option.some.injEq] at h1
    subst h1
    rcases i with _ | _ | i <;> simp at h2
  · rintro i ⟨sts, h1, h2⟩
    simp only [sharedRefBuf, Option.some.injEq] at h1
    subst h1
    rcases i with _ | _ | i <;> simp at h2

/-- A number, and a node with a state out of range. -/
def halfBuf : FbBaseline :=
  ⟨some [⟨some ⟨some "num", 1, 0, 0⟩, some ⟨some ["v"], some [some .u8]⟩⟩, nodeT], some [.u8 5],
   some [⟨some 0, some [0]⟩, ⟨some 1, some [0, 7]⟩]⟩

/-- The node is damaged, so restoring both panics; restoring only the number does not. -/
example : NoHiddenIn halfBuf [numC] ∧ ¬ NoHidden halfBuf ∧ (restore halfBuf .main [numC] .id .id .id).isOk = true ∧
    (restore halfBuf .main [numC, nodeC] .id .id .id).isPanic = true := by
  refine ⟨?_, fun h => ?_, by decide +kernel, by decide +kernel⟩
  · rintro p i obj sts ⟨C, hC, k, obj', c, hk, ⟨objs, h1, h2⟩, h3, h4⟩ ⟨objs', h5, h6⟩ h7 h8
    rw [List.mem_singleton.1 hC] at hk
    have hk0 : k = 0 := by
      have h9 := findSerialized_iff.2 hk
      rw [show findSerialized numC halfBuf = .ok 0 by decide +kernel] at h9
      injection h9 with h9
      exact h9.symm
    rw [h5] at h1; injection h1 with h1; subst h1
    rw [h6] at h2; injection h2 with h2; subst h2
    simp only [halfBuf, Option.some.injEq] at h5 h7
    subst h5 h7
    rcases p with _ | _ | p
    · simp at h6; subst h6
      simp [stateIdxs] at h8; subst h8
      exact ⟨.u8 5, ⟨_, rfl, rfl⟩, by simp, by simp⟩
    · simp at h6; subst h6
      simp only [Option.some.injEq] at h3; subst h3 hk0
      exact absurd h4 (by decide)
    · simp at h6
  · exact absurd (h.range 1 7 ⟨some 1, some [0, 7]⟩ [.u8 5] ⟨_, rfl, rfl⟩ rfl (by decide)) (by decide)

end Verif.Props
