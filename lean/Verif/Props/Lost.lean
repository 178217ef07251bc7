import Verif.Props.SaveRestore
/-!
# C106, C107: what the format does not carry

Time warps and channels are not written to the buffer, and the deserializer creates every object without channels and
with the default warp.
-/
namespace Verif.Props
open Verif Spec Arena Baseline Store

/-! ## C106: time warps -/

/-- Claim C106: saving and restoring keeps the contents of the contracts and the time warp of every object. -/
def WarpsSurvive : Prop :=
  ∀ (kind : Kind) (evs : List Event) (b : Baseline) (cs : List (ContractTy × Idx)), Savable kind evs b cs →
    ∀ c : Cycle, c.Fits cs → ∀ (cs' : List (ContractTy × Idx)) (b' : Baseline), c.run b = .ok (cs', b') →
      ∃ φ ψ : Idx → Idx, SameContents b cs b' cs' φ ψ ∧
        ∀ (C : ContractTy) (h o : Idx) (ob : ObjectD), (C, h) ∈ cs → o ∈ objectsOf b h → b.object o = .ok ob →
          ∃ ob', b'.object (φ o) = .ok ob' ∧ ob'.warp = ob.warp

/-- What a cycle that succeeds did. -/
theorem run_restore {c : Cycle} {b b' : Baseline} {cs' : List (ContractTy × Idx)} (h : c.run b = .ok (cs', b')) :
    ∃ (s : Ser) (out : FbOut) (buf : FbBaseline), (Ser.new b).serializeAll c.calls = (s, .ok ()) ∧
      s.finish c.ordC c.ordO = .ok out ∧ out.decode = some buf ∧
      restore buf c.kind c.types c.sched c.ord c.hord = .ok (cs', b') := by
  unfold Cycle.run at h
  rcases h1 : (Ser.new b).serializeAll c.calls with ⟨s, r⟩
  rw [h1] at h
  cases r with
  | err m => simp at h
  | panic m => simp at h
  | ok u =>
    cases u
    simp only at h
    cases h2 : s.finish c.ordC c.ordO with
    | err m => rw [h2] at h; simp at h
    | panic m => rw [h2] at h; simp at h
    | ok out =>
      rw [h2] at h
      simp only at h
      cases h3 : out.decode with
      | none => rw [h3] at h; simp at h
      | some buf => rw [h3] at h; exact ⟨s, out, buf, rfl, h2, h3, h⟩

/-- **C106, partial.** Whatever baseline was saved: every object of the restored one has the default time warp, and no
channels. -/
theorem C106_reset_partial {c : Cycle} {b b' : Baseline} {cs' : List (ContractTy × Idx)}
    (h : c.run b = .ok (cs', b')) (o : Idx) (ob : ObjectD) (ho : b'.object o = .ok ob) :
    ob.warp = TimeWarp.default ∧ ob.channels = [] := by
  obtain ⟨s, out, buf, _, _, _, h⟩ := run_restore h
  obtain ⟨_, d, hd, hf⟩ := restore_inv h
  obtain ⟨number, _, _, hx⟩ := C60_faithful hd _ _ hf
  obtain ⟨C, r, obj, _, _, _, _, e1, e2, _⟩ := hx o ob ho
  exact ⟨e1, e2⟩

/-- **C106, partial.** Of contracts that can be saved, exactly the objects with the default time warp have their time
warp kept, whatever the correspondence between the objects before and after. -/
theorem C106_only_default_partial {kind : Kind} {evs : List Event} {b : Baseline} {cs : List (ContractTy × Idx)}
    (hS : Savable kind evs b cs) (c : Cycle) (hc : c.Fits cs) :
    ∃ (cs' : List (ContractTy × Idx)) (b' : Baseline) (φ ψ : Idx → Idx), c.run b = .ok (cs', b') ∧
      SameContents b cs b' cs' φ ψ ∧
      ∀ (φ ψ : Idx → Idx), SameContents b cs b' cs' φ ψ → ∀ (C : ContractTy) (h o : Idx) (ob : ObjectD), (C, h) ∈ cs →
        o ∈ objectsOf b h → b.object o = .ok ob → ∃ ob', b'.object (φ o) = .ok ob' ∧
          (ob'.warp = ob.warp ↔ ob.warp = TimeWarp.default) := by
  obtain ⟨cs', b', φ, ψ, _, e1, e2, _⟩ := C78_savable_again hS c hc
  refine ⟨cs', b', φ, ψ, e1, e2, fun φ ψ hE C h o ob m l g => ?_⟩
  obtain ⟨ob', g', _⟩ := hE.object C h o m l
  refine ⟨ob', g', ?_⟩
  rw [(C106_reset_partial e1 _ _ g').1]
  exact eq_comm

/-! A warped object next to one that is not. -/

def warpC : ContractTy := ⟨⟨"warped", 1, 2, 3⟩, [⟨"hp", .prim .u8⟩], []⟩
def fiveLater : TimeWarp := ⟨5#32, TimeScale.default⟩
def warpOps : List BOp :=
  [.register warpC, .create warpC h0 [.primitive (.u8 5)] [], .create warpC h0 [.primitive (.u8 6)] [], .setWarp h0 fiveLater]
def warpB : Baseline := ((Baseline.new .main).runOps warpOps).2
def warpEvs : List Event := ((Baseline.new .main).runOps warpOps).1

theorem warp_history : History .main warpEvs warpB := runOps_trace _ _

theorem warp_events : warpEvs = [(.register warpC, .ok (some h0)),
    (.create warpC h0 [.primitive (.u8 5)] [], .ok (some h0)), (.create warpC h0 [.primitive (.u8 6)] [], .ok (some h1)),
    (.setWarp h0 fiveLater, .ok none)] := by rfl

theorem warp_savable : Savable .main warpEvs warpB [(warpC, h0)] := by
  have hcs : ∀ (C : ContractTy) (h : Idx), (C, h) ∈ [(warpC, h0)] → C = warpC ∧ h = h0 := by
    intro C h hm; simpa using hm
  refine ⟨warp_history, ⟨?_, ?_, ?_, ?_, by decide⟩, ⟨?_, ?_⟩, by decide, by decide, .of_none (by decide), by decide +kernel⟩
  · intro C h hm
    obtain ⟨rfl, rfl⟩ := hcs C h hm
    exact ⟨⟨warpC.id, [h1, h0]⟩, by decide +kernel, rfl⟩
  · rintro C C' h o hm ⟨ss, cs, hc⟩
    obtain ⟨rfl, rfl⟩ := hcs C h hm
    rw [warp_events] at hc
    simp at hc; grind
  · intro C h o hm ho
    obtain ⟨rfl, rfl⟩ := hcs C h hm
    rw [show objectsOf warpB h0 = [h1, h0] from by decide +kernel] at ho
    have : o = h1 ∨ o = h0 := by simpa using ho
    rcases this with rfl | rfl
    · exact ⟨_, rfl⟩
    · exact ⟨_, rfl⟩
  · intro C h f hm hf
    obtain ⟨rfl, rfl⟩ := hcs C h hm
    simp [warpC] at hf; subst hf; exact ⟨_, rfl⟩
  · intro C h o n f v hm _ hf ht
    obtain ⟨rfl, rfl⟩ := hcs C h hm
    have := List.mem_of_getElem? hf
    simp [warpC] at this; subst this; cases ht
  · intro C h o n f v hm _ hf ht
    obtain ⟨rfl, rfl⟩ := hcs C h hm
    have := List.mem_of_getElem? hf
    simp [warpC] at this; subst this; cases ht

/-- **C106 is false of the code**: an object that was to run five ticks late is restored on time. -/
theorem C106_negation : ¬ WarpsSurvive := by
  intro hA
  obtain ⟨cs', b', φ, ψ, e1, e2, e3⟩ := C106_only_default_partial warp_savable _ (demoCycle_fits _)
  obtain ⟨φ', ψ', hE, hw⟩ := hA .main warpEvs warpB _ warp_savable _ (demoCycle_fits _) cs' b' e1
  obtain ⟨ob, hob, hne⟩ : ∃ ob, warpB.object h0 = .ok ob ∧ ob.warp ≠ TimeWarp.default :=
    ⟨⟨[⟨0, 0⟩], [], h0, fiveLater⟩, by decide +kernel, by decide⟩
  have hl : h0 ∈ objectsOf warpB h0 := by decide +kernel
  obtain ⟨ob1, g1, w1⟩ := hw warpC h0 h0 ob (by simp) hl hob
  obtain ⟨ob2, g2, w2⟩ := e3 φ' ψ' hE warpC h0 h0 ob (by simp) hl hob
  rw [g1] at g2; injection g2 with g2; subst g2
  exact hne (w2.1 w1)

/-- The other object keeps its (default) warp. -/
example : ∃ (cs' : List (ContractTy × Idx)) (b' : Baseline) (o' : Idx) (ob' : ObjectD),
    (demoCycle [(warpC, h0)]).run warpB = .ok (cs', b') ∧ b'.object o' = .ok ob' ∧ ob'.warp = TimeWarp.default := by
  obtain ⟨cs', b', φ, ψ, e1, e2, e3⟩ := C106_only_default_partial warp_savable _ (demoCycle_fits _)
  obtain ⟨ob', g, w⟩ := e3 φ ψ e2 warpC h0 h1 ⟨[⟨1, 0⟩], [], h0, TimeWarp.default⟩ (by simp) (by decide +kernel)
    (by decide +kernel)
  exact ⟨cs', b', φ h1, ob', e1, g, w.2 rfl⟩

/-! ## C107: channels -/

/-- Claim C107: contracts with channels can be saved and restored like others (the conditions are those of C78 without
the one on channels). -/
def ChannelsSurvive : Prop :=
  ∀ (kind : Kind) (evs : List Event) (b : Baseline), History kind evs b → ∀ cs : List (ContractTy × Idx),
    Serializable evs b cs → Closed b cs → (cs.map Prod.snd).Nodup →
    (∀ e ∈ cs, e.1.id ≠ ⟨"teleportal.serialize.NullContract", (0, 0, 0)⟩) → savedTables b cs ≤ 1000000 →
    ∀ c : Cycle, c.Fits cs → ∃ (cs' : List (ContractTy × Idx)) (b' : Baseline), c.run b = .ok (cs', b')

/-- What `serialize` and `finish` write for an object of a type with channels is never restored as that type. -/
theorem channel_object_stuck {buf : FbBaseline} {kind : Kind} {Cs : List ContractTy} {sched : IterOrder (ContractTy × Idx)}
    {ord : IterOrder (Nat × Idx)} {hord : HashOrder} {cs : List (ContractTy × Idx)} {b' : Baseline}
    (h : restore buf kind Cs sched ord hord = .ok (cs, b')) : ChannelsUnused buf Cs := by
  obtain ⟨h1, d, h2, _⟩ := restore_inv h
  intro C hC hne p ⟨C0, hm, k, obj, c, e1, ⟨objs, e2, e2'⟩, e3, e4⟩
  rw [List.mem_singleton] at hm; subst hm
  rw [← h1] at hC
  obtain ⟨⟨C1, h⟩, m, rfl⟩ := List.mem_map.1 hC
  obtain ⟨done, hR⟩ := desRun_ok h2
  obtain ⟨x, hx, _, e, _⟩ := hR.all C1 h k p objs obj c (List.mem_map.2 ⟨_, (sched.perm _).mem_iff.2 m, rfl⟩)
    ((hR.pairs k h).2 ⟨C1, List.mem_map.2 ⟨_, m, rfl⟩, findSerialized_iff.2 e1⟩) e2 e2' e3 e4
  exact hne (e ▸ (hR.inv.fields x hx).noChan)

/-- **C107, partial.** A buffer that holds everything needed restores if and only if none of its objects is of a type
with channels. -/
theorem C107_buffer_iff_partial {buf : FbBaseline} {Cs : List ContractTy} (hB : Restorable buf Cs)
    (hids : (Cs.map ContractTy.id).Nodup)
    (hnull : ∀ C ∈ Cs, C.id ≠ ⟨"teleportal.serialize.NullContract", (0, 0, 0)⟩)
    (hsize : buf.tables ≤ 1000000) (kind : Kind) (sched : IterOrder (ContractTy × Idx))
    (ord : IterOrder (Nat × Idx)) (hord : HashOrder) :
    (∃ (cs : List (ContractTy × Idx)) (b' : Baseline), restore buf kind Cs sched ord hord = .ok (cs, b')) ↔
      ChannelsUnused buf Cs := by
  constructor
  · rintro ⟨cs, b', h⟩; exact channel_object_stuck h
  · intro hch
    obtain ⟨cs, b', _, h, _⟩ := C62_complete_buffers_restore hB hids hnull hch hsize kind sched ord hord
    exact ⟨cs, b', h⟩

/-- **C107, partial.** Contracts that otherwise meet the conditions of C48 and C78 are always saved; they are restored if
and only if no contract with channels has an object.  So with such an object every step of saving reports success, and
what was saved can never be read back as those types. -/
theorem C107_saved_not_restored_partial {kind : Kind} {evs : List Event} {b : Baseline} (hH : History kind evs b)
    {cs : List (ContractTy × Idx)} (hP : Serializable evs b cs) (hcl : Closed b cs) (hnd : (cs.map Prod.snd).Nodup)
    (hnull : ∀ e ∈ cs, e.1.id ≠ ⟨"teleportal.serialize.NullContract", (0, 0, 0)⟩)
    (hsz : savedTables b cs ≤ 1000000) (c : Cycle) (hcalls : c.calls.map (fun e => (e.1, e.2.1)) = cs)
    (htypes : c.types.Perm (cs.map Prod.fst)) :
    (∃ (s : Ser) (out : FbOut) (buf : FbBaseline), (Ser.new b).serializeAll c.calls = (s, .ok ()) ∧
      s.finish c.ordC c.ordO = .ok out ∧ out.decode = some buf) ∧
    ((∃ (cs' : List (ContractTy × Idx)) (b' : Baseline), c.run b = .ok (cs', b')) ↔ NoChannelObjects b cs) := by
  have hP := hP.storable
  have hsz' := hsz
  unfold savedTables at hsz'
  obtain ⟨s, hs⟩ := serializeAll_succeeds hP hH c.calls (by
    intro e he; rw [← hcalls]; exact List.mem_map.2 ⟨e, he, rfl⟩) (serInv_new b) (by
    have := hP.few; rw [← hcalls] at this; simpa using this)
  obtain ⟨W, S, hI⟩ := serializeAll_ok (serInv_new b) hs
  rw [List.nil_append, hcalls] at hI
  have hids := ids_nodup hP hH hnd
  obtain ⟨out, buf, hf, hd, hO⟩ := finish_output hP hH hnd (by omega) hI (resolved_of_closed hP hH hnd hcl hI) c.ordC c.ordO
  have hD := serInv_distinct hP hH hnd hI
  refine ⟨⟨s, out, buf, hs, hf, hd⟩, ?_, ?_⟩
  · rintro ⟨cs', b', hr⟩ C h m hne
    obtain ⟨s2, out2, buf2, r1, r2, r3, r4⟩ := run_restore hr
    rw [hs] at r1; injection r1 with r1; subst r1
    rw [hf] at r2; injection r2 with r2; subst r2
    rw [hd] at r3; injection r3 with r3; subst r3
    have hun := channel_object_stuck r4
    refine List.eq_nil_iff_forall_not_mem.2 fun o ho => ?_
    obtain ⟨w, hw, rfl, rfl, rfl⟩ := hD.cover C h o m ho
    obtain ⟨p, hp⟩ := List.getElem?_of_mem hw
    have hn := hI.num w hw
    have hl := (List.getElem?_eq_some_iff.1 hn).1
    have hfew := hP.few
    exact hun w.C (htypes.mem_iff.2 (List.mem_map.2 ⟨_, m, rfl⟩)) hne p ⟨w.C, by simp, w.k, w.table, BitVec.ofNat 16 w.k,
      hO.con hids hn, hO.obj.2 ⟨w, hp, rfl⟩, rfl, by simp; omega⟩
  · intro hch
    obtain ⟨s2, out2, buf2, r1, r2, r3, r4⟩ := storable_round_trip hH hP hcl hnd hnull hch (by omega) (by omega) c.calls
      hcalls c.ordC c.ordO
    obtain ⟨cs', b', _, _, e, _⟩ := r4 hsz c.types htypes c.kind c.sched c.ord c.hord
    refine ⟨cs', b', ?_⟩
    unfold Cycle.run
    simp only [r1, r2, r3, e]

/-! A contract with a channel: with two objects (`demoB`), and without objects. -/

theorem demo_events : demoEvs = [(.register demoC, .ok (some h0)), (.register emptyC, .ok (some h1)),
    (.create demoC h0 [.primitive (.u8 7), .primitive (.u16 300)] [⟨.prim .f32, []⟩], .ok (some h0)),
    (.create demoC h0 [.primitive (.u8 8), .primitive (.u16 301)] [⟨.prim .f32, [⟨5, 6⟩]⟩], .ok (some h1)),
    (.create emptyC h1 [] [], .ok (some ⟨2, 0⟩))] := by rfl

def vacantOps : List BOp := [.register demoC, .register emptyC, .create emptyC h1 [] []]
def vacantB : Baseline := ((Baseline.new .main).runOps vacantOps).2
def vacantEvs : List Event := ((Baseline.new .main).runOps vacantOps).1

theorem vacant_history : History .main vacantEvs vacantB := runOps_trace _ _

theorem vacant_events : vacantEvs = [(.register demoC, .ok (some h0)), (.register emptyC, .ok (some h1)),
    (.create emptyC h1 [] [], .ok (some h0))] := by rfl

theorem twoC {C : ContractTy} {h : Idx} (hm : (C, h) ∈ [(demoC, h0), (emptyC, h1)]) :
    (C = demoC ∧ h = h0) ∨ (C = emptyC ∧ h = h1) := by simpa using hm

theorem two_prim {C : ContractTy} {h : Idx} {f : Field} (hm : (C, h) ∈ [(demoC, h0), (emptyC, h1)]) (hf : f ∈ C.states) :
    f.ty = .prim .u8 ∨ f.ty = .prim .u16 := by
  rcases twoC hm with ⟨rfl, rfl⟩ | ⟨rfl, rfl⟩
  · simp [demoC] at hf; rcases hf with rfl | rfl
    · exact .inl rfl
    · exact .inr rfl
  · cases hf

theorem two_closed (b : Baseline) : Closed b [(demoC, h0), (emptyC, h1)] := by
  constructor
  · intro C h o n f v hm _ hf ht
    rcases two_prim hm (List.mem_of_getElem? hf) with e | e <;> rw [e] at ht <;> cases ht
  · intro C h o n f v hm _ hf ht
    rcases two_prim hm (List.mem_of_getElem? hf) with e | e <;> rw [e] at ht <;> cases ht

theorem two_serializable {evs : List Event} {b : Baseline} (objs objs' : List Idx)
    (e1 : b.contractData h0 = .ok ⟨demoC.id, objs⟩) (e2 : b.contractData h1 = .ok ⟨emptyC.id, objs'⟩)
    (ht : ∀ (C' : ContractTy) (h o : Idx), CreatedAs evs C' h o → (h = h0 → C' = demoC) ∧ (h = h1 → C' = emptyC))
    (hl : ∀ o ∈ objs ++ objs', ∃ ob, b.object o = .ok ob) : Serializable evs b [(demoC, h0), (emptyC, h1)] := by
  refine ⟨?_, ?_, ?_, ?_, by decide⟩
  · intro C h hm
    rcases twoC hm with ⟨rfl, rfl⟩ | ⟨rfl, rfl⟩
    · exact ⟨_, e1, rfl⟩
    · exact ⟨_, e2, rfl⟩
  · intro C C' h o hm hc
    rcases twoC hm with ⟨rfl, rfl⟩ | ⟨rfl, rfl⟩
    · exact (ht _ _ _ hc).1 rfl
    · exact (ht _ _ _ hc).2 rfl
  · intro C h o hm ho
    rcases twoC hm with ⟨rfl, rfl⟩ | ⟨rfl, rfl⟩
    · refine hl o (List.mem_append.2 (.inl ?_))
      unfold objectsOf at ho; rw [e1] at ho; exact ho
    · refine hl o (List.mem_append.2 (.inr ?_))
      unfold objectsOf at ho; rw [e2] at ho; exact ho
  · intro C h f hm hf
    rcases two_prim hm hf with e | e
    · exact ⟨_, e⟩
    · exact ⟨_, e⟩

theorem demo_serializable : Serializable demoEvs demoB [(demoC, h0), (emptyC, h1)] := by
  refine two_serializable [h1, h0] [⟨2, 0⟩] (by decide +kernel) (by decide +kernel) ?_ ?_
  · rintro C' h o ⟨ss, cs, hm⟩
    rw [demo_events] at hm
    simp [h0, h1] at hm ⊢; grind
  · intro o ho
    simp at ho
    rcases ho with rfl | rfl | rfl
    · exact ⟨_, rfl⟩
    · exact ⟨_, rfl⟩
    · exact ⟨_, rfl⟩

theorem vacant_serializable : Serializable vacantEvs vacantB [(demoC, h0), (emptyC, h1)] := by
  refine two_serializable [] [h0] (by decide +kernel) (by decide +kernel) ?_ ?_
  · rintro C' h o ⟨ss, cs, hm⟩
    rw [vacant_events] at hm
    simp [h0, h1] at hm ⊢; grind
  · intro o ho
    simp at ho
    subst ho; exact ⟨_, rfl⟩

/-- **C107 is false of the code**: two objects with a channel are saved without complaint, and cannot be read back. -/
theorem C107_negation : ¬ ChannelsSurvive := by
  intro hA
  have h1 := hA .main demoEvs demoB demo_history _ demo_serializable (two_closed _) (by decide) (by decide)
    (by decide +kernel) _ (demoCycle_fits _)
  have h2 := ((C107_saved_not_restored_partial demo_history demo_serializable (two_closed _) (by decide) (by decide)
    (by decide +kernel) (demoCycle _) rfl (List.reverse_perm _)).2.1 h1) demoC h0 (by simp) (by decide)
  revert h2; decide +kernel

/-- The contract itself is restored when it has no objects. -/
example : ∃ (cs' : List (ContractTy × Idx)) (b' : Baseline),
    (demoCycle [(demoC, h0), (emptyC, h1)]).run vacantB = .ok (cs', b') :=
  (C107_saved_not_restored_partial vacant_history vacant_serializable (two_closed _) (by decide) (by decide)
    (by decide +kernel) (demoCycle _) rfl (List.reverse_perm _)).2.2 (by
      intro C h hm hne
      rcases twoC hm with ⟨rfl, rfl⟩ | ⟨rfl, rfl⟩
      · decide +kernel
      · exact absurd rfl hne)

end Verif.Props
