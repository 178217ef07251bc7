import Verif.Spec.Built
import Verif.Props.SameFile
import Verif.Props.Separate
/-!
# C141: what is built with care can be saved
-/
namespace Verif.Props
open Verif Verif.Spec Verif.Fb Baseline Arena Store

theorem trace_snoc {b b' : Baseline} {evs : List Event} (h : Trace b evs b') (op : BOp) :
    Trace b (evs ++ [(op, (b'.step op).2)]) (b'.step op).1 := by
  induction h with
  | nil b => exact .cons b op [] _ (.nil _)
  | cons b op' evs b' _ ih => exact .cons b op' _ _ ih

theorem stateWrite_parts {b : Baseline} {t : PropType} {i : Idx} (v : t.Carrier) {b' : Baseline} (e : b.stateWrite t i v = (b', .ok ())) :
    b'.contracts = b.contracts ∧ b'.objects = b.objects ∧ b.states.write t i v = some b'.states := by
  unfold stateWrite at e
  split at e
  · injection e with _ e; cases e
  · rename_i s hs
    injection e with e
    subst e
    exact ⟨rfl, rfl, hs⟩

theorem write_savable {kind : Kind} {evs : List Event} {b : Baseline} {cs : List (ContractTy × Idx)} (hS : Savable kind evs b cs)
    {t : PropType} {i : Idx} {v : t.Carrier} {b' : Baseline} (e : b.stateWrite t i v = (b', .ok ()))
    (ho : ∀ o : Idx, DynProp.ofTyped t v = .primitive (.objectHandle o) → ∃ C h, (C, h) ∈ cs ∧ o ∈ objectsOf b h)
    (hc : ∀ k : Idx, DynProp.ofTyped t v = .primitive (.contractDataHandle k) → ∃ C, (C, k) ∈ cs) :
    Savable kind (evs ++ [(.writeState t i v, .ok none)]) b' cs := by
  obtain ⟨e1, e2, e3⟩ := stateWrite_parts v e
  have ecd : ∀ k : Idx, b'.contractData k = b.contractData k := fun k => contractData_congr (by rw [e1])
  have eo : ∀ k : Idx, objectsOf b' k = objectsOf b k := fun k => by unfold objectsOf; rw [ecd]
  have eob : ∀ o : Idx, b'.object o = b.object o := fun o => object_congr (by rw [e2])
  have eb : ∀ (id : PropId) (o : Idx), b'.bindState id o = b.bindState id o := fun id o => by unfold bindState; rw [e2]
  have hh : ∀ {h o : Idx} {n : Nat} {t' : PropType} {w : t'.Carrier}, Holds b' h o n t' w → Holds b h o n t' w ∨ (∃ e : t = t', e ▸ v = w) := by
    rintro h o n t' w ⟨j, h1, h2⟩
    by_cases hne : t' = t ∧ j = i
    · obtain ⟨rfl, rfl⟩ := hne
      have := get_write_self e3
      rw [state_ok.1 h2] at this
      injection this with this
      exact .inr ⟨rfl, this.symm⟩
    · refine .inl ⟨j, by rw [← eb]; exact h1, ?_⟩
      rw [← h2]; exact (state_congr (get_write_ne e3 hne)).symm
  have hist : Trace (Baseline.new kind) (evs ++ [(.writeState t i v, .ok none)]) b' := by
    have h := trace_snoc hS.history (.writeState t i v)
    simp only [Baseline.step, e] at h
    exact h
  obtain ⟨_, ⟨s1, s2, s3, s4, s5⟩, ⟨c1, c2⟩, d, nn, nc, sz⟩ := hS
  refine ⟨hist, ⟨?_, ?_, ?_, s4, s5⟩, ⟨?_, ?_⟩, d, nn, ?_, ?_⟩
  · intro C h m; rw [ecd]; exact s1 C h m
  · rintro C C' h o m ⟨ss, cs', hm⟩
    rcases List.mem_append.1 hm with hm | hm
    · exact s2 C C' h o m ⟨ss, cs', hm⟩
    · simp at hm
  · intro C h o m l; rw [eob]; rw [eo] at l; exact s3 C h o m l
  · intro C h o n f w m l hf ht hw
    rw [eo] at l
    rcases hh hw with hw | ⟨rfl, hw⟩
    · obtain ⟨D, k, m', l'⟩ := c1 C h o n f w m l hf ht hw
      exact ⟨D, k, m', by rw [eo]; exact l'⟩
    · obtain ⟨D, k, m', l'⟩ := ho w (by simp only at hw; subst hw; rfl)
      exact ⟨D, k, m', by rw [eo]; exact l'⟩
  · intro C h o n f w m l hf ht hw
    rw [eo] at l
    rcases hh hw with hw | ⟨rfl, hw⟩
    · exact c2 C h o n f w m l hf ht hw
    · exact hc w (by simp only at hw; subst hw; rfl)
  · intro C h m hne; rw [eo]; exact nc C h m hne
  · have : savedTables b' cs = savedTables b cs := by
      unfold savedTables objectCount stateCount
      simp only [eo]
    rw [this]; exact sz

/-- Objects are created through handles that were given out. -/
theorem trace_create_registered {P evs : List Event} {b b' : Baseline} (hb : BInv P b) (ht : Trace b evs b') {C : ContractTy} {h o : Idx}
    (hc : DidCreate evs C h o) : ∃ D, DidRegister (P ++ evs) D h := by
  induction ht generalizing P with
  | nil b => obtain ⟨_, _, hm⟩ := hc; cases hm
  | cons b op evs b' ht ih =>
    obtain ⟨ss, cs, hm⟩ := hc
    rcases List.mem_cons.1 hm with hm | hm
    · injection hm with h1 h2
      subst h1
      have h4 : (b.objectCreate C h ss cs).2.map some = .ok (some o) := h2.symm
      rcases objectCreate_cases b C h ss cs with ⟨⟨cd, g⟩, _⟩ | ⟨_, h3, _⟩
      · obtain ⟨D, _, hD⟩ := hb.c.origin h cd g
        exact ⟨D, by unfold DidRegister at hD ⊢; simp [hD]⟩
      · cases hx : (b.objectCreate C h ss cs).2 with
        | ok x => rw [hx] at h3; cases h3
        | err m => rw [hx] at h4; cases h4
        | panic m => rw [hx] at h4; cases h4
    · obtain ⟨D, hD⟩ := ih (step_binv hb op) ⟨ss, cs, hm⟩
      exact ⟨D, by simpa [List.append_assoc] using hD⟩

theorem history_not_new {kind : Kind} {evs : List Event} {b : Baseline} (hH : History kind evs b) {C : ContractTy} {h o : Idx}
    (hc : CreatedAs evs C h o) (c : ContractData) : h ≠ (b.contracts.insert c).2 := by
  obtain ⟨D, hD⟩ := trace_create_registered (new_binv kind) hH hc
  rw [List.nil_append] at hD
  have hb := history_binv hH
  have hn := insert_new hb.c.inv c
  rintro rfl
  rcases hb.c.registered D _ hD with ⟨cd, g, _⟩ | d
  · rw [hn.1] at g; cases g
  · exact hn.2 d

theorem objectsOf_mem {kind : Kind} {evs : List Event} {b : Baseline} {cs : List (ContractTy × Idx)} (hS : Savable kind evs b cs) {C : ContractTy} {h : Idx}
    (m : (C, h) ∈ cs) : ∃ cd, b.contractData h = .ok cd ∧ cd.id = C.id ∧ objectsOf b h = cd.objects := by
  obtain ⟨cd, h1, h2⟩ := hS.serializable.registered C h m
  exact ⟨cd, h1, h2, objectsOf_eq h1⟩

/-- Nothing about the contracts `cs` changes. -/
theorem unchanged_savable {kind : Kind} {evs : List Event} {b : Baseline} {cs : List (ContractTy × Idx)} (hS : Savable kind evs b cs) {e : Event} {b' : Baseline}
    (hH : History kind (evs ++ [e]) b') (hcd : ∀ (C : ContractTy) (h : Idx), (C, h) ∈ cs → b'.contractData h = b.contractData h)
    (hob : ∀ (C : ContractTy) (h o : Idx) (ob : ObjectD), (C, h) ∈ cs → o ∈ objectsOf b h → b.object o = .ok ob → ∃ ob', b'.object o = .ok ob' ∧ SameShape ob ob')
    (hst : ∀ (t : PropType) (i : Idx) (v : t.Carrier), b.state t i = .ok v → b'.state t i = .ok v)
    (hev : ∀ (C C' : ContractTy) (h o : Idx), (C, h) ∈ cs → CreatedAs [e] C' h o → C' = C) : Savable kind (evs ++ [e]) b' cs := by
  have eo : ∀ {C : ContractTy} {k : Idx}, (C, k) ∈ cs → objectsOf b' k = objectsOf b k := fun m => by unfold objectsOf; rw [hcd _ _ m]
  have hh : ∀ {C : ContractTy} {h o : Idx} {n : Nat} {f : Field} {t : PropType} {w : t.Carrier}, (C, h) ∈ cs → o ∈ objectsOf b h → C.states[n]? = some f → f.ty = t →
      Holds b' h o n t w → Holds b h o n t w := by
    rintro C h o n f t w m l hf rfl ⟨j, h1, h2⟩
    obtain ⟨_, _, _, _, _, _, hE, _⟩ := C78_savable_again hS (demoCycle cs) (demoCycle_fits cs)
    obtain ⟨v1, _, ⟨i, hb, hv⟩, _⟩ := hE.values C h o n f m l hf
    obtain ⟨ob, g⟩ := hS.serializable.present C h o m l
    obtain ⟨ob', g1, g2, g3, g4⟩ := hob C h o ob m l g
    rw [bindState_of_get (object_ok.1 g1)] at h1
    rw [bindState_of_get (object_ok.1 g)] at hb
    have k1 := bindIdx_ok.1 h1
    have k2 := bindIdx_ok.1 hb
    rw [g2] at k1
    have e : i = j := by have := k2.2.symm.trans k1.2; injection this
    subst e
    have := hst _ _ _ hv
    rw [this] at h2; injection h2 with h2; subst h2
    exact ⟨i, by rw [bindState_of_get (object_ok.1 g)]; exact hb, hv⟩
  have hS' := hS
  obtain ⟨_, ⟨s1, s2, s3, s4, s5⟩, ⟨c1, c2⟩, d, nn, nc, sz⟩ := hS'
  refine ⟨hH, ⟨?_, ?_, ?_, s4, s5⟩, ⟨?_, ?_⟩, d, nn, ?_, ?_⟩
  · intro C h m; rw [hcd C h m]; exact s1 C h m
  · rintro C C' h o m ⟨ss, cs', hm⟩
    rcases List.mem_append.1 hm with hm | hm
    · exact s2 C C' h o m ⟨ss, cs', hm⟩
    · exact hev C C' h o m ⟨ss, cs', hm⟩
  · intro C h o m l
    rw [eo m] at l
    obtain ⟨ob, g⟩ := s3 C h o m l
    obtain ⟨ob', g1, _⟩ := hob C h o ob m l g
    exact ⟨ob', g1⟩
  · intro C h o n f w m l hf ht hw
    rw [eo m] at l
    obtain ⟨D, k, m', l'⟩ := c1 C h o n f w m l hf ht (hh m l hf ht hw)
    exact ⟨D, k, m', by rw [eo m']; exact l'⟩
  · intro C h o n f w m l hf ht hw
    rw [eo m] at l
    exact c2 C h o n f w m l hf ht (hh m l hf ht hw)
  · intro C h m hne; rw [eo m]; exact nc C h m hne
  · have : savedTables b' cs = savedTables b cs := by
      have e1 : objectCount b' cs = objectCount b cs := by
        unfold objectCount; congr 1; exact List.map_congr_left fun e m => by rw [eo (C := e.1) (k := e.2) m]
      have e2 : stateCount b' cs = stateCount b cs := by
        unfold stateCount; congr 1; exact List.map_congr_left fun e m => by rw [eo (C := e.1) (k := e.2) m]
      unfold savedTables; rw [e1, e2]
    rw [this]; exact sz

theorem start_savable (kind : Kind) : Savable kind [] (Baseline.new kind) [] := by
  refine ⟨.nil _, ⟨?_, ?_, ?_, ?_, by simp⟩, ⟨?_, ?_⟩, by simp, by simp, ?_, ?_⟩
  all_goals first | (intros; simp_all) | simp [savedTables, objectCount, stateCount] | skip
  all_goals exact .of_none (by simp)

theorem registerOther_savable {kind : Kind} {evs : List Event} {b : Baseline} {cs : List (ContractTy × Idx)} (hS : Savable kind evs b cs)
    {C : ContractTy} {b' : Baseline} {h : Idx} (e : b.registerContract C = (b', .ok h)) :
    Savable kind (evs ++ [(.register C, .ok (some h))]) b' cs := by
  have hist : Trace (Baseline.new kind) (evs ++ [(.register C, .ok (some h))]) b' := by
    have h := trace_snoc hS.history (.register C)
    simp only [Baseline.step, e] at h
    exact h
  have hb := history_binv hS.history
  rcases registerContract_cases b C with ⟨_, hr⟩ | ⟨_, hr⟩
  · rw [hr] at e; injection e with _ e; cases e
  · rw [hr] at e
    injection e with e _
    subst e
    refine unchanged_savable hS hist ?_ ?_ (fun _ _ _ h => h) ?_
    · intro D k m
      obtain ⟨cd, h1, _⟩ := hS.serializable.registered D k m
      rw [h1]
      exact contractData_ok.2 (get_insert_of_some hb.c.inv _ _ (contractData_ok.1 h1))
    · intro D k o ob _ _ g; exact ⟨ob, g, rfl, rfl, rfl⟩
    · rintro D C' k o _ ⟨ss, cs', hm⟩; simp at hm

theorem register_savable {kind : Kind} {evs : List Event} {b : Baseline} {cs : List (ContractTy × Idx)} (hS : Savable kind evs b cs)
    {C : ContractTy} {b' : Baseline} {h : Idx} (e : b.registerContract C = (b', .ok h)) (hp : ∀ f ∈ C.states, ∃ p, f.ty = .prim p)
    (hn : C.id ≠ ⟨"teleportal.serialize.NullContract", (0, 0, 0)⟩) (hl : cs.length + 1 ≤ 65535) (hz : savedTables b' (cs ++ [(C, h)]) ≤ 1000000) :
    Savable kind (evs ++ [(.register C, .ok (some h))]) b' (cs ++ [(C, h)]) := by
  have hS1 := registerOther_savable hS e
  have hb := history_binv hS.history
  rcases registerContract_cases b C with ⟨_, hr⟩ | ⟨_, hr⟩
  · rw [hr] at e; injection e with _ e; cases e
  · rw [hr] at e
    injection e with e1 e2
    injection e2 with e2
    have hself : b'.contractData h = .ok ⟨C.id, []⟩ := by
      subst e1; subst e2; exact contractData_ok.2 (get_insert_self hb.c.inv _)
    have hob : objectsOf b' h = [] := objectsOf_eq hself
    have hne : ∀ (D : ContractTy) (k : Idx), (D, k) ∈ cs → k ≠ h := by
      rintro D k m rfl
      obtain ⟨cd, g, _⟩ := hS.serializable.registered D k m
      have := insert_fresh hb.c.inv ⟨C.id, []⟩
      rw [e2, contractData_ok.1 g] at this; cases this
    have hmem : ∀ {D : ContractTy} {k : Idx}, (D, k) ∈ cs ++ [(C, h)] → (D, k) ∈ cs ∨ (D = C ∧ k = h) := by
      intro D k m; simpa using m
    have hin : ∀ {D : ContractTy} {k : Idx}, (D, k) ∈ cs → (D, k) ∈ cs ++ [(C, h)] := by intro D k m; simp [m]
    obtain ⟨hist, ⟨s1, s2, s3, s4, s5⟩, ⟨c1, c2⟩, d, nn, nc, sz⟩ := hS1
    refine ⟨hist, ⟨?_, ?_, ?_, ?_, by simpa using hl⟩, ⟨?_, ?_⟩, ?_, ?_, ?_, hz⟩
    · intro D k m
      rcases hmem m with m | ⟨rfl, rfl⟩
      · exact s1 D k m
      · exact ⟨_, hself, rfl⟩
    · intro D C' k o m hc
      rcases hmem m with m | ⟨rfl, rfl⟩
      · exact s2 D C' k o m hc
      · obtain ⟨ss, cs', hm⟩ := hc
        rcases List.mem_append.1 hm with hm | hm
        · exact absurd e2.symm (history_not_new hS.history ⟨ss, cs', hm⟩ _)
        · simp at hm
    · intro D k o m l
      rcases hmem m with m | ⟨rfl, rfl⟩
      · exact s3 D k o m l
      · rw [hob] at l; cases l
    · intro D k f m hf
      rcases hmem m with m | ⟨rfl, rfl⟩
      · exact s4 D k f m hf
      · exact hp f hf
    · intro D k o n f w m l hf ht hw
      rcases hmem m with m | ⟨rfl, rfl⟩
      · obtain ⟨D', k', m', l'⟩ := c1 D k o n f w m l hf ht hw
        exact ⟨D', k', hin m', l'⟩
      · rw [hob] at l; cases l
    · intro D k o n f w m l hf ht hw
      rcases hmem m with m | ⟨rfl, rfl⟩
      · obtain ⟨D', m'⟩ := c2 D k o n f w m l hf ht hw
        exact ⟨D', hin m'⟩
      · rw [hob] at l; cases l
    · rw [List.map_append, List.nodup_append]
      refine ⟨d, by simp, ?_⟩
      intro k hk k' hk'
      obtain ⟨⟨D, k1⟩, m, rfl⟩ := List.mem_map.1 hk
      simp only [List.map_cons, List.map_nil, List.mem_singleton] at hk'
      subst hk'
      exact hne D _ m
    · intro x m
      rcases hmem (D := x.1) (k := x.2) m with m | ⟨h1, _⟩
      · exact nn x m
      · rw [h1]; exact hn
    · intro D k m hne
      rcases hmem m with m | ⟨rfl, rfl⟩
      · exact nc D k m hne
      · exact hob

theorem createOther_savable {kind : Kind} {evs : List Event} {b : Baseline} {cs : List (ContractTy × Idx)} (hS : Savable kind evs b cs)
    {C : ContractTy} {h : Idx} {ss : List DynProp} {ch : List DynChannel} {b' : Baseline} {o : Idx} (e : b.objectCreate C h ss ch = (b', .ok o))
    (hn : ∀ x ∈ cs, x.2 ≠ h) : Savable kind (evs ++ [(.create C h ss ch, .ok (some o))]) b' cs := by
  have hist : Trace (Baseline.new kind) (evs ++ [(.create C h ss ch, .ok (some o))]) b' := by
    have h := trace_snoc hS.history (.create C h ss ch)
    simp only [Baseline.step, e] at h
    exact h
  obtain ⟨f1, f2, f3, _, f5, _⟩ := C10_create_frame hS.history e
  refine unchanged_savable hS hist (fun D k m => f5 k (hn _ m)) ?_ (fun t i v => f3 t i v) ?_
  · intro D k x ob _ _ g
    refine ⟨ob, ?_, rfl, rfl, rfl⟩
    rw [f2 x ?_]; exact g
    rintro rfl
    rw [g] at f1; cases f1
  · rintro D C' k x m ⟨ss', cs', hm⟩
    simp only [List.mem_singleton, Prod.mk.injEq, BOp.create.injEq] at hm
    exact absurd hm.1.2.1 (hn _ m)

theorem channel_savable {kind : Kind} {evs : List Event} {b : Baseline} {cs : List (ContractTy × Idx)} (hS : Savable kind evs b cs)
    {t : PropType} {i : Idx} {v : t.Chan} {b' : Baseline} {r : Outcome Unit} (e : b.channelWrite t i v = (b', r)) :
    Savable kind (evs ++ [(.writeChannel t i v, r.map fun _ => none)]) b' cs := by
  have hist : Trace (Baseline.new kind) (evs ++ [(.writeChannel t i v, r.map fun _ => none)]) b' := by
    have h := trace_snoc hS.history (.writeChannel t i v)
    simp only [Baseline.step, e] at h
    exact h
  have hf : (b.channelWrite t i v).1.objects = b.objects ∧ (b.channelWrite t i v).1.contracts = b.contracts := by
    unfold channelWrite; split <;> exact ⟨rfl, rfl⟩
  have hs : (b.channelWrite t i v).1.states = b.states := by unfold channelWrite; split <;> rfl
  rw [e] at hf hs
  refine unchanged_savable hS hist (fun D k _ => contractData_congr (by rw [hf.2])) ?_ (fun t i v h => by rw [← h]; exact state_congr (by rw [hs])) ?_
  · intro D k x ob _ _ g
    exact ⟨ob, by rw [← g]; exact object_congr (by rw [hf.1]), rfl, rfl, rfl⟩
  · rintro D C' k x m ⟨ss', cs', hm⟩; simp at hm

theorem setWarp_savable {kind : Kind} {evs : List Event} {b : Baseline} {cs : List (ContractTy × Idx)} (hS : Savable kind evs b cs)
    {o : Idx} {w : TimeWarp} {b' : Baseline} {r : Outcome Unit} (e : b.setWarp o w = (b', r)) :
    Savable kind (evs ++ [(.setWarp o w, r.map fun _ => none)]) b' cs := by
  have hist : Trace (Baseline.new kind) (evs ++ [(.setWarp o w, r.map fun _ => none)]) b' := by
    have h := trace_snoc hS.history (.setWarp o w)
    simp only [Baseline.step, e] at h
    exact h
  have hb := history_binv hS.history
  have hk : b'.contracts = b.contracts ∧ b'.states = b.states ∧
      ∀ (x : Idx) (ob : ObjectD), b.objects.get x = some ob → ∃ ob', b'.objects.get x = some ob' ∧ SameShape ob ob' := by
    unfold setWarp at e
    split at e
    · injection e with e _; subst e; exact ⟨rfl, rfl, fun x ob g => ⟨ob, g, rfl, rfl, rfl⟩⟩
    · rename_i objs hm
      injection e with e _; subst e
      refine ⟨rfl, rfl, fun x ob g => ?_⟩
      show ∃ ob', objs.get x = some ob' ∧ _
      rw [get_modify hm]
      split
      · rename_i ex; subst ex; rw [g]; exact ⟨_, rfl, rfl, rfl, rfl⟩
      · exact ⟨ob, g, rfl, rfl, rfl⟩
  refine unchanged_savable hS hist (fun D k _ => contractData_congr (by rw [hk.1])) ?_ (fun t i v h => by rw [← h]; exact state_congr (by rw [hk.2.1])) ?_
  · intro D k x ob _ _ g
    obtain ⟨ob', g1, g2⟩ := hk.2.2 x ob (object_ok.1 g)
    exact ⟨ob', object_ok.2 g1, g2⟩
  · rintro D C' k x m ⟨ss', cs', hm⟩; simp at hm

theorem removeOther_savable {kind : Kind} {evs : List Event} {b : Baseline} {cs : List (ContractTy × Idx)} (hS : Savable kind evs b cs)
    {C : ContractTy} {o : Idx} {b' : Baseline} {r : Outcome Unit} (e : b.objectRemove C o = (b', r)) (hn : ∀ x ∈ cs, o ∉ objectsOf b x.2) :
    Savable kind (evs ++ [(.remove C o, r.map fun _ => none)]) b' cs := by
  have hist : Trace (Baseline.new kind) (evs ++ [(.remove C o, r.map fun _ => none)]) b' := by
    have h := trace_snoc hS.history (.remove C o)
    simp only [Baseline.step, e] at h
    exact h
  have hf := objectRemove_fst b C o
  rw [e] at hf
  simp only at hf
  subst hf
  refine unchanged_savable hS hist (fun D k _ => contractData_congr rfl) ?_ (fun t i v h => h) ?_
  · intro D k x ob m l g
    refine ⟨ob, ?_, rfl, rfl, rfl⟩
    rw [← g]
    refine object_congr ?_
    show (removeList b.objects [o]).get x = _
    rw [get_removeList, if_neg]
    simp only [List.mem_singleton]
    rintro rfl
    exact hn _ m l
  · rintro D C' k x m ⟨ss', cs', hm⟩; simp at hm

/-- Unregistering a contract leaves the others, and what is in them. -/
theorem unregister_others {kind : Kind} {evs : List Event} {b : Baseline} (hH : History kind evs b) (C : ContractTy) (h : Idx) (ord : HashOrder) :
    (∀ k : Idx, k ≠ h → (b.unregisterContract C h ord).1.contractData k = b.contractData k) ∧
    (∀ (k x : Idx) (ob : ObjectD), k ≠ h → x ∈ objectsOf b k → b.object x = .ok ob → (b.unregisterContract C h ord).1.object x = .ok ob) ∧
    (b.unregisterContract C h ord).1.states = b.states := by
  have hb := history_binv hH
  rcases unregister_cases b C h ord with ⟨h1, _⟩ | ⟨cd, cons, done, g1, _, hm, hd, hc⟩
  · rw [h1]; exact ⟨fun _ _ => rfl, fun _ _ _ _ _ g => g, rfl⟩
  · have hob : ∀ (k x : Idx) (ob : ObjectD), k ≠ h → x ∈ objectsOf b k → b.object x = .ok ob → (removeList b.objects done).get x = some ob := by
      intro k x ob hk l g
      rw [get_removeList, if_neg]
      · exact object_ok.1 g
      · intro hx
        have hx : x ∈ cd.objects := by
          have := hd.subset hx
          exact (ord.perm cd.objects).mem_iff.1 this
        have z1 : ob.contract = h := by
          rcases hb.c.listed h x cd g1 hx with ⟨ob', q1, q2⟩ | q
          · rw [object_ok.1 g] at q1; injection q1 with q1; subst q1; exact q2
          · have := object_ok.1 g; rw [q.1] at this; cases this
        unfold objectsOf at l
        cases hk2 : b.contractData k with
        | ok cd2 =>
          rw [hk2] at l
          rcases hb.c.listed k x cd2 (contractData_ok.1 hk2) l with ⟨ob', q1, q2⟩ | q
          · rw [object_ok.1 g] at q1; injection q1 with q1; subst q1; exact hk (q2.symm.trans z1)
          · have := object_ok.1 g; rw [q.1] at this; cases this
        | err m => rw [hk2] at l; cases l
        | panic m => rw [hk2] at l; cases l
    rcases hc with ⟨_, h5⟩ | ⟨h5, _⟩
    · rw [h5]
      refine ⟨fun k hk => contractData_congr ?_, fun k x ob hk l g => object_ok.2 (hob k x ob hk l g), rfl⟩
      show (cons.remove h).1.get k = _
      rw [get_remove, if_neg hk, get_modify hm, if_neg hk]
    · rw [h5]
      refine ⟨fun k hk => contractData_congr ?_, fun k x ob hk l g => object_ok.2 (hob k x ob hk l g), rfl⟩
      show cons.get k = _
      rw [get_modify hm, if_neg hk]

theorem unregisterOther_savable {kind : Kind} {evs : List Event} {b : Baseline} {cs : List (ContractTy × Idx)} (hS : Savable kind evs b cs)
    {C : ContractTy} {h : Idx} {ord : HashOrder} {b' : Baseline} {r : Outcome Unit} (e : b.unregisterContract C h ord = (b', r)) (hn : ∀ x ∈ cs, x.2 ≠ h) :
    Savable kind (evs ++ [(.unregister C h ord, r.map fun _ => none)]) b' cs := by
  have hist : Trace (Baseline.new kind) (evs ++ [(.unregister C h ord, r.map fun _ => none)]) b' := by
    have h := trace_snoc hS.history (.unregister C h ord)
    simp only [Baseline.step, e] at h
    exact h
  obtain ⟨k1, k2, k3⟩ := unregister_others hS.history C h ord
  rw [e] at k1 k2 k3
  refine unchanged_savable hS hist (fun D k m => k1 k (hn _ m)) (fun D k x ob m l g => ⟨ob, k2 k x ob (hn _ m) l g, rfl, rfl, rfl⟩)
    (fun t i v q => by rw [← q]; exact state_congr (by rw [k3])) ?_
  rintro D C' k x m ⟨ss', cs', hm⟩; simp at hm

theorem sum_le {α : Type} {l : List α} {f g : α → Nat} (h : ∀ x ∈ l, f x ≤ g x) : (l.map f).sum ≤ (l.map g).sum := by
  induction l with
  | nil => simp
  | cons a l ih =>
    simp only [List.map_cons, List.sum_cons]
    exact Nat.add_le_add (h a (by simp)) (ih fun x m => h x (by simp [m]))

/-- What saving needs grows with the objects. -/
theorem tables_mono {b b' : Baseline} {cs : List (ContractTy × Idx)} (h : ∀ e ∈ cs, (objectsOf b e.2).length ≤ (objectsOf b' e.2).length) :
    savedTables b cs ≤ savedTables b' cs := by
  have e1 : objectCount b cs ≤ objectCount b' cs := by
    unfold objectCount; exact sum_le h
  have e2 : stateCount b cs ≤ stateCount b' cs := by
    unfold stateCount; exact sum_le fun e m => Nat.mul_le_mul_right _ (h e m)
  unfold savedTables; omega

theorem create_savable {kind : Kind} {evs : List Event} {b : Baseline} {cs : List (ContractTy × Idx)} (hS : Savable kind evs b cs)
    {C : ContractTy} {h : Idx} {ss : List DynProp} {b' : Baseline} {o : Idx} (e : b.objectCreate C h ss [] = (b', .ok o)) (hm : (C, h) ∈ cs)
    (hch : C.channels = []) (hv : ∀ v ∈ ss, FromWithin b cs v) (hz : savedTables b' cs ≤ 1000000) :
    Savable kind (evs ++ [(.create C h ss [], .ok (some o))]) b' cs := by
  have hist : Trace (Baseline.new kind) (evs ++ [(.create C h ss [], .ok (some o))]) b' := by
    have h := trace_snoc hS.history (.create C h ss [])
    simp only [Baseline.step, e] at h
    exact h
  obtain ⟨f1, f2, f3, _, f5, ⟨cd, cd', g1, g2, g3, g4, g5⟩, _⟩ := C10_create_frame hS.history e
  obtain ⟨⟨ob0, r1, r2, _⟩, r3, _, r4, _⟩ := C09_create_reads_back hS.history e
  have only : ∀ {D : ContractTy} {k : Idx}, (D, k) ∈ cs → k = h → D = C := by
    rintro D k m rfl
    have := List.inj_on_of_nodup_map hS.different m hm rfl
    injection this
  have sub : ∀ {D : ContractTy} {k x : Idx}, (D, k) ∈ cs → x ∈ objectsOf b k → x ∈ objectsOf b' k := by
    intro D k x m l
    by_cases ek : k = h
    · subst ek; rw [objectsOf_eq g1] at l; rw [objectsOf_eq g2]; exact (g5 x).2 (.inr l)
    · unfold objectsOf at l ⊢; rw [f5 k ek]; exact l
  have back : ∀ {D : ContractTy} {k x : Idx}, (D, k) ∈ cs → x ∈ objectsOf b' k → x ∈ objectsOf b k ∨ (x = o ∧ k = h) := by
    intro D k x m l
    by_cases ek : k = h
    · subst ek; rw [objectsOf_eq g2] at l; rw [objectsOf_eq g1]
      rcases (g5 x).1 l with l | l
      · exact .inr ⟨l, rfl⟩
      · exact .inl l
    · left; unfold objectsOf at l ⊢; rw [f5 k ek] at l; exact l
  have old : ∀ {x : Idx} {ob : ObjectD}, b.object x = .ok ob → b'.object x = .ok ob := by
    intro x ob g
    rw [f2 x ?_]; exact g
    rintro rfl
    rw [g] at f1; cases f1
  have hh : ∀ {D : ContractTy} {k x : Idx} {n : Nat} {f : Field} {t : PropType} {w : t.Carrier}, (D, k) ∈ cs → x ∈ objectsOf b' k → D.states[n]? = some f →
      f.ty = t → Holds b' k x n t w → (x ∈ objectsOf b k ∧ Holds b k x n t w) ∨ DynProp.ofTyped t w ∈ ss := by
    rintro D k x n f t w m l hf rfl ⟨j, h1, h2⟩
    rcases back m l with l | ⟨rfl, rfl⟩
    · obtain ⟨_, _, _, _, _, _, hE, _⟩ := C78_savable_again hS (demoCycle cs) (demoCycle_fits cs)
      obtain ⟨v1, _, ⟨i, hb, hv⟩, _⟩ := hE.values D k x n f m l hf
      obtain ⟨ob, g⟩ := hS.serializable.present D k x m l
      rw [bindState_of_get (object_ok.1 (old g))] at h1
      rw [bindState_of_get (object_ok.1 g)] at hb
      rw [hb] at h1; injection h1 with h1; subst h1
      have := f3 _ _ _ hv
      rw [this] at h2; injection h2 with h2; subst h2
      exact .inl ⟨l, i, by rw [bindState_of_get (object_ok.1 g)]; exact hb, hv⟩
    · right
      have := only m rfl
      subst this
      have hn : n < ss.length := by rw [r3]; exact (List.getElem?_eq_some_iff.1 hf).1
      obtain ⟨id, sh, q1, q2, q3, q4⟩ := r4 n ss[n] (List.getElem?_eq_getElem hn)
      obtain ⟨z1, z2⟩ := stateId_some q1
      rw [z2, h1] at q3; injection q3 with q3; subst q3
      have ety : f.ty = ss[n].typed.1 := by
        rw [← q2]
        unfold ContractTy.stateTypes at z1
        rw [List.getElem?_map, hf] at z1; injection z1
      obtain ⟨y, hy⟩ := ss[n].exists_typed
      have hT : ss[n].typed = ⟨ss[n].propType, y⟩ := (congrArg DynProp.typed hy).trans (DynProp.typed_ofTyped _ _)
      rw [hT] at q4 ety
      simp only at q4 ety
      obtain ⟨nm, ty⟩ := f
      simp only at ety h2 w
      subst ety
      rw [h2] at q4; injection q4 with q4; subst q4
      rw [← hy]; exact List.getElem_mem hn
  obtain ⟨_, ⟨s1, s2, s3, s4, s5⟩, ⟨c1, c2⟩, d, nn, nc, _⟩ := hS
  refine ⟨hist, ⟨?_, ?_, ?_, s4, s5⟩, ⟨?_, ?_⟩, d, nn, ?_, hz⟩
  · intro D k m
    by_cases ek : k = h
    · have := only m ek
      subst this; subst ek
      obtain ⟨x, y1, y2⟩ := s1 D k m
      rw [g1] at y1; injection y1 with y1; subst y1
      exact ⟨cd', g2, g3.trans y2⟩
    · rw [f5 k ek]; exact s1 D k m
  · rintro D C' k x m ⟨ss', cs', hq⟩
    rcases List.mem_append.1 hq with hq | hq
    · exact s2 D C' k x m ⟨ss', cs', hq⟩
    · simp only [List.mem_singleton, Prod.mk.injEq, BOp.create.injEq] at hq
      rw [hq.1.1]; exact (only m hq.1.2.1).symm
  · intro D k x m l
    rcases back m l with l | ⟨rfl, _⟩
    · obtain ⟨ob, g⟩ := s3 D k x m l
      exact ⟨ob, old g⟩
    · exact ⟨ob0, r1⟩
  · intro D k x n f w m l hf ht hw
    rcases hh m l hf ht hw with ⟨l, hw⟩ | hw
    · obtain ⟨D', k', m', l'⟩ := c1 D k x n f w m l hf ht hw
      exact ⟨D', k', m', sub m' l'⟩
    · obtain ⟨D', k', m', l'⟩ := (hv _ hw).1 w rfl
      exact ⟨D', k', m', sub m' l'⟩
  · intro D k x n f w m l hf ht hw
    rcases hh m l hf ht hw with ⟨l, hw⟩ | hw
    · exact c2 D k x n f w m l hf ht hw
    · exact (hv _ hw).2 w rfl
  · intro D k m hne
    by_cases ek : k = h
    · exact absurd (only m ek ▸ hch) hne
    · unfold objectsOf; rw [f5 k ek]; exact nc D k m hne

/-- The number of objects of a contract does not shrink. -/
theorem step_grows {kind : Kind} {evs : List Event} {b : Baseline} (hist : History kind evs b) (op : BOp)
    (hu : ∀ (C : ContractTy) (h : Idx) (ord : HashOrder), op ≠ .unregister C h ord) (k : Idx) :
    (objectsOf b k).length ≤ (objectsOf (b.step op).1 k).length :=
  (List.subperm_of_subset (objectsOf_nodup hist k) fun _ l => step_listed (history_binv hist) op (fun C ord => hu C k ord) l).length_le

theorem built_history {kind : Kind} {b : Baseline} {cs : List (ContractTy × Idx)} (hB : Built kind b cs) : ∃ evs, History kind evs b := by
  have go : ∀ {b b' : Baseline} (op : BOp), (b.step op).1 = b' → (∃ evs, History kind evs b) → ∃ evs, History kind evs b' := by
    rintro b b' op rfl ⟨evs, h⟩
    exact ⟨_, trace_snoc h op⟩
  induction hB with
  | start => exact ⟨[], .nil _⟩
  | register b cs C b' h _ _ _ e ih => exact go (.register C) (by simp only [Baseline.step, e]) ih
  | create b cs C h ss b' o _ _ _ _ e ih => exact go (.create C h ss []) (by simp only [Baseline.step, e]) ih
  | write b cs t i v b' _ _ e ih => exact go (.writeState t i v) (by simp only [Baseline.step, e]) ih
  | registerOther b cs C b' h _ e ih => exact go (.register C) (by simp only [Baseline.step, e]) ih
  | createOther b cs C h ss ch b' o _ _ e ih => exact go (.create C h ss ch) (by simp only [Baseline.step, e]) ih
  | channel b cs t i v b' r _ e ih => exact go (.writeChannel t i v) (by simp only [Baseline.step, e]) ih
  | warp b cs o w b' r _ e ih => exact go (.setWarp o w) (by simp only [Baseline.step, e]) ih
  | removeOther b cs C o b' r _ _ e ih => exact go (.remove C o) (by simp only [Baseline.step, e]) ih
  | unregisterOther b cs C h ord b' r _ _ e ih => exact go (.unregister C h ord) (by simp only [Baseline.step, e]) ih

/-- **C141.** Whatever was built with care can be saved: after any number of such calls, in any order, if the saved form stays within the limits of the format
(65535 contracts, a million tables). -/
theorem C141_built_savable {kind : Kind} {b : Baseline} {cs : List (ContractTy × Idx)} (hB : Built kind b cs) (hl : cs.length ≤ 65535)
    (hz : savedTables b cs ≤ 1000000) : ∃ evs, Savable kind evs b cs := by
  have go : ∀ {b b' : Baseline} {cs : List (ContractTy × Idx)} (op : BOp), Built kind b cs → (b.step op).1 = b' →
      (∀ (C : ContractTy) (h : Idx) (ord : HashOrder), op ≠ .unregister C h ord) → savedTables b cs ≤ savedTables b' cs := by
    rintro b b' cs op hb rfl hu
    obtain ⟨evs, h⟩ := built_history hb
    exact tables_mono fun e _ => step_grows h op hu e.2
  induction hB with
  | start => exact ⟨_, start_savable kind⟩
  | register b cs C b' h hb hp hn e ih =>
    have h1 := go (b' := b') (.register C) hb (by simp only [Baseline.step, e]) (by simp)
    have h2 : savedTables b' cs ≤ savedTables b' (cs ++ [(C, h)]) := by
      simp only [savedTables, objectCount, stateCount, List.map_append, List.sum_append, List.length_append]; omega
    have hl' : cs.length + 1 ≤ 65535 := by simpa using hl
    obtain ⟨evs, hS⟩ := ih (by omega) (by omega)
    exact ⟨_, register_savable hS e hp hn hl' hz⟩
  | create b cs C h ss b' o hb m hc hv e ih =>
    have h1 := go (b' := b') (.create C h ss []) hb (by simp only [Baseline.step, e]) (by simp)
    obtain ⟨evs, hS⟩ := ih hl (by omega)
    exact ⟨_, create_savable hS e m hc hv hz⟩
  | write b cs t i v b' hb hv e ih =>
    have h1 := go (b' := b') (.writeState t i v) hb (by simp only [Baseline.step, e]) (by simp)
    obtain ⟨evs, hS⟩ := ih hl (by omega)
    exact ⟨_, write_savable hS e hv.1 hv.2⟩
  | registerOther b cs C b' h hb e ih =>
    have h1 := go (b' := b') (.register C) hb (by simp only [Baseline.step, e]) (by simp)
    obtain ⟨evs, hS⟩ := ih hl (by omega)
    exact ⟨_, registerOther_savable hS e⟩
  | createOther b cs C h ss ch b' o hb hn e ih =>
    have h1 := go (b' := b') (.create C h ss ch) hb (by simp only [Baseline.step, e]) (by simp)
    obtain ⟨evs, hS⟩ := ih hl (by omega)
    exact ⟨_, createOther_savable hS e hn⟩
  | channel b cs t i v b' r hb e ih =>
    have h1 := go (b' := b') (.writeChannel t i v) hb (by simp only [Baseline.step, e]) (by simp)
    obtain ⟨evs, hS⟩ := ih hl (by omega)
    exact ⟨_, channel_savable hS e⟩
  | warp b cs o w b' r hb e ih =>
    have h1 := go (b' := b') (.setWarp o w) hb (by simp only [Baseline.step, e]) (by simp)
    obtain ⟨evs, hS⟩ := ih hl (by omega)
    exact ⟨_, setWarp_savable hS e⟩
  | removeOther b cs C o b' r hb hn e ih =>
    have h1 := go (b' := b') (.remove C o) hb (by simp only [Baseline.step, e]) (by simp)
    obtain ⟨evs, hS⟩ := ih hl (by omega)
    exact ⟨_, removeOther_savable hS e hn⟩
  | unregisterOther b cs C h ord b' r hb hn e ih =>
    obtain ⟨evs0, hH⟩ := built_history hb
    have h1 : savedTables b cs ≤ savedTables b' cs := tables_mono fun x m => by
      have := (unregister_others hH C h ord).1 x.2 (hn x m)
      rw [e] at this
      unfold objectsOf
      rw [this]
    obtain ⟨evs, hS⟩ := ih hl (by omega)
    exact ⟨_, unregisterOther_savable hS e hn⟩

/-- **C141.** So saving it gives a file, with any orders, and the file restores what was saved. -/
theorem C141_built_restores {kind : Kind} {b : Baseline} {cs : List (ContractTy × Idx)} (hB : Built kind b cs) (hl : cs.length ≤ 65535)
    (hz : savedTables b cs ≤ 1000000) (ht : 13 * fieldCount cs + textBytes b cs ≤ 2000000000) (c : Cycle) (hc : c.Fits cs) :
    ∃ bytes : Bytes, c.save b = .ok bytes ∧ ∃ (cs' : List (ContractTy × Idx)) (b' : Baseline) (φ ψ : Idx → Idx),
      c.load bytes = .ok (cs', b') ∧ SameContents b cs b' cs' φ ψ := by
  obtain ⟨evs, hS⟩ := C141_built_savable hB hl hz
  obtain ⟨bytes, h1, h2⟩ := C127_file_restores hS ht c hc
  obtain ⟨cs', b', φ, ψ, _, h3, h4, _⟩ := h2 c hc.2
  exact ⟨bytes, h1, cs', b', φ, ψ, h3, h4⟩

/-! ## Examples -/

/-- The second tag of C138 is built with care, next to a node that is not saved. -/
theorem tag2_built : Built .main tagB2 [(tagC, h1)] := by
  have r1 := Built.registerOther (Baseline.new .main) [] nodeC _ h0 .start (by rfl)
  have r2 := Built.register _ _ tagC _ h1 r1 (by intro f hf; simp [tagC] at hf; rcases hf with rfl | rfl <;> exact ⟨_, rfl⟩) (by decide) (by rfl)
  have r3 := Built.createOther _ _ nodeC h0 [.primitive (.u8 9), .primitive (.objectHandle h0)] [] _ h0 r2 (by decide) (by rfl)
  have r4 := Built.create _ _ tagC h1 [.primitive (.string "x"), .primitive (.contractDataHandle h1)] _ h1 r3 (by simp) rfl
    (by
      intro v hv
      simp only [List.mem_cons, List.mem_nil_iff, or_false] at hv
      rcases hv with rfl | rfl
      · exact ⟨by simp, by simp⟩
      · exact ⟨by simp, fun k hk => ⟨tagC, by simp at hk; simp [hk]⟩⟩) (by rfl)
  exact Built.write _ _ (.prim .string) h0 "a" _ r4 ⟨by simp [DynProp.ofTyped], by simp [DynProp.ofTyped]⟩ (by rfl)

example : ∃ bytes : Bytes, (demoCycle [(tagC, h1)]).save tagB2 = .ok bytes ∧ ∃ (cs' : List (ContractTy × Idx)) (b' : Baseline) (φ ψ : Idx → Idx),
    (demoCycle [(tagC, h1)]).load bytes = .ok (cs', b') ∧ SameContents tagB2 [(tagC, h1)] b' cs' φ ψ :=
  C141_built_restores tag2_built (by decide) (by decide +kernel) (by decide +kernel) _ (demoCycle_fits _)

/-- Removing the node, and a panic while its contract is unregistered, do not matter to the tag. -/
theorem tag2_alone : Built .main ((tagB2.objectRemove nodeC h0).1.unregisterContract nodeC h0 .id).1 [(tagC, h1)] ∧
    (tagB2.objectRemove nodeC h0).2.isErr = true ∧ ((tagB2.objectRemove nodeC h0).1.unregisterContract nodeC h0 .id).2.isPanic = true := by
  refine ⟨Built.unregisterOther _ _ nodeC h0 .id _ _ (Built.removeOther _ _ nodeC h0 _ _ tag2_built ?_ rfl) (by decide) rfl, by decide +kernel, by decide +kernel⟩
  decide +kernel

example : ∃ bytes : Bytes, (demoCycle [(tagC, h1)]).save ((tagB2.objectRemove nodeC h0).1.unregisterContract nodeC h0 .id).1 = .ok bytes ∧
    ∃ (cs' : List (ContractTy × Idx)) (b' : Baseline) (φ ψ : Idx → Idx), (demoCycle [(tagC, h1)]).load bytes = .ok (cs', b') ∧
      SameContents ((tagB2.objectRemove nodeC h0).1.unregisterContract nodeC h0 .id).1 [(tagC, h1)] b' cs' φ ψ :=
  C141_built_restores tag2_alone.1 (by decide) (by decide +kernel) (by decide +kernel) _ (demoCycle_fits _)

/-- Without care it goes wrong: with the handle of the node's contract in the tag, saving the tag alone gives no file. -/
example : ((demoCycle [(tagC, h1)]).save (tagB2.stateWrite (.prim .contractDataHandle) h0 h0).1).isOk = false := by decide +kernel

end Verif.Props
