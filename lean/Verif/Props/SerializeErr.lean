import Verif.Props.Serialize
/-!
# C49-C51: what the serializer refuses, and where it fails
-/
namespace Verif.Props
open Verif Spec Arena Baseline Store

/-! ## C49 -/

theorem kindsOf_none {ts : List PropType} : Ser.kindsOf ts = none ↔ ∃ p, PropType.vec p ∈ ts := by
  induction ts with
  | nil => simp [Ser.kindsOf]
  | cons t ts ih =>
    cases t with
    | vec p => simp [Ser.kindsOf]
    | prim p => simp [Ser.kindsOf, ih]

theorem pushState_contracts (s : Ser) (o : Idx) (d : DynId) : (s.pushState o d).1.contracts = s.contracts := by
  unfold Ser.pushState
  split
  · rfl
  · rfl
  · split
    · rfl
    · rfl
    · split
      · rfl
      · exact (noteHandle_same _ _ _ _).1.contracts

theorem pushStates_contracts (s : Ser) (o : Idx) (ds : List DynId) :
    (s.pushStates o ds).1.contracts = s.contracts := by
  induction ds generalizing s with
  | nil => rfl
  | cons d ds ih =>
    have h := pushState_contracts s o d
    unfold Ser.pushStates
    rcases hp : s.pushState o d with ⟨s1, i | m | m⟩ <;> rw [hp] at h <;> simp only at h ⊢
    · have h2 := ih s1
      rcases hq : s1.pushStates o ds with ⟨s2, is | m | m⟩ <;> rw [hq] at h2 <;> simp only at h2 ⊢ <;> rw [h2, h]
    · exact h
    · exact h

theorem pushObjects_contracts (s : Ser) (C : ContractTy) (h : Idx) (k : BitVec 16) (os : List Idx) :
    (s.pushObjects C h k os).1.contracts = s.contracts := by
  induction os generalizing s with
  | nil => rfl
  | cons o os ih =>
    have hc := pushStates_contracts s o (C.stateIds h)
    unfold Ser.pushObjects
    rcases hp : s.pushStates o (C.stateIds h) with ⟨s1, i | m | m⟩ <;> rw [hp] at hc <;> simp only at hc ⊢
    · rw [ih]; exact hc
    · exact hc
    · exact hc

/-- **C49.** From any state of a serializer: a handle that is not registered, or a contract type with a vector state, is
rejected with `Err` and the serializer is unchanged; otherwise exactly one contract table is added, and it describes the
contract type.  `finish` writes the contract tables as they are. -/
theorem C49_serialize_rejects (s : Ser) (C : ContractTy) (h : Idx) (ord : HashOrder) :
    ((¬ ∃ cd, s.base.contractData h = .ok cd) →
      (s.serialize C h ord).2.isErr = true ∧ (s.serialize C h ord).1 = s) ∧
    ((∃ f ∈ C.states, ∃ p, f.ty = .vec p) → (s.serialize C h ord).2.isErr = true ∧ (s.serialize C h ord).1 = s) ∧
    ((∃ cd, s.base.contractData h = .ok cd) → (∀ f ∈ C.states, ∃ p, f.ty = .prim p) →
      ∃ t, (s.serialize C h ord).1.contracts = s.contracts ++ [t] ∧ Describes t C) ∧
    ∀ (ordC ordO : IterOrder (Idx × Nat)) (out : FbOut), s.finish ordC ordO = .ok out → out.contracts = s.contracts := by
  refine ⟨?_, ?_, ?_, ?_⟩
  · intro hno
    unfold Ser.serialize
    unfold Baseline.contractData at hno ⊢
    cases hg : s.base.contracts.get h with
    | none => exact ⟨rfl, rfl⟩
    | some cd => exact absurd ⟨cd, by simp [hg]⟩ hno
  · rintro ⟨f, hf, p, hp⟩
    have : Ser.kindsOf C.stateTypes = none :=
      kindsOf_none.2 ⟨p, List.mem_map.2 ⟨f, hf, hp⟩⟩
    unfold Ser.serialize Ser.contractTable Baseline.contractData
    cases hg : s.base.contracts.get h with
    | none => exact ⟨rfl, rfl⟩
    | some cd => simp only [this]; exact ⟨rfl, trivial⟩
  · rintro ⟨cd, hcd⟩ hprim
    obtain ⟨ks, hk⟩ := kindsOf_prim C.stateTypes (by
      intro t ht
      obtain ⟨f, hf, rfl⟩ := List.mem_map.1 ht
      exact hprim f hf)
    unfold Ser.serialize
    rw [hcd]
    cases ht : Ser.contractTable C with
    | err m => simp [Ser.contractTable, hk] at ht
    | panic m => simp [Ser.contractTable, hk] at ht
    | ok t =>
      simp only
      refine ⟨t, ?_, contractTable_describes ht⟩
      split
      · rfl
      · rw [pushObjects_contracts]
  · intro ordC ordO out hout
    unfold Ser.finish at hout
    split at hout
    · cases hout
    · cases hout
    · split at hout
      · cases hout
      · cases hout
      · injection hout with hout; rw [← hout]

/-- Both errors and the success occur on a reachable baseline with objects. -/
example : (((Ser.new graphB).serialize nodeC ⟨7, 0⟩ .id).2.isErr = true) ∧
    (((Ser.new graphB).serialize ⟨⟨"v", 1, 0, 0⟩, [⟨"a", .prim .u8⟩, ⟨"b", .vec .u8⟩], []⟩ h0 .id).2.isErr = true) ∧
    ((Ser.new graphB).serialize nodeC h0 .id).1.contracts = [nodeT] := by decide +kernel

/-! ## C50 -/

theorem holds_slot {b : Baseline} {s : Ser} {cs : List (ContractTy × Idx)} {W : List WObj} {S : List WSlot}
    (hI : SerInv b s cs W S) {p : Nat} {w : WObj} (hw : W[p]? = some w) {n : Nat} {f : Field}
    (hf : w.C.states[n]? = some f) {t : PropType} (ht : f.ty = t) {v : t.Carrier} (hh : Holds b w.h w.o n t v) :
    ∃ x ∈ S, x.prop = DynProp.ofTyped t v := by
  subst ht
  obtain ⟨x, hx, hxo, hxd⟩ := hI.objs.fields p w hw n f hf
  obtain ⟨t1, t2, _⟩ := hI.objs.slots.slots _ x hx
  obtain ⟨j, e1, e2⟩ := hh
  refine ⟨x, List.mem_of_getElem? hx, ?_⟩
  rcases x with ⟨xo, xd, xh, xv⟩
  simp only at hxo hxd t1 t2
  subst hxo hxd
  simp only [hI.base] at t1 t2
  rw [e1] at t1; injection t1 with t1; subst t1
  rw [e2] at t2; injection t2 with t2; subst t2
  rfl

theorem closed_of_resolved {kind : Kind} {evs : List Event} {b : Baseline} {cs : List (ContractTy × Idx)}
    (hP : Storable evs b cs) (hH : History kind evs b) (hnd : (cs.map Prod.snd).Nodup)
    {s : Ser} {W : List WObj} {S : List WSlot} (hI : SerInv b s cs W S) (hr : ∀ x ∈ S, ¬ Unresolved cs W x) :
    Closed b cs := by
  have hD := serInv_distinct hP hH hnd hI
  constructor
  · intro C h o n f v hC ho hf ht hh
    obtain ⟨w, hw, rfl, rfl, rfl⟩ := hD.cover C h o hC ho
    obtain ⟨p, hp⟩ := List.getElem?_of_mem hw
    obtain ⟨x, hx, e⟩ := holds_slot hI hp hf ht hh
    apply Classical.byContradiction
    intro hno
    refine hr x hx (.inl ⟨v, e, fun w' hw' he => hno ?_⟩)
    obtain ⟨l1, l2⟩ := hD.listed w' hw'
    exact ⟨w'.C, w'.h, l1, by rw [← he]; exact l2⟩
  · intro C h o n f v hC ho hf ht hh
    obtain ⟨w, hw, rfl, rfl, rfl⟩ := hD.cover C h o hC ho
    obtain ⟨p, hp⟩ := List.getElem?_of_mem hw
    obtain ⟨x, hx, e⟩ := holds_slot hI hp hf ht hh
    apply Classical.byContradiction
    intro hno
    exact hr x hx (.inr ⟨v, e, fun C' hm => hno ⟨C', hm⟩⟩)

/-- **C50, partial.** After different contracts that the format can carry were serialized, `finish` succeeds exactly when
no state refers outside of what was serialized; otherwise it panics.  It never returns an error: the full claim, that it
always returns normally, is false (`C50_negation`). -/
theorem C50_finish_iff_closed_partial {kind : Kind} {evs : List Event} {b : Baseline} (hH : History kind evs b)
    {cs : List (ContractTy × Idx)} (hP : Serializable evs b cs) (hnd : (cs.map Prod.snd).Nodup)
    (calls : List (ContractTy × Idx × HashOrder)) (hcalls : calls.map (fun c => (c.1, c.2.1)) = cs)
    (ordC ordO : IterOrder (Idx × Nat)) :
    ∃ s, (Ser.new b).serializeAll calls = (s, .ok ()) ∧
      (Closed b cs → (s.finish ordC ordO).isOk = true) ∧ (¬ Closed b cs → (s.finish ordC ordO).isPanic = true) := by
  have hP := hP.storable
  obtain ⟨s, hs⟩ := serializeAll_succeeds hP hH calls (by
    intro c hc; rw [← hcalls]; exact List.mem_map.2 ⟨c, hc, rfl⟩) (serInv_new b) (by
    have := hP.few; rw [← hcalls] at this; simpa using this)
  obtain ⟨W, S, hI⟩ := serializeAll_ok (serInv_new b) hs
  rw [List.nil_append, hcalls] at hI
  refine ⟨s, hs, ?_, ?_⟩
  · intro hcl
    rcases ser_finish_spec hI ordC ordO with ⟨⟨x, hx, hu⟩, _⟩ | ⟨_, out, e, _⟩
    · exact absurd hu (resolved_of_closed hP hH hnd hcl hI x hx)
    · rw [e]; rfl
  · intro hcl
    rcases ser_finish_spec hI ordC ordO with ⟨_, e⟩ | ⟨hr, _⟩
    · exact e
    · exact absurd (closed_of_resolved hP hH hnd hI hr) hcl

/-- **C50 is false as stated**: a reachable baseline and a contract of it that is serialized successfully, but finishing
panics, because a state refers to a contract that was not serialized. -/
theorem C50_negation : ¬ ∀ (kind : Kind) (evs : List Event) (b : Baseline), History kind evs b →
    ∀ (calls : List (ContractTy × Idx × HashOrder)) (s : Ser) (ordC ordO : IterOrder (Idx × Nat)),
      (Ser.new b).serializeAll calls = (s, .ok ()) → (s.finish ordC ordO).isPanic = false := by
  intro hall
  have := hall .main graphEvs graphB graph_history [(tagC, h1, .id)]
    ((Ser.new graphB).serializeAll [(tagC, h1, .id)]).1 .id .id (by
      refine Prod.ext rfl ?_
      decide +kernel)
  revert this
  decide +kernel

/-! ## C51 -/

/-- **C51** fails whenever a handle is involved: if a contract that has an object with a handle state is serialized
twice, then even if everything succeeds the buffer does not decode, whatever else is serialized. -/
theorem C51_repeated_handles_break {b : Baseline} {calls : List (ContractTy × Idx × HashOrder)}
    {i j : Nat} {C : ContractTy} {h o : Idx} {o1 o2 : HashOrder} (hij : i ≠ j) (hi : calls[i]? = some (C, h, o1))
    (hj : calls[j]? = some (C, h, o2)) (ho : o ∈ objectsOf b h) {n : Nat} {f : Field} (hf : C.states[n]? = some f)
    (ht : f.ty = .prim .objectHandle ∨ f.ty = .prim .contractDataHandle) {s : Ser} {out : FbOut}
    {ordC ordO : IterOrder (Idx × Nat)} (hs : (Ser.new b).serializeAll calls = (s, .ok ()))
    (hfin : s.finish ordC ordO = .ok out) : out.decode = none := by
  obtain ⟨W, S, hI⟩ := serializeAll_ok (serInv_new b) hs
  rw [List.nil_append] at hI
  have key : ∀ (k : Nat) (od : HashOrder), calls[k]? = some (C, h, od) → ∃ w ∈ W, w.k = k ∧ w.o = o ∧ w.C = C ∧ w.h = h := by
    intro k od hk
    have hk' : (calls.map fun c => (c.1, c.2.1))[k]? = some (C, h) := by simp [hk]
    obtain ⟨cd, e1, e2⟩ := hI.members k C h hk'
    have ho : o ∈ cd.objects := by unfold objectsOf at ho; rw [contractData_ok.2 e1] at ho; exact ho
    obtain ⟨w, hw, e⟩ := List.mem_map.1 (e2.mem_iff.2 ho)
    obtain ⟨hw, hwk⟩ := List.mem_filter.1 hw
    simp only [decide_eq_true_eq] at hwk
    have := hI.num w hw
    rw [hwk, hk'] at this
    injection this with this; injection this with t1 t2
    exact ⟨w, hw, hwk, e, t1.symm, t2.symm⟩
  obtain ⟨w1, m1, k1, a1, a2, a3⟩ := key i o1 hi
  obtain ⟨w2, m2, k2, b1, b2, b3⟩ := key j o2 hj
  obtain ⟨p1, hp1⟩ := List.getElem?_of_mem m1
  obtain ⟨p2, hp2⟩ := List.getElem?_of_mem m2
  obtain ⟨x1, hx1, xo1, xd1⟩ := hI.objs.fields p1 w1 hp1 n f (by rw [a2]; exact hf)
  obtain ⟨x2, hx2, xo2, xd2⟩ := hI.objs.fields p2 w2 hp2 n f (by rw [b2]; exact hf)
  obtain ⟨t1, _⟩ := hI.objs.slots.slots _ x1 hx1
  obtain ⟨t2, _⟩ := hI.objs.slots.slots _ x2 hx2
  have hhnd : x1.hnd = x2.hnd := by
    rw [xd1, xo1, a1, a3] at t1
    rw [xd2, xo2, b1, b3] at t2
    rw [t1] at t2; injection t2
  have hn := (List.getElem?_eq_some_iff.1 hf).1
  have hne : w1.start + n ≠ w2.start + n := by
    intro e
    have := hI.objs.disjoint p1 p2 n n w1 w2 hp1 hp2 (by rw [a2]; exact hn) (by rw [b2]; exact hn) e
    subst this
    rw [hp1] at hp2; injection hp2 with hp2; subst hp2
    exact hij (k1.symm.trans k2)
  have huniq : ∀ m : BiMap Idx Nat, m.Inv → (x1.hnd, w1.start + n) ∈ m.pairs → (x2.hnd, w2.start + n) ∈ m.pairs → False := by
    intro m hm e1 e2
    obtain ⟨i1, q1⟩ := List.getElem?_of_mem e1
    obtain ⟨i2, q2⟩ := List.getElem?_of_mem e2
    have := (List.getElem?_inj (i := i1) (j := i2) (l := m.pairs.map Prod.fst)
      (by simpa using (List.getElem?_eq_some_iff.1 q1).1) hm.1).1 (by simp [q1, q2, hhnd])
    subst this
    rw [q1] at q2; injection q2 with q2; injection q2 with _ q2
    exact hne q2
  rcases ser_finish_spec hI ordC ordO with ⟨_, e⟩ | ⟨_, out', e, _, _, _, hsl⟩
  · rw [hfin] at e; cases e
  rw [hfin] at e; injection e with e; subst e
  have hnone : none ∈ out.states := by
    rcases hsl _ x1 hx1 with ⟨v1, _, g2, g3, _⟩ | ⟨g1, _⟩
    · rcases hsl _ x2 hx2 with ⟨v2, _, g5, g6, _⟩ | ⟨g4, _⟩
      · exfalso
        rcases ht with ht | ht
        · exact huniq _ hI.objs.slots.obj.inv (g2 (by rw [xd1]; exact ht)) (g5 (by rw [xd2]; exact ht))
        · exact huniq _ hI.objs.slots.con.inv (g3 (by rw [xd1]; exact ht)) (g6 (by rw [xd2]; exact ht))
      · exact List.mem_of_getElem? g4
    · exact List.mem_of_getElem? g1
  unfold FbOut.decode
  rw [filled_none hnone]; rfl

/-- **C51 is false as stated**: on a reachable baseline all calls of a serializer succeed, but as a contract was
serialized twice the buffer does not decode. -/
theorem C51_negation : ¬ ∀ (kind : Kind) (evs : List Event) (b : Baseline), History kind evs b →
    ∀ (calls : List (ContractTy × Idx × HashOrder)) (s : Ser) (out : FbOut) (ordC ordO : IterOrder (Idx × Nat)),
      (Ser.new b).serializeAll calls = (s, .ok ()) → s.finish ordC ordO = .ok out → ∃ buf, out.decode = some buf := by
  intro hall
  have h1 : ((Ser.new graphB).serializeAll [(nodeC, h0, .id), (nodeC, h0, .id)]).2 = .ok () := by decide +kernel
  have h2 : (((Ser.new graphB).serializeAll [(nodeC, h0, .id), (nodeC, h0, .id)]).1.finish .id .id).isOk = true := by
    decide +kernel
  rcases hx : (Ser.new graphB).serializeAll [(nodeC, h0, .id), (nodeC, h0, .id)] with ⟨s, r⟩
  rw [hx] at h1 h2
  simp only at h1 h2
  subst h1
  cases hf : s.finish .id .id with
  | err m => rw [hf] at h2; cases h2
  | panic m => rw [hf] at h2; cases h2
  | ok out =>
    obtain ⟨buf, hb⟩ := hall .main graphEvs graphB graph_history _ s out .id .id hx hf
    rw [C51_repeated_handles_break (i := 0) (j := 1) (n := 1) (o := h0) (by decide) rfl rfl
      (by rw [graph_objects.1]; decide) rfl (.inl rfl) hx hf] at hb
    cases hb

/-! A baseline with two objects whose contract is serialized three times meets the hypotheses. -/

def plainC : ContractTy := ⟨⟨"plain", 1, 2, 3⟩, [⟨"hp", .prim .u8⟩, ⟨"label", .prim .string⟩], []⟩
def plainOps : List BOp :=
  [.register plainC, .create plainC h0 [.primitive (.u8 5), .primitive (.string "a")] [],
   .create plainC h0 [.primitive (.u8 6), .primitive (.string "b")] []]
def plainB : Baseline := ((Baseline.new .fork).runOps plainOps).2
def plainEvs : List Event := ((Baseline.new .fork).runOps plainOps).1

theorem plain_events : plainEvs = [(.register plainC, .ok (some h0)),
    (.create plainC h0 [.primitive (.u8 5), .primitive (.string "a")] [], .ok (some h0)),
    (.create plainC h0 [.primitive (.u8 6), .primitive (.string "b")] [], .ok (some h1))] := by rfl

theorem plain_serializable : Serializable plainEvs plainB [(plainC, h0), (plainC, h0), (plainC, h0)] := by
  have hcs : ∀ (C : ContractTy) (h : Idx), (C, h) ∈ [(plainC, h0), (plainC, h0), (plainC, h0)] → C = plainC ∧ h = h0 := by
    intro C h hm; simpa using hm
  refine ⟨?_, ?_, ?_, ?_, by decide⟩
  · intro C h hm
    obtain ⟨rfl, rfl⟩ := hcs C h hm
    exact ⟨⟨plainC.id, [h1, h0]⟩, by decide +kernel, rfl⟩
  · rintro C C' h o hm ⟨ss, cs, hc⟩
    obtain ⟨rfl, rfl⟩ := hcs C h hm
    rw [plain_events] at hc
    simp [h0] at hc; grind
  · intro C h o hm ho
    obtain ⟨rfl, rfl⟩ := hcs C h hm
    rw [show objectsOf plainB h0 = [h1, h0] from by decide +kernel] at ho
    have : o = h1 ∨ o = h0 := by simpa using ho
    rcases this with rfl | rfl
    · exact ⟨_, rfl⟩
    · exact ⟨_, rfl⟩
  · intro C h f hm hf
    obtain ⟨rfl, rfl⟩ := hcs C h hm
    simp [plainC] at hf; rcases hf with rfl | rfl <;> exact ⟨_, rfl⟩

end Verif.Props
