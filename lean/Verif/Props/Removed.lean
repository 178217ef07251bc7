import Verif.Props.SerializeErr
import Verif.Proofs.SerRemoved
/-!
# C103, C104: saving after objects were removed

`object_remove` leaves the removed handle in its contract's object set (C17), and `serialize` goes through that set.
-/
namespace Verif.Props
open Verif Spec Arena Baseline Store

/-! ## C103 -/

/-- Claim C103: a registered contract whose states the format can carry, and whose objects were all created with its
contract type, can be serialized, whatever objects were removed before. -/
def SavesRegardless : Prop :=
  ∀ (kind : Kind) (evs : List Event) (b : Baseline), History kind evs b → ∀ (C : ContractTy) (h : Idx),
    (∃ cd, b.contractData h = .ok cd ∧ cd.id = C.id) → (∀ (C' : ContractTy) (o : Idx), CreatedAs evs C' h o → C' = C) →
    (∀ f ∈ C.states, ∃ p, f.ty = .prim p) → ∀ ord : HashOrder, ((Ser.new b).serialize C h ord).2.isOk = true

/-- All states of a live listed object can be read, if the objects were created with the contract's type. -/
theorem live_writable {kind : Kind} {evs : List Event} {b : Baseline} (hist : History kind evs b)
    {C : ContractTy} {h : Idx} {cd : ContractData} (hreg : b.contractData h = .ok cd)
    (typed : ∀ (C' : ContractTy) (o : Idx), CreatedAs evs C' h o → C' = C)
    (prim : ∀ f ∈ C.states, ∃ p, f.ty = .prim p) {o : Idx} (ho : o ∈ cd.objects) (hl : ∃ ob, b.object o = .ok ob)
    (d : DynId) (hd : d ∈ C.stateIds h) : Writable b o d := by
  have hB := history_binv hist
  obtain ⟨ob, h1⟩ := hl
  have h1 := object_ok.1 h1
  rcases hB.c.listed h o cd (contractData_ok.1 hreg) ho with ⟨ob', e1, e2⟩ | hdead
  · rw [h1] at e1; injection e1 with e1; subst e1
    obtain ⟨C', hc⟩ := hB.o.origin o ob h1
    rw [e2] at hc
    have := typed C' o hc
    subst this
    rcases hB.o.created C' h o hc with ⟨ob', g1, g2, g3, _⟩ | hdead
    · rw [h1] at g1; injection g1 with g1; subst g1
      obtain ⟨n, f, hf, rfl⟩ := mem_stateIds hd
      have hty : C'.stateTypes[n]? = some f.ty := by simp [ContractTy.stateTypes, hf]
      have hlen : n < ob.states.length := by
        rw [g3.1]; exact (List.getElem?_eq_some_iff.1 hty).1
      obtain ⟨v, hv⟩ := g3.2 n f.ty _ hty (List.getElem?_eq_getElem hlen)
      obtain ⟨sl, hsl⟩ := encode_prim v (prim f (List.mem_of_getElem? hf))
      refine ⟨ob.states[n], v, sl, ?_, state_ok.2 hv, hsl⟩
      rw [bindState_of_get h1]
      exact bindIdx_ok.2 ⟨g2.symm, List.getElem?_eq_getElem hlen⟩
    · rw [hdead.1] at h1; cases h1
  · rw [hdead.1] at h1; cases h1

/-- **C103, partial.** In every reachable baseline and from every state of a serializer over it (short of the 2^16
contracts it can count): a registered contract that the format can carry is serialized successfully exactly if all
objects its set lists are alive, or if it has no states at all; otherwise the call returns an error, and it never panics. -/
theorem C103_serialize_iff_partial {kind : Kind} {evs : List Event} {b : Baseline} (hist : History kind evs b)
    {C : ContractTy} {h : Idx} {cd : ContractData} (hreg : b.contractData h = .ok cd)
    (typed : ∀ (C' : ContractTy) (o : Idx), CreatedAs evs C' h o → C' = C)
    (prim : ∀ f ∈ C.states, ∃ p, f.ty = .prim p) (s : Ser) (hs : s.base = b)
    (room : (s.contracts.length + 1) % 65536 ≠ 0) (ord : HashOrder) :
    ((s.serialize C h ord).2.isOk = true ↔ C.states = [] ∨ ∀ o ∈ cd.objects, ∃ ob, b.object o = .ok ob) ∧
    (s.serialize C h ord).2.isPanic = false := by
  subst hs
  have hob : objectsOf s.base h = cd.objects := by unfold objectsOf; rw [hreg]
  have hw : (∀ o ∈ cd.objects, ∀ d ∈ C.stateIds h, Writable s.base o d) ↔
      C.states = [] ∨ ∀ o ∈ cd.objects, ∃ ob, s.base.object o = .ok ob := by
    constructor
    · intro hw
      by_cases hne : C.states = []
      · exact .inl hne
      · refine .inr fun o ho => ?_
        cases hg : s.base.objects.get o with
        | some ob => exact ⟨ob, object_ok.2 hg⟩
        | none =>
          have hpos : 0 < C.states.length := by
            rcases hx : C.states with _ | ⟨f, fs⟩
            · exact absurd hx hne
            · simp
          have hd := stateIds_get (h := h) (List.getElem?_eq_getElem hpos)
          exact absurd (hw o ho _ (List.mem_of_getElem? hd)) (not_writable_dead hg _)
    · rintro (he | hl) o ho d hd
      · obtain ⟨n, f, hf, _⟩ := mem_stateIds hd
        rw [he] at hf; cases hf
      · exact live_writable hist hreg typed prim ho (hl o ho) d hd
  rcases serialize_cases hreg prim room ord with ⟨⟨s', e⟩, hall⟩ | ⟨⟨s', m, e⟩, hno⟩
  · rw [e]
    exact ⟨⟨fun _ => hw.1 hall, fun _ => rfl⟩, rfl⟩
  · rw [e]
    exact ⟨⟨fun hf => (by cases hf), fun hx => absurd (hw.2 hx) hno⟩, rfl⟩

/-- **C103, partial: for good.** Once an object was created through the handle `h` and removed, every call that serializes
`h` with a contract type that has a state returns an error, at every later point of the history, in every hash order and
from every state of a serializer (short of its 2^16 contracts), as long as nobody calls `unregister_contract` on `h`. -/
theorem C103_stuck_partial {kind : Kind} {evs : List Event} {b : Baseline} (hist : History kind evs b)
    {C : ContractTy} {h o : Idx} (made : CreatedAs evs C h o) (gone : (b.object o).isErr = true)
    (kept : ∀ (D : ContractTy) (ord : HashOrder) (r : BOut), (BOp.unregister D h ord, r) ∉ evs)
    (D : ContractTy) (hne : D.states ≠ []) (s : Ser) (hs : s.base = b) (room : (s.contracts.length + 1) % 65536 ≠ 0)
    (ord : HashOrder) : (s.serialize D h ord).2.isErr = true := by
  subst hs
  have hl : o ∈ objectsOf s.base h := trace_listed (new_binv kind) hist kept (.inr ⟨C, made⟩)
  by_cases hp : ∃ f ∈ D.states, ∃ p, f.ty = .vec p
  · exact ((C49_serialize_rejects s D h ord).2.1 hp).1
  · have prim : ∀ f ∈ D.states, ∃ p, f.ty = .prim p := by
      intro f hf
      cases ht : f.ty with
      | prim p => exact ⟨p, rfl⟩
      | vec p => exact absurd ⟨f, hf, p, ht⟩ hp
    unfold objectsOf at hl
    cases hc : s.base.contractData h with
    | err m => rw [hc] at hl; cases hl
    | panic m => rw [hc] at hl; cases hl
    | ok cd =>
      rw [hc] at hl
      rcases serialize_cases hc prim room ord with ⟨_, hall⟩ | ⟨⟨s', m, e⟩, _⟩
      · have hpos : 0 < D.states.length := by
          rcases hx : D.states with _ | ⟨f, fs⟩
          · exact absurd hx hne
          · simp
        have hd := stateIds_get (h := h) (List.getElem?_eq_getElem hpos)
        exact absurd (hall o hl _ (List.mem_of_getElem? hd)) (not_writable_dead (object_err.1 gone) _)
      · rw [e]; rfl

/-! Two objects, the first removed: the second, alive, can no longer be saved. -/

def cutOps : List BOp := plainOps ++ [.remove plainC h0]
def cutB : Baseline := ((Baseline.new .fork).runOps cutOps).2
def cutEvs : List Event := ((Baseline.new .fork).runOps cutOps).1

theorem cut_events : cutEvs = [(.register plainC, .ok (some h0)),
    (.create plainC h0 [.primitive (.u8 5), .primitive (.string "a")] [], .ok (some h0)),
    (.create plainC h0 [.primitive (.u8 6), .primitive (.string "b")] [], .ok (some h1)),
    (.remove plainC h0, .err "the given ObjectHandle doesn't exist in the arena")] := by rfl

theorem cut_made : CreatedAs cutEvs plainC h0 h0 := by
  rw [cut_events]
  exact ⟨[.primitive (.u8 5), .primitive (.string "a")], [], by simp⟩

theorem cut_kept (D : ContractTy) (ord : HashOrder) (r : BOut) : (BOp.unregister D h0 ord, r) ∉ cutEvs := by
  rw [cut_events]; simp

theorem cut_typed (C' : ContractTy) (o : Idx) (hc : CreatedAs cutEvs C' h0 o) : C' = plainC := by
  obtain ⟨ss, cs, hm⟩ := hc
  rw [cut_events] at hm
  simp at hm
  grind

theorem cut_stuck (s : Ser) (hs : s.base = cutB) (room : (s.contracts.length + 1) % 65536 ≠ 0) (ord : HashOrder) :
    (s.serialize plainC h0 ord).2.isErr = true ∧ ∃ ob, cutB.object h1 = .ok ob :=
  ⟨C103_stuck_partial (runOps_trace _ _) cut_made (by decide +kernel) cut_kept plainC (by simp [plainC]) s hs room ord,
    _, rfl⟩

/-- **C103 is false of the code**: one removed object keeps its whole contract from being saved. -/
theorem C103_negation : ¬ SavesRegardless := by
  intro hA
  have h1 := hA .fork cutEvs cutB (runOps_trace _ _) plainC h0 ⟨⟨plainC.id, [h1, h0]⟩, by decide +kernel, rfl⟩ cut_typed
    (by intro f hf; simp [plainC] at hf; rcases hf with rfl | rfl <;> exact ⟨_, rfl⟩) .id
  have h2 := (cut_stuck (Ser.new cutB) rfl (by decide) .id).1
  cases hx : ((Ser.new cutB).serialize plainC h0 .id).2 <;> rw [hx] at h1 h2 <;> cases h1 <;> cases h2

/-- The hypotheses of `C103_serialize_iff_partial` hold of a baseline whose objects are all alive, and there the save
succeeds. -/
example (ord : HashOrder) : ((Ser.new plainB).serialize plainC h0 ord).2.isOk = true := by
  refine (C103_serialize_iff_partial (kind := .fork) (evs := plainEvs) (b := plainB) (runOps_trace _ _)
    (cd := ⟨plainC.id, [h1, h0]⟩) (by decide +kernel) ?_ ?_ (Ser.new plainB) rfl (by decide) ord).1.2 (.inr ?_)
  · intro C' o hc
    exact plain_serializable.typed plainC C' h0 o (by simp) hc
  · intro f hf
    exact plain_serializable.primitive plainC h0 f (by simp) hf
  · intro o ho
    exact plain_serializable.present plainC h0 o (by simp) (by
      rw [show objectsOf plainB h0 = [h1, h0] from by decide +kernel]; exact ho)

/-! ## C104 -/

/-- Claim C104 in its plainest case: if no object of the baseline is alive, then what is saved of it and restored has no
objects either. -/
def NothingComesBack : Prop :=
  ∀ (kind : Kind) (evs : List Event) (b : Baseline), History kind evs b → (∀ o : Idx, (b.object o).isErr = true) →
    ∀ (C : ContractTy) (h : Idx) (ord : HashOrder) (s : Ser), (Ser.new b).serialize C h ord = (s, .ok ()) →
    ∀ (ordC ordO : IterOrder (Idx × Nat)) (out : FbOut) (buf : FbBaseline), s.finish ordC ordO = .ok out →
    out.decode = some buf → ∀ (kind' : Kind) (sched : IterOrder (ContractTy × Idx)) (iord : IterOrder (Nat × Idx))
      (hord : HashOrder) (cs' : List (ContractTy × Idx)) (b' : Baseline),
    restore buf kind' [C] sched iord hord = .ok (cs', b') → ∀ o' : Idx, (b'.object o').isErr = true

theorem saved_alive {b : Baseline} {cs : List (ContractTy × Idx)} {s : Ser} {W : List WObj} {S : List WSlot}
    (hI : SerInv b s cs W S) {C : ContractTy} {h o : Idx} (hC : (C, h) ∈ cs) (hne : C.states ≠ [])
    (ho : o ∈ objectsOf b h) : ∃ ob, b.object o = .ok ob := by
  obtain ⟨k, hk⟩ := List.getElem?_of_mem hC
  obtain ⟨cd, e2, e3⟩ := hI.members k C h hk
  have ho : o ∈ cd.objects := by unfold objectsOf at ho; rw [contractData_ok.2 e2] at ho; exact ho
  obtain ⟨w, hw, rfl⟩ := List.mem_map.1 (e3.mem_iff.2 ho)
  obtain ⟨hw, hwk⟩ := List.mem_filter.1 hw
  simp only [decide_eq_true_eq] at hwk
  have := hI.num w hw
  rw [hwk, hk] at this
  injection this with this; injection this with t1 t2
  obtain ⟨p, hp⟩ := List.getElem?_of_mem hw
  rw [t1] at hne
  have hpos : 0 < w.C.states.length := by
    rcases hx : w.C.states with _ | ⟨f, fs⟩
    · exact absurd hx hne
    · simp
  obtain ⟨x, hx, hxo, _⟩ := hI.objs.fields p w hp 0 _ (List.getElem?_eq_getElem hpos)
  obtain ⟨r1, _⟩ := hI.objs.slots.slots _ x hx
  rw [hI.base, hxo] at r1
  unfold Baseline.bindState at r1
  cases hg : b.objects.get w.o with
  | none => rw [hg] at r1; cases r1
  | some ob => exact ⟨ob, object_ok.2 hg⟩

/-- **C104, partial.** If contracts that all have at least one state were serialized successfully, then every object they
list is alive: nothing removed is in the buffer.  So, under the conditions of C48, what `finish` writes restores to a
baseline each of whose objects corresponds to an object that was alive. -/
theorem C104_only_live_saved_partial {kind : Kind} {evs : List Event} {b : Baseline} (hist : History kind evs b)
    {cs : List (ContractTy × Idx)} (hne : ∀ e ∈ cs, e.1.states ≠ [])
    (calls : List (ContractTy × Idx × HashOrder)) (hcalls : calls.map (fun c => (c.1, c.2.1)) = cs) (s : Ser)
    (saved : (Ser.new b).serializeAll calls = (s, .ok ())) :
    (∀ (C : ContractTy) (h o : Idx), (C, h) ∈ cs → o ∈ objectsOf b h → ∃ ob, b.object o = .ok ob) ∧
    ((∀ (C C' : ContractTy) (h o : Idx), (C, h) ∈ cs → CreatedAs evs C' h o → C' = C) →
      (∀ (C : ContractTy) (h : Idx) (cd : ContractData), (C, h) ∈ cs → b.contractData h = .ok cd → cd.id = C.id) →
      cs.length ≤ 65535 → Closed b cs → (cs.map Prod.snd).Nodup →
      (∀ e ∈ cs, e.1.id ≠ ⟨"teleportal.serialize.NullContract", (0, 0, 0)⟩) → NoChannelObjects b cs →
      objectCount b cs ≤ 2 ^ 32 → stateCount b cs ≤ 2 ^ 32 → savedTables b cs ≤ 1000000 →
      ∀ ordC ordO : IterOrder (Idx × Nat), ∃ (out : FbOut) (buf : FbBaseline), s.finish ordC ordO = .ok out ∧
        out.decode = some buf ∧
        ∀ (kind' : Kind) (sched : IterOrder (ContractTy × Idx)) (ord : IterOrder (Nat × Idx)) (hord : HashOrder),
          ∃ (cs' : List (ContractTy × Idx)) (b' : Baseline) (φ ψ : Idx → Idx),
            restore buf kind' (cs.map Prod.fst) sched ord hord = .ok (cs', b') ∧ SameContents b cs b' cs' φ ψ ∧
            ∀ (o' : Idx) (ob' : ObjectD), b'.object o' = .ok ob' →
              ∃ (o : Idx) (ob : ObjectD), b.object o = .ok ob ∧ φ o = o') := by
  obtain ⟨W, S, hI⟩ := serializeAll_ok (serInv_new b) saved
  rw [List.nil_append, hcalls] at hI
  have hl : ∀ (C : ContractTy) (h o : Idx), (C, h) ∈ cs → o ∈ objectsOf b h → ∃ ob, b.object o = .ok ob :=
    fun C h o hC ho => saved_alive hI hC (hne _ hC) ho
  refine ⟨hl, ?_⟩
  intro typed hid few hcl hnd hnull hch hobj hst hsz ordC ordO
  have hP : Serializable evs b cs := by
    refine ⟨?_, typed, hl, ?_, few⟩
    · intro C h hC
      obtain ⟨k, hk⟩ := List.getElem?_of_mem hC
      obtain ⟨cd, e2, _⟩ := hI.members k C h hk
      exact ⟨cd, contractData_ok.2 e2, hid C h cd hC (contractData_ok.2 e2)⟩
    · intro C h f hC hf
      cases ht : f.ty with
      | prim p => exact ⟨p, rfl⟩
      | vec p =>
        have hk : Ser.kindsOf C.stateTypes = none := kindsOf_none.2 ⟨p, List.mem_map.2 ⟨f, hf, ht⟩⟩
        have hm : Ser.contractTable C ∈ s.contracts.map Outcome.ok := by
          rw [← hI.tables]; exact List.mem_map.2 ⟨_, hC, rfl⟩
        obtain ⟨t, _, ht⟩ := List.mem_map.1 hm
        unfold Ser.contractTable at ht
        rw [hk] at ht; cases ht
  obtain ⟨s', out, buf, e1, e2, e3, e4⟩ := C48_round_trip hist hP hcl hnd hnull hch hobj hst calls hcalls ordC ordO
  rw [saved] at e1
  injection e1 with e1 _
  subst e1
  refine ⟨out, buf, e2, e3, fun kind' sched ord hord => ?_⟩
  obtain ⟨cs', b', φ, ψ, r1, r2⟩ := e4 hsz _ (List.Perm.refl _) kind' sched ord hord
  refine ⟨cs', b', φ, ψ, r1, r2, fun o' ob' ho' => ?_⟩
  obtain ⟨C, h, o, m, l, e⟩ := r2.objOnto o' ob' ho'
  obtain ⟨ob, ha⟩ := hl C h o m l
  exact ⟨o, ob, ha, e⟩

/-- The hypotheses hold of a baseline with two objects: the save succeeds, so both are alive. -/
example (ord : HashOrder) : (∃ s, (Ser.new plainB).serializeAll [(plainC, h0, ord)] = (s, .ok ())) ∧
    ∀ o ∈ objectsOf plainB h0, ∃ ob, plainB.object o = .ok ob := by
  have hP : Storable plainEvs plainB [(plainC, h0)] := by
    have h := plain_serializable.storable
    refine ⟨fun C h' m => h.registered C h' (by simp at m; simp [m]), fun C C' h' o m => h.typed C C' h' o (by simp at m; simp [m]),
      fun C h' o m => h.present C h' o (by simp at m; simp [m]), fun C h' f m => h.primitive C h' f (by simp at m; simp [m]), by decide⟩
  obtain ⟨s, hs⟩ := serializeAll_succeeds hP (kind := .fork) (runOps_trace _ _) [(plainC, h0, ord)] (by simp)
    (serInv_new plainB) (by simp)
  exact ⟨⟨s, hs⟩, fun o ho => (C104_only_live_saved_partial (kind := .fork) (runOps_trace _ plainOps) (by simp [plainC])
    [(plainC, h0, ord)] rfl s hs).1 plainC h0 o (by simp) ho⟩

/-- **C104, partial: what comes back.** Contracts without states are saved with every object they list, removed or not:
saving and restoring succeed, and the restored baseline has one live object for each handle listed at the time of the
save, dead or alive. -/
theorem C104_ghosts_partial {kind : Kind} {evs : List Event} {b : Baseline} (hH : History kind evs b)
    {cs : List (ContractTy × Idx)} (hP : Storable evs b cs) (hcl : Closed b cs) (hnd : (cs.map Prod.snd).Nodup)
    (hnull : ∀ e ∈ cs, e.1.id ≠ ⟨"teleportal.serialize.NullContract", (0, 0, 0)⟩)
    (hch : NoChannelObjects b cs) (hobj : objectCount b cs ≤ 2 ^ 32) (hst : stateCount b cs ≤ 2 ^ 32)
    (calls : List (ContractTy × Idx × HashOrder)) (hcalls : calls.map (fun c => (c.1, c.2.1)) = cs)
    (ordC ordO : IterOrder (Idx × Nat)) (hsz : savedTables b cs ≤ 1000000) :
    ∃ (s : Ser) (out : FbOut) (buf : FbBaseline), (Ser.new b).serializeAll calls = (s, .ok ()) ∧
      s.finish ordC ordO = .ok out ∧ out.decode = some buf ∧
      ∀ (kind' : Kind) (sched : IterOrder (ContractTy × Idx)) (ord : IterOrder (Nat × Idx)) (hord : HashOrder),
        ∃ (cs' : List (ContractTy × Idx)) (b' : Baseline) (φ ψ : Idx → Idx),
          restore buf kind' (cs.map Prod.fst) sched ord hord = .ok (cs', b') ∧ SameContents b cs b' cs' φ ψ ∧
          (∀ (C : ContractTy) (h o : Idx), (C, h) ∈ cs → o ∈ objectsOf b h → ∃ ob', b'.object (φ o) = .ok ob') ∧
          (∀ (C1 C2 : ContractTy) (h1 h2 o1 o2 : Idx), (C1, h1) ∈ cs → (C2, h2) ∈ cs → o1 ∈ objectsOf b h1 →
            o2 ∈ objectsOf b h2 → φ o1 = φ o2 → o1 = o2) := by
  obtain ⟨s, out, buf, e1, e2, e3, e4⟩ := storable_round_trip hH hP hcl hnd hnull hch hobj hst calls hcalls ordC ordO
  refine ⟨s, out, buf, e1, e2, e3, fun kind' sched ord hord => ?_⟩
  obtain ⟨cs', b', φ, ψ, r1, r2⟩ := e4 hsz _ (List.Perm.refl _) kind' sched ord hord
  refine ⟨cs', b', φ, ψ, r1, r2, fun C h o m l => ?_, r2.objInj⟩
  obtain ⟨ob', g, _⟩ := r2.object C h o m l
  exact ⟨ob', g⟩

/-! A contract without states, its only object removed: no object is alive, one comes back. -/

def ghostC : ContractTy := ⟨⟨"ghost", 1, 0, 0⟩, [], []⟩
def ghostOps : List BOp := [.register ghostC, .create ghostC h0 [] [], .remove ghostC h0]
def ghostB : Baseline := ((Baseline.new .main).runOps ghostOps).2
def ghostEvs : List Event := ((Baseline.new .main).runOps ghostOps).1

theorem ghost_events : ghostEvs = [(.register ghostC, .ok (some h0)), (.create ghostC h0 [] [], .ok (some h0)),
    (.remove ghostC h0, .ok none)] := by rfl

theorem ghost_history : History .main ghostEvs ghostB := runOps_trace _ _

theorem ghost_listed : objectsOf ghostB h0 = [h0] := by decide +kernel

theorem ghost_storable : Storable ghostEvs ghostB [(ghostC, h0)] := by
  have hcs : ∀ (C : ContractTy) (h : Idx), (C, h) ∈ [(ghostC, h0)] → C = ghostC ∧ h = h0 := by
    intro C h hm; simpa using hm
  refine ⟨?_, ?_, ?_, ?_, by decide⟩
  · intro C h hm
    obtain ⟨rfl, rfl⟩ := hcs C h hm
    exact ⟨⟨ghostC.id, [h0]⟩, by decide +kernel, rfl⟩
  · rintro C C' h o hm ⟨ss, cs, hc⟩
    obtain ⟨rfl, rfl⟩ := hcs C h hm
    rw [ghost_events] at hc
    simp at hc; exact hc.1.1
  · intro C h o hm hne
    obtain ⟨rfl, rfl⟩ := hcs C h hm
    exact absurd rfl hne
  · intro C h f hm hf
    obtain ⟨rfl, rfl⟩ := hcs C h hm
    cases hf

theorem ghost_closed : Closed ghostB [(ghostC, h0)] := by
  constructor
  · intro C h o n f v hm _ hf
    have : C = ghostC ∧ h = h0 := by simpa using hm
    rw [this.1] at hf; cases hf
  · intro C h o n f v hm _ hf
    have : C = ghostC ∧ h = h0 := by simpa using hm
    rw [this.1] at hf; cases hf

theorem ghost_dead (o : Idx) : (ghostB.object o).isErr = true := by
  rw [object_err]
  show ((Arena.get _) o) = none
  have : ghostB.objects = ⟨[.free (some 1), .free (some 2), .free (some 3), .free none], 1, some 0, 0⟩ := by rfl
  rw [this]
  rcases o with ⟨i, g⟩
  rcases i with _ | _ | _ | _ | i <;> rfl

/-- **C104 is false of the code**: an object that was removed is alive after the save and the restore. -/
theorem C104_negation : ¬ NothingComesBack := by
  intro hA
  obtain ⟨s, out, buf, e1, e2, e3, e4⟩ := C104_ghosts_partial ghost_history ghost_storable ghost_closed
    (by decide) (by decide) (.of_none (by decide)) (by decide +kernel) (by decide +kernel) [(ghostC, h0, .id)] rfl .id .id
    (by decide +kernel)
  obtain ⟨cs', b', φ, ψ, r1, _, r3, _⟩ := e4 .main .id .id .id
  obtain ⟨ob', ho'⟩ := r3 ghostC h0 h0 (by simp) (by rw [ghost_listed]; simp)
  have hs : (Ser.new ghostB).serialize ghostC h0 .id = (s, .ok ()) := by
    unfold Ser.serializeAll at e1
    split at e1
    · rename_i s1 hx
      unfold Ser.serializeAll at e1
      rw [hx]; exact e1
    · injection e1 with _ e1; cases e1
    · injection e1 with _ e1; cases e1
  have := hA .main ghostEvs ghostB ghost_history ghost_dead ghostC h0 .id s hs .id .id out buf e2 e3 .main .id .id
    .id cs' b' r1 (φ h0)
  rw [ho'] at this; cases this

end Verif.Props
