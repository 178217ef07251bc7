import Verif.Props.RepoTests
import Verif.Props.CycleIff
/-!
# C120: the repository's round-trip test, for every input

`RoundTripTest.test` (Props/RepoTests.lean) is client/serialize/rust/tests/round_trip.rs as a program on the model.  The
repository runs it on ten records; here it is proved what it does on every list of records.
-/
namespace Verif.Props
open Verif Spec Arena Baseline Store
namespace RoundTripTest

/-- The objects `m` with their records can be read from `b`, and refer to an object of the contract `e`. -/
structure Reads (b : Baseline) (e c : Idx) (m : List (Idx × Fields)) : Prop where
  cd : ∃ cd, b.contractData c = .ok cd ∧ cd.id = Example.C.id ∧ cd.objects.Perm (m.map Prod.fst)
  ce : ∃ cd, b.contractData e = .ok cd ∧ cd.id = EmptyC.id ∧ cd.objects.length = 1
  objs : ∀ (o : Idx) (f : Fields), (o, f) ∈ m → ∃ eo, (∃ ob, b.object eo = .ok ob ∧ ob.contract = e) ∧
    ∀ (i : Nat) (d : DynProp), (f.states eo e)[i]? = some d → Holds b c o i d.typed.1 d.typed.2

theorem readField_of {b : Baseline} {c o : Idx} {i : Nat} {p : PrimType} {v : p.Carrier} {d : Option DynId}
    (hd : d = some (DynId.new c i (.prim p))) (h : Holds b c o i (.prim p) v) : readField b o p d = some v := by
  obtain ⟨j, h1, h2⟩ := h
  subst hd
  have h1 : b.bindState (DynId.new c i (.prim p)).id o = .ok j := h1
  unfold readField
  simp only [h1, h2]

theorem reads_fields {b : Baseline} {c o eo e : Idx} {f : Fields}
    (h : ∀ (i : Nat) (d : DynProp), (f.states eo e)[i]? = some d → Holds b c o i d.typed.1 d.typed.2) :
    readFields b c o = some f ∧ readField b o .contractDataHandle (Example.ch_0 c) = some e ∧
      readField b o .objectHandle (Example.oh_0 c) = some eo := by
  have h0 := h 0 _ rfl
  have h1 := h 1 _ rfl
  have h2 := h 2 _ rfl
  have h3 := h 3 _ rfl
  have h4 := h 4 _ rfl
  have h5 := h 5 _ rfl
  have h6 := h 6 _ rfl
  have h7 := h 7 _ rfl
  have h8 := h 8 _ rfl
  refine ⟨?_, readField_of (i := 8) rfl h8, readField_of (i := 7) rfl h7⟩
  have k0 : readField b o .u8 (Example.u8_0 c) = some f.u8_0 := readField_of (i := 0) rfl h0
  have k1 : readField b o .u8 (Example.u8_1 c) = some f.u8_1 := readField_of (i := 1) rfl h1
  have k2 : readField b o .i8 (Example.i8_0 c) = some f.i8_0 := readField_of (i := 2) rfl h2
  have k3 : readField b o .i8 (Example.i8_1 c) = some f.i8_1 := readField_of (i := 3) rfl h3
  have k4 : readField b o .f32 (Example.f32_0 c) = some f.f32_0 := readField_of (i := 4) rfl h4
  have k5 : readField b o .f32 (Example.f32_1 c) = some f.f32_1 := readField_of (i := 5) rfl h5
  have k6 : readField b o .string (Example.str_0 c) = some f.str_0 := readField_of (i := 6) rfl h6
  unfold readFields
  rw [k0, k1, k2, k3, k4, k5, k6]
  rfl

/-- `eq` is equality of `key` between the records `rs` that are read and the records `fs` that are looked for. -/
def EqIs {K : Type} (eq : Fields → Fields → Bool) (key : Fields → K) (rs fs : List Fields) : Prop :=
  ∀ f ∈ rs, ∀ g ∈ fs, eq g f = true ↔ key g = key f

theorem eraseP_map {K : Type} [DecidableEq K] {eq : Fields → Fields → Bool} {key : Fields → K} {f : Fields}
    (l : List Fields) (h : ∀ g ∈ l, eq g f = true ↔ key g = key f) :
    (l.eraseP fun g => eq g f).map key = (l.map key).erase (key f) := by
  induction l with
  | nil => rfl
  | cons g l ih =>
    have ih := ih fun x hx => h x (List.mem_cons_of_mem _ hx)
    by_cases e : key g = key f
    · rw [List.eraseP_cons_of_pos (p := fun g => eq g f) ((h g List.mem_cons_self).2 e), List.map_cons, e, List.erase_cons_head]
    · have hne : ¬ eq g f = true := fun x => e ((h g List.mem_cons_self).1 x)
      rw [List.eraseP_cons_of_neg (p := fun g => eq g f) hne, List.map_cons, List.map_cons, ih, List.erase_cons_tail (by simpa using e)]

theorem check_objects {K : Type} [DecidableEq K] {eq : Fields → Fields → Bool} {key : Fields → K} {rs fs : List Fields}
    (heq : EqIs eq key rs fs) {b : Baseline} {e c : Idx} (os : List Idx) : ∀ {m : List (Idx × Fields)} {left : List Fields},
    (∃ cd, b.contractData e = .ok cd ∧ cd.id = EmptyC.id ∧ cd.objects.length = 1) →
    (∀ (o : Idx) (f : Fields), (o, f) ∈ m → ∃ eo, (∃ ob, b.object eo = .ok ob ∧ ob.contract = e) ∧
      ∀ (i : Nat) (d : DynProp), (f.states eo e)[i]? = some d → Holds b c o i d.typed.1 d.typed.2) →
    (∀ (o : Idx) (f : Fields), (o, f) ∈ m → f ∈ rs) → (∀ f ∈ left, f ∈ fs) →
    os.Perm (m.map Prod.fst) → (left.map key).Perm (m.map fun x => key x.2) → checkObjects eq b e c os left = true := by
  induction os with
  | nil =>
    intro m left _ _ _ _ h1 h2
    have : m = [] := by simpa using h1.symm.eq_nil
    subst this
    have : left = [] := by simpa using h2.eq_nil
    subst this; rfl
  | cons o os ih =>
    intro m left hce hm hmf hlf h1 h2
    obtain ⟨⟨o', f⟩, hof, e1⟩ := List.mem_map.1 (h1.mem_iff.1 (List.mem_cons_self (a := o) (l := os)))
    have e1 : o' = o := e1
    subst e1
    obtain ⟨eo, ⟨ob, ho, hoc⟩, hv⟩ := hm o' f hof
    obtain ⟨r1, r2, r3⟩ := reads_fields hv
    have hff := hmf o' f hof
    have hp := List.perm_cons_erase hof
    have hf : key f ∈ left.map key := h2.mem_iff.2 (List.mem_map.2 ⟨_, hof, rfl⟩)
    have hany : left.any (fun g => eq g f) = true := by
      obtain ⟨g, hg, e1⟩ := List.mem_map.1 hf
      exact List.any_eq_true.2 ⟨g, hg, (heq f hff g (hlf g hg)).2 e1⟩
    obtain ⟨cd, hcd, hid, hlen⟩ := hce
    have hrec : checkObjects eq b e c os (left.eraseP fun g => eq g f) = true :=
      ih (m := m.erase (o', f)) ⟨cd, hcd, hid, hlen⟩ (fun o g hg => hm o g (List.mem_of_mem_erase hg))
        (fun o g hg => hmf o g (List.mem_of_mem_erase hg)) (fun g hg => hlf g (List.mem_of_mem_eraseP hg))
        (by
          have := h1.trans (hp.map Prod.fst)
          exact (List.perm_cons _).1 this)
        (by
          rw [eraseP_map left fun g hg => heq f hff g (hlf g hg)]
          have := ((List.perm_cons_erase hf).symm.trans h2).trans (hp.map fun x => key x.2)
          exact (List.perm_cons _).1 this)
    unfold checkObjects
    rw [r1, r2, r3]
    simp only [hcd, ho, hid, hlen, hoc, hrec, hany]
    rfl

theorem Reads.check {K : Type} [DecidableEq K] {eq : Fields → Fields → Bool} {key : Fields → K} {b : Baseline} {e c : Idx}
    {m : List (Idx × Fields)} {fs : List Fields} (heq : EqIs eq key (m.map Prod.snd) fs) (h : Reads b e c m)
    (hfs : (fs.map key).Perm (m.map fun x => key x.2)) : check eq fs e c b = true := by
  obtain ⟨cd, hcd, hid, hp⟩ := h.cd
  have h2 := check_objects heq cd.objects h.ce h.objs (fun o f hm => List.mem_map.2 ⟨_, hm, rfl⟩)
    (fun f hf => hf) hp hfs
  obtain ⟨ce, hce, hid', hlen⟩ := h.ce
  have hl : cd.objects.length = fs.length := by
    have := hfs.length_eq
    rw [List.length_map, List.length_map] at this
    rw [hp.length_eq, this, List.length_map]
  unfold RoundTripTest.check
  rw [hcd, hce]
  simp [hid, hid', hlen, hl, h2]

/-- A record that equals none, not even itself, is not found. -/
theorem check_objects_stuck {eq : Fields → Fields → Bool} {f : Fields} (heq : ∀ g : Fields, eq g f = false) {b : Baseline}
    {e c o : Idx} (hr : readFields b c o = some f) (os : List Idx) (ho : o ∈ os) (left : List Fields) :
    checkObjects eq b e c os left = false := by
  induction os generalizing left with
  | nil => cases ho
  | cons o' os ih =>
    unfold checkObjects
    split
    · rename_i g ch oh k1 k2 k3
      rcases List.mem_cons.1 ho with rfl | ho
      · rw [hr] at k1; cases k1
        have : left.any (fun g => eq g f) = false := by simp [heq]
        simp [this]
      · simp [ih ho]
    · rfl

theorem Reads.check_stuck {eq : Fields → Fields → Bool} {f : Fields} (heq : ∀ g : Fields, eq g f = false) {b : Baseline}
    {e c : Idx} {m : List (Idx × Fields)} {fs : List Fields} (h : Reads b e c m) (hf : f ∈ m.map Prod.snd) :
    RoundTripTest.check eq fs e c b = false := by
  obtain ⟨⟨o, f'⟩, hof, e1⟩ := List.mem_map.1 hf
  have e1 : f' = f := e1
  subst e1
  obtain ⟨eo, _, hv⟩ := h.objs o f' hof
  obtain ⟨cd, hcd, _, hp⟩ := h.cd
  obtain ⟨ce, hce, _⟩ := h.ce
  have := check_objects_stuck heq (e := e) (reads_fields hv).1 cd.objects (hp.mem_iff.2 (List.mem_map.2 ⟨_, hof, rfl⟩)) fs
  unfold RoundTripTest.check
  rw [hcd, hce]
  simp [this]

/-- What `create_baseline` leaves. -/
structure Made (evs : List Event) (b : Baseline) (e eo c : Idx) (m : List (Idx × Fields)) : Prop where
  hist : History .main evs b
  ne : e ≠ c
  typed : ∀ (C' : ContractTy) (h o : Idx), CreatedAs evs C' h o → (h = e → C' = EmptyC) ∧ (h = c → C' = Example.C)
  cd : ∃ cd, b.contractData c = .ok cd ∧ cd.id = Example.C.id ∧ cd.objects.Perm (m.map Prod.fst)
  ce : b.contractData e = .ok ⟨EmptyC.id, [eo]⟩
  eoIs : ∃ ob, b.object eo = .ok ob ∧ ob.contract = e
  objs : ∀ (o : Idx) (f : Fields), (o, f) ∈ m → (∃ ob, b.object o = .ok ob) ∧
    ∀ (i : Nat) (d : DynProp), (f.states eo e)[i]? = some d → Holds b c o i d.typed.1 d.typed.2

theorem Made.reads {evs : List Event} {b : Baseline} {e eo c : Idx} {m : List (Idx × Fields)} (h : Made evs b e eo c m) :
    Reads b e c m :=
  ⟨h.cd, ⟨_, h.ce, rfl, rfl⟩, fun o f hof => ⟨eo, h.eoIs, (h.objs o f hof).2⟩⟩

theorem states_types (f : Fields) (eo e : Idx) : (f.states eo e).map DynProp.propType = Example.C.states.map Field.ty := rfl

theorem Made.next {evs : List Event} {b : Baseline} {e eo c : Idx} {m : List (Idx × Fields)} (h : Made evs b e eo c m)
    (f : Fields) : ∃ (evs' : List Event) (b' : Baseline) (o : Idx),
      b.objectCreate Example.C c (f.states eo e) [] = (b', .ok o) ∧ Made evs' b' e eo c ((o, f) :: m) := by
  obtain ⟨cd, hcd, hid, hp⟩ := h.cd
  obtain ⟨o, ho⟩ := (C08_create_accepts_exactly b Example.C c (f.states eo e) []).1.2
    ⟨by rw [hcd]; rfl, states_types f eo e, rfl⟩
  obtain ⟨b', hb'⟩ : ∃ b', b.objectCreate Example.C c (f.states eo e) [] = (b', .ok o) := ⟨_, Prod.ext rfl ho⟩
  obtain ⟨⟨ob, hob, _⟩, _, _, hvals, _⟩ := C09_create_reads_back h.hist hb'
  obtain ⟨hfresh, hother, hst, _, hcon, ⟨cd0, cd1, g0, g1, hid1, hnot, hmem⟩, _⟩ := C10_create_frame h.hist hb'
  rw [hcd] at g0; cases g0
  have hstep : b.step (.create Example.C c (f.states eo e) []) = (b', .ok (some o)) := by
    show ((b.objectCreate Example.C c (f.states eo e) []).1, (b.objectCreate Example.C c (f.states eo e) []).2.map some) = _
    rw [hb']; rfl
  have hH : History .main (evs ++ [(.create Example.C c (f.states eo e) [], .ok (some o))]) b' := by
    have := Trace.append h.hist (Trace.cons b (.create Example.C c (f.states eo e) []) _ _ (.nil _))
    rw [hstep] at this; exact this
  have hne : ∀ (o' : Idx) (ob' : ObjectD), b.object o' = .ok ob' → o' ≠ o := by
    intro o' ob' g e'
    rw [e'] at g; rw [g] at hfresh; cases hfresh
  refine ⟨_, b', o, hb', hH, h.ne, ?_, ⟨cd1, g1, hid1.trans hid, ?_⟩, ?_, ?_, ?_⟩
  · rintro C' h' o' ⟨ss', cs', hm'⟩
    rcases List.mem_append.1 hm' with hm' | hm'
    · exact h.typed C' h' o' ⟨ss', cs', hm'⟩
    · simp only [List.mem_singleton, Prod.mk.injEq, BOp.create.injEq] at hm'
      exact ⟨fun e1 => absurd (e1.symm.trans hm'.1.2.1) h.ne, fun _ => hm'.1.1⟩
  · have hn1 : cd1.objects.Nodup := (history_binv hH).c.nodup c cd1 (contractData_ok.1 g1)
    have hn0 : (o :: cd.objects).Nodup :=
      List.nodup_cons.2 ⟨hnot, (history_binv h.hist).c.nodup c cd (contractData_ok.1 hcd)⟩
    have : cd1.objects.Perm (o :: cd.objects) :=
      (List.perm_ext_iff_of_nodup hn1 hn0).2 fun x => by rw [hmem, List.mem_cons]
    exact this.trans (hp.cons o)
  · rw [hcon e h.ne]; exact h.ce
  · obtain ⟨oe, g, gc⟩ := h.eoIs
    exact ⟨oe, by rw [hother _ (hne _ _ g)]; exact g, gc⟩
  · intro o' f' hm'
    rcases List.mem_cons.1 hm' with hm' | hm'
    · cases hm'
      refine ⟨⟨ob, hob⟩, fun i d hd => ?_⟩
      obtain ⟨id, sh, k1, _, k2, k3⟩ := hvals i d hd
      refine ⟨sh, ?_, k3⟩
      have : id.id = ⟨i, c⟩ := by
        unfold ContractTy.stateId at k1
        cases ht : Example.C.stateTypes[i]? with
        | none => rw [ht] at k1; cases k1
        | some t => rw [ht] at k1; cases k1; rfl
      rw [← this]; exact k2
    · obtain ⟨⟨ob', g⟩, hv⟩ := h.objs o' f' hm'
      have e1 := hother o' (hne _ _ g)
      refine ⟨⟨ob', by rw [e1]; exact g⟩, fun i d hd => ?_⟩
      obtain ⟨j, j1, j2⟩ := hv i d hd
      refine ⟨j, ?_, hst _ _ _ j2⟩
      have g0 := object_ok.1 g
      have g1 : b'.objects.get o' = some ob' := object_ok.1 (by rw [e1]; exact g)
      unfold Baseline.bindState at j1 ⊢
      rw [g0] at j1; rw [g1]; exact j1

theorem made_all (fs : List Fields) : ∀ {evs : List Event} {b : Baseline} {e eo c : Idx} {m : List (Idx × Fields)},
    Made evs b e eo c m → ∃ (evs' : List Event) (b' : Baseline) (m' : List (Idx × Fields)),
      createObjects c eo e fs b = some b' ∧ Made evs' b' e eo c m' ∧ (m'.map Prod.snd).Perm (fs ++ m.map Prod.snd) := by
  induction fs with
  | nil => intro evs b e eo c m h; exact ⟨evs, b, m, rfl, h, by simp⟩
  | cons f fs ih =>
    intro evs b e eo c m h
    obtain ⟨evs1, b1, o, h1, h2⟩ := h.next f
    obtain ⟨evs2, b2, m2, k1, k2, k3⟩ := ih h2
    refine ⟨evs2, b2, m2, ?_, k2, k3.trans ?_⟩
    · unfold createObjects; rw [h1]; exact k1
    · simp only [List.map_cons, List.cons_append]
      exact List.perm_middle

/-- The state after `register_contract::<EmptyContract>`, `object_create` and `register_contract::<ExampleContract>`. -/
def startOps : List BOp := [.register EmptyC, .create EmptyC ⟨0, 0⟩ [] [], .register Example.C]
def startB : Baseline := ((Baseline.new .main).runOps startOps).2
def startEvs : List Event := ((Baseline.new .main).runOps startOps).1

theorem start_history : History .main startEvs startB := runOps_trace _ _

theorem start_events : startEvs = [(.register EmptyC, .ok (some ⟨0, 0⟩)), (.create EmptyC ⟨0, 0⟩ [] [], .ok (some ⟨0, 0⟩)),
    (.register Example.C, .ok (some ⟨1, 0⟩))] := by rfl

theorem start_made : Made startEvs startB ⟨0, 0⟩ ⟨0, 0⟩ ⟨1, 0⟩ [] := by
  refine ⟨start_history, by decide, ?_, ⟨⟨Example.C.id, []⟩, rfl, rfl, .refl _⟩, rfl, ⟨_, rfl, rfl⟩, by simp⟩
  rintro C' h o ⟨ss, cs, hm⟩
  rw [start_events] at hm
  simp only [List.mem_cons, Prod.mk.injEq, BOp.create.injEq, List.not_mem_nil, reduceCtorEq, false_and, or_false,
    false_or] at hm
  obtain ⟨⟨e1, e2, _⟩, _⟩ := hm
  exact ⟨fun _ => e1, fun e3 => by rw [e2] at e3; cases e3⟩

theorem createBaseline_made (fs : List Fields) : ∃ (evs : List Event) (b : Baseline) (m : List (Idx × Fields)),
    createBaseline fs = some (⟨0, 0⟩, ⟨1, 0⟩, b) ∧ Made evs b ⟨0, 0⟩ ⟨0, 0⟩ ⟨1, 0⟩ m ∧ fs.Perm (m.map Prod.snd) := by
  obtain ⟨evs, b, m, h1, h2, h3⟩ := made_all fs start_made
  refine ⟨evs, b, m, ?_, h2, ?_⟩
  · have : createBaseline fs = (createObjects ⟨1, 0⟩ ⟨0, 0⟩ ⟨0, 0⟩ fs startB).map fun b => (⟨0, 0⟩, ⟨1, 0⟩, b) := rfl
    rw [this, h1]; rfl
  · simpa using h3.symm

theorem two {C : ContractTy} {h e c : Idx} (hm : (C, h) ∈ [(Example.C, c), (EmptyC, e)]) :
    (C = Example.C ∧ h = c) ∨ (C = EmptyC ∧ h = e) := by simpa using hm

theorem Made.usedAs {evs : List Event} {b : Baseline} {e eo c : Idx} {m : List (Idx × Fields)} (h : Made evs b e eo c m) :
    UsedAs evs b [(Example.C, c), (EmptyC, e)] := by
  obtain ⟨cd, hcd, hid, _⟩ := h.cd
  refine ⟨fun C k cd' hm g => ?_, fun C C' k o hm hc => ?_⟩
  · rcases two hm with ⟨rfl, rfl⟩ | ⟨rfl, rfl⟩
    · rw [hcd] at g; cases g; exact hid
    · rw [h.ce] at g; cases g; rfl
  · rcases two hm with ⟨rfl, rfl⟩ | ⟨rfl, rfl⟩
    · exact (h.typed _ _ _ hc).2 rfl
    · exact (h.typed _ _ _ hc).1 rfl

theorem Made.mem {evs : List Event} {b : Baseline} {e eo c o : Idx} {m : List (Idx × Fields)} (h : Made evs b e eo c m)
    (ho : o ∈ objectsOf b c) : ∃ f, (o, f) ∈ m := by
  obtain ⟨cd, hcd, _, hp⟩ := h.cd
  rw [objectsOf_eq hcd] at ho
  obtain ⟨⟨o', f⟩, hm, e1⟩ := List.mem_map.1 (hp.mem_iff.1 ho)
  have e1 : o' = o := e1
  subst e1; exact ⟨f, hm⟩

theorem Made.tables {evs : List Event} {b : Baseline} {e eo c : Idx} {m : List (Idx × Fields)} (h : Made evs b e eo c m) :
    savedTables b [(Example.C, c), (EmptyC, e)] = 9 + 29 * m.length := by
  obtain ⟨cd, hcd, _, hp⟩ := h.cd
  have h1 : (objectsOf b c).length = m.length := by rw [objectsOf_eq hcd, hp.length_eq, List.length_map]
  have h2 : (objectsOf b e).length = 1 := by rw [objectsOf_eq h.ce]; rfl
  simp only [savedTables, objectCount, stateCount, List.map_cons, List.map_nil, List.sum_cons, List.sum_nil,
    List.length_cons, List.length_nil, h1, h2, show Example.C.states.length = 9 from rfl,
    show EmptyC.states.length = 0 from rfl]
  omega

theorem example_states {n : Nat} {f : Field} (hf : Example.C.states[n]? = some f) :
    n = 7 ∧ f.ty = .prim .objectHandle ∨ n = 8 ∧ f.ty = .prim .contractDataHandle ∨
    f.ty ≠ .prim .objectHandle ∧ f.ty ≠ .prim .contractDataHandle := by
  rcases n with _ | _ | _ | _ | _ | _ | _ | _ | _ | n
  · cases hf; exact .inr (.inr ⟨by decide, by decide⟩)
  · cases hf; exact .inr (.inr ⟨by decide, by decide⟩)
  · cases hf; exact .inr (.inr ⟨by decide, by decide⟩)
  · cases hf; exact .inr (.inr ⟨by decide, by decide⟩)
  · cases hf; exact .inr (.inr ⟨by decide, by decide⟩)
  · cases hf; exact .inr (.inr ⟨by decide, by decide⟩)
  · cases hf; exact .inr (.inr ⟨by decide, by decide⟩)
  · cases hf; exact .inl ⟨rfl, rfl⟩
  · cases hf; exact .inr (.inl ⟨rfl, rfl⟩)
  · exact absurd hf (by
      have : Example.C.states.length ≤ n + 9 := by show 9 ≤ n + 9; omega
      rw [List.getElem?_eq_none this]; exact fun h => by cases h)

theorem Made.survives {evs : List Event} {b : Baseline} {e eo c : Idx} {m : List (Idx × Fields)} (h : Made evs b e eo c m)
    (hn : m.length ≤ 34482) : Survives b [(Example.C, c), (EmptyC, e)] := by
  obtain ⟨cd, hcd, _, _⟩ := h.cd
  refine ⟨?_, by simpa using fun e1 => h.ne e1.symm, ?_, ?_, ⟨?_, ?_⟩, .of_none ?_, ?_, by show 2 ≤ 65535; omega, by rw [h.tables]; omega⟩
  · intro C k hm
    rcases two hm with ⟨rfl, rfl⟩ | ⟨rfl, rfl⟩
    · rw [hcd]; rfl
    · rw [h.ce]; rfl
  · intro C k o hm hne ho
    rcases two hm with ⟨rfl, rfl⟩ | ⟨rfl, rfl⟩
    · obtain ⟨f, hf⟩ := h.mem ho
      obtain ⟨⟨ob, g⟩, _⟩ := h.objs o f hf
      rw [g]; rfl
    · exact absurd rfl hne
  · intro C k f hm hf
    rcases two hm with ⟨rfl, rfl⟩ | ⟨rfl, rfl⟩
    · simp only [Example.C, Example.states] at hf
      revert hf
      have : ∀ f ∈ Example.C.states, ∃ p, f.ty = .prim p := by
        intro f hf
        obtain ⟨n, hn⟩ := List.getElem?_of_mem hf
        rcases n with _ | _ | _ | _ | _ | _ | _ | _ | _ | n <;> first | (cases hn; exact ⟨_, rfl⟩) | skip
        have hl : Example.C.states.length ≤ n + 9 := by show 9 ≤ n + 9; omega
        rw [List.getElem?_eq_none hl] at hn; cases hn
      exact this f
    · cases hf
  · intro C k o n f v hm ho hf ht hv
    rcases two hm with ⟨rfl, rfl⟩ | ⟨rfl, rfl⟩
    · rcases example_states hf with ⟨rfl, _⟩ | ⟨_, ht'⟩ | ⟨h1, _⟩
      · obtain ⟨g, hg⟩ := h.mem ho
        have := holds_fun hv ((h.objs o g hg).2 7 _ rfl)
        refine ⟨EmptyC, e, by simp, ?_⟩
        rw [objectsOf_eq h.ce, this]
        exact List.mem_singleton.2 rfl
      · rw [ht] at ht'; cases ht'
      · exact absurd ht h1
    · cases hf
  · intro C k o n f v hm ho hf ht hv
    rcases two hm with ⟨rfl, rfl⟩ | ⟨rfl, rfl⟩
    · rcases example_states hf with ⟨_, ht'⟩ | ⟨rfl, _⟩ | ⟨_, h1⟩
      · rw [ht] at ht'; cases ht'
      · obtain ⟨g, hg⟩ := h.mem ho
        have := holds_fun hv ((h.objs o g hg).2 8 _ rfl)
        refine ⟨EmptyC, ?_⟩
        rw [this]
        exact List.mem_cons_of_mem _ (List.mem_singleton.2 rfl)
      · exact absurd ht h1
    · cases hf
  · intro x hx; simp only [List.mem_cons, List.not_mem_nil, or_false] at hx; rcases hx with rfl | rfl <;> rfl
  · intro x hx; simp only [List.mem_cons, List.not_mem_nil, or_false] at hx; rcases hx with rfl | rfl
    · exact show Example.C.id ≠ _ by decide
    · exact show EmptyC.id ≠ _ by decide

theorem objects_perm {b b' : Baseline} {cs cs' : List (ContractTy × Idx)} {φ ψ : Idx → Idx} (hS : SameContents b cs b' cs' φ ψ)
    {kind kind' : Kind} {evs evs' : List Event} (hH : History kind evs b) (hH' : History kind' evs' b') {C : ContractTy}
    {h : Idx} (hm : (C, h) ∈ cs) {cd : ContractData} (hcd : b.contractData h = .ok cd) :
    ∃ cd', b'.contractData (ψ h) = .ok cd' ∧ cd'.id = cd.id ∧ cd'.objects.Perm (cd.objects.map φ) := by
  obtain ⟨cd0, cd', g0, g1, g2, g3⟩ := hS.contract C h hm
  rw [hcd] at g0; cases g0
  refine ⟨cd', g1, g2, ?_⟩
  have hn := (history_binv hH).c.nodup h cd (contractData_ok.1 hcd)
  have hn' := (history_binv hH').c.nodup _ cd' (contractData_ok.1 g1)
  have hnm : (cd.objects.map φ).Nodup := by
    refine List.Nodup.map_on (fun x hx y hy e => ?_) hn
    have ho : objectsOf b h = cd.objects := objectsOf_eq hcd
    exact hS.objInj C C h h x y hm hm (by rw [ho]; exact hx) (by rw [ho]; exact hy) e
  exact (List.perm_ext_iff_of_nodup hn' hnm).2 fun x => by rw [g3, List.mem_map]

/-- A record without the signs of zeros. -/
def Fields.unsigned (f : Fields) : Fields := { f with f32_0 := unsigned32 f.f32_0, f32_1 := unsigned32 f.f32_1 }

/-- The restored baseline holds the same records, up to the signs of zeros. -/
theorem Made.restored {evs : List Event} {b : Baseline} {e eo c : Idx} {m : List (Idx × Fields)} (h : Made evs b e eo c m)
    {b' : Baseline} {cs' : List (ContractTy × Idx)} {φ ψ : Idx → Idx}
    (hS : SameContents b [(Example.C, c), (EmptyC, e)] b' cs' φ ψ) {kind' : Kind} {evs' : List Event}
    (hH' : History kind' evs' b') : Reads b' (ψ e) (ψ c) (m.map fun x => (φ x.1, x.2.unsigned)) := by
  have mc : (Example.C, c) ∈ [(Example.C, c), (EmptyC, e)] := by simp
  have me : (EmptyC, e) ∈ [(Example.C, c), (EmptyC, e)] := by simp
  obtain ⟨cd, hcd, hid, hp⟩ := h.cd
  refine ⟨?_, ?_, ?_⟩
  · obtain ⟨cd', g1, g2, g3⟩ := objects_perm hS h.hist hH' mc hcd
    refine ⟨cd', g1, g2.trans hid, g3.trans ?_⟩
    have := hp.map φ
    simp only [List.map_map] at this ⊢
    exact this
  · obtain ⟨cd', g1, g2, g3⟩ := objects_perm hS h.hist hH' me h.ce
    exact ⟨cd', g1, g2, by rw [g3.length_eq]; rfl⟩
  · intro o' f hm'
    obtain ⟨⟨o, f'⟩, hof, e1⟩ := List.mem_map.1 hm'
    simp only [Prod.mk.injEq] at e1
    obtain ⟨rfl, rfl⟩ := e1
    have ho : o ∈ objectsOf b c := by
      rw [objectsOf_eq hcd]; exact hp.mem_iff.2 (List.mem_map.2 ⟨_, hof, rfl⟩)
    obtain ⟨ob', g1, g2⟩ := hS.object EmptyC e eo me (by rw [objectsOf_eq h.ce]; exact List.mem_singleton.2 rfl)
    refine ⟨φ eo, ⟨ob', g1, g2⟩, fun i d hd => ?_⟩
    have hv := (h.objs o f' hof).2
    have key : ∀ (i : Nat) (fd : Field) (v : fd.ty.Carrier), Example.C.states[i]? = some fd →
        Holds b c o i fd.ty v → ∃ v' : fd.ty.Carrier, Holds b' (ψ c) (φ o) i fd.ty v' ∧
          DynProp.ofTyped fd.ty v' = asRestored φ ψ (DynProp.ofTyped fd.ty v) := by
      intro i fd v hf hv
      obtain ⟨w, w', k1, k2, k3⟩ := hS.values Example.C c o i fd mc ho hf
      have := holds_fun k1 hv
      subst this
      exact ⟨w', k2, k3⟩
    rcases i with _ | _ | _ | _ | _ | _ | _ | _ | _ | i
    · cases hd
      obtain ⟨v', k1, k2⟩ := key 0 ⟨"u8_0", .prim .u8⟩ f'.u8_0 rfl (hv 0 _ rfl)
      cases k2; exact k1
    · cases hd
      obtain ⟨v', k1, k2⟩ := key 1 ⟨"u8_1", .prim .u8⟩ f'.u8_1 rfl (hv 1 _ rfl)
      cases k2; exact k1
    · cases hd
      obtain ⟨v', k1, k2⟩ := key 2 ⟨"i8_0", .prim .i8⟩ f'.i8_0 rfl (hv 2 _ rfl)
      cases k2; exact k1
    · cases hd
      obtain ⟨v', k1, k2⟩ := key 3 ⟨"i8_1", .prim .i8⟩ f'.i8_1 rfl (hv 3 _ rfl)
      cases k2; exact k1
    · cases hd
      obtain ⟨v', k1, k2⟩ := key 4 ⟨"f32_0", .prim .f32⟩ f'.f32_0 rfl (hv 4 _ rfl)
      cases k2; exact k1
    · cases hd
      obtain ⟨v', k1, k2⟩ := key 5 ⟨"f32_1", .prim .f32⟩ f'.f32_1 rfl (hv 5 _ rfl)
      cases k2; exact k1
    · cases hd
      obtain ⟨v', k1, k2⟩ := key 6 ⟨"str_0", .prim .string⟩ f'.str_0 rfl (hv 6 _ rfl)
      cases k2; exact k1
    · cases hd
      obtain ⟨v', k1, k2⟩ := key 7 ⟨"oh_0", .prim .objectHandle⟩ eo rfl (hv 7 _ rfl)
      cases k2; exact k1
    · cases hd
      obtain ⟨v', k1, k2⟩ := key 8 ⟨"ch_0", .prim .contractDataHandle⟩ e rfl (hv 8 _ rfl)
      cases k2; exact k1
    · simp [Fields.states] at hd

end RoundTripTest
open RoundTripTest

/-- The floats of a record are numbers. -/
def RoundTripTest.Numbers (f : Fields) : Prop := fmt32.isNaN f.f32_0 = false ∧ fmt32.isNaN f.f32_1 = false

instance (f : Fields) : Decidable (RoundTripTest.Numbers f) := inferInstanceAs (Decidable (_ ∧ _))

namespace RoundTripTest

/-- The test up to its last check. -/
theorem test_run {K : Type} [DecidableEq K] {eq : Fields → Fields → Bool} {key : Fields → K} (fs : List Fields)
    (heq : EqIs eq key fs fs) (ordX ordE : HashOrder) (ordC ordO : IterOrder (Idx × Nat))
    (sched : IterOrder (ContractTy × Idx)) (ord' : IterOrder (Nat × Idx)) (hord : HashOrder) :
    (fs.length ≤ 34482 → ∃ (e' c' : Idx) (b' : Baseline) (m' : List (Idx × Fields)), Reads b' e' c' m' ∧
      (fs.map Fields.unsigned).Perm (m'.map Prod.snd) ∧
      test eq fs ordX ordE ordC ordO sched ord' hord = some (RoundTripTest.check eq fs e' c' b')) ∧
    (¬ fs.length ≤ 34482 → test eq fs ordX ordE ordC ordO sched ord' hord = none) := by
  obtain ⟨evs, b, m, h1, h2, h3⟩ := createBaseline_made fs
  have hlen : fs.length = m.length := by rw [h3.length_eq, List.length_map]
  unfold test
  rw [h1]
  simp only
  rw [if_pos (h2.reads.check (fun f hf g hg => heq f (h3.mem_iff.2 hf) g hg) (by simpa [List.map_map, Function.comp_def] using h3.map key))]
  have hfit : Cycle.Fits ⟨[(Example.C, ⟨1, 0⟩, ordX), (EmptyC, ⟨0, 0⟩, ordE)], ordC, ordO, [Example.C, EmptyC], .main,
      sched, ord', hord⟩ [(Example.C, ⟨1, 0⟩), (EmptyC, ⟨0, 0⟩)] := ⟨.refl _, .refl _⟩
  obtain ⟨k1, k2⟩ := C116_exactly h2.hist h2.usedAs _ hfit
  refine ⟨fun hn => ?_, fun hn => ?_⟩
  · have hok := k1.2 (h2.survives (by omega))
    cases hr : Cycle.run ⟨[(Example.C, ⟨1, 0⟩, ordX), (EmptyC, ⟨0, 0⟩, ordE)], ordC, ordO, [Example.C, EmptyC], .main,
      sched, ord', hord⟩ b with
    | err x => rw [hr] at hok; cases hok
    | panic x => rw [hr] at hok; cases hok
    | ok r =>
      obtain ⟨cs', b'⟩ := r
      obtain ⟨φ, ψ, hS⟩ := k2 cs' b' hr
      obtain ⟨_, _, buf, _, _, _, hres⟩ := run_restore hr
      obtain ⟨hfst, _⟩ := restore_inv hres
      obtain ⟨hnd, evs', hH', _⟩ := restore_typed hres (show ([Example.C, EmptyC].map ContractTy.id).Nodup by decide)
      have hfst : cs'.map Prod.fst = [Example.C, EmptyC] := hfst
      match cs', hfst with
      | [(C1, c'), (C2, e')], hfst =>
        simp only [List.map_cons, List.map_nil, List.cons.injEq, and_true] at hfst
        obtain ⟨rfl, rfl⟩ := hfst
        have hc : ψ ⟨1, 0⟩ = c' := by
          obtain ⟨k, hk, e1⟩ := (hS.instances Example.C c').1 (by simp)
          rcases two hk with ⟨_, rfl⟩ | ⟨e2, _⟩
          · exact e1
          · exact absurd e2 (by decide)
        have he : ψ ⟨0, 0⟩ = e' := by
          obtain ⟨k, hk, e1⟩ := (hS.instances EmptyC e').1 (by simp)
          rcases two hk with ⟨e2, _⟩ | ⟨_, rfl⟩
          · exact absurd e2 (by decide)
          · exact e1
        have := h2.restored hS hH'
        rw [hc, he] at this
        refine ⟨_, _, b', _, this, ?_, rfl⟩
        simpa [List.map_map, Function.comp_def] using h3.map Fields.unsigned
  · have hno : ¬ (Cycle.run ⟨[(Example.C, ⟨1, 0⟩, ordX), (EmptyC, ⟨0, 0⟩, ordE)], ordC, ordO, [Example.C, EmptyC], .main,
      sched, ord', hord⟩ b).isOk = true := by
      intro hok
      have := (k1.1 hok).size
      rw [h2.tables] at this
      omega
    cases hr : Cycle.run ⟨[(Example.C, ⟨1, 0⟩, ordX), (EmptyC, ⟨0, 0⟩, ordE)], ordC, ordO, [Example.C, EmptyC], .main,
      sched, ord', hord⟩ b with
    | ok x => rw [hr] at hno; exact absurd rfl hno
    | err x => rfl
    | panic x => rfl

theorem bits_eqIs (rs fs : List Fields) : EqIs (fun f g => decide (f = g)) id rs fs := fun f _ g _ => by simp

/-- What `==` looks at in a record of numbers. -/
def numKey (f : Fields) := (f.u8_0, f.u8_1, f.i8_0, f.i8_1, fmt32.key f.f32_0, fmt32.key f.f32_1, f.str_0)

theorem rust_eqIs {rs fs : List Fields} (h : ∀ f ∈ rs, Numbers f) (h' : ∀ f ∈ fs, Numbers f) : EqIs Fields.rustEq numKey rs fs := by
  intro f hf g hg
  obtain ⟨a1, a2⟩ := h f hf
  obtain ⟨b1, b2⟩ := h' g hg
  simp [Fields.rustEq, numKey, FloatFmt.feq, a1, a2, b1, b2, and_assoc]

theorem unsigned_key (v : BitVec 32) : fmt32.key (unsigned32 v) = fmt32.key v := by
  unfold unsigned32
  split
  · rename_i h; subst h; decide
  · rfl

theorem unsigned_nan (v : BitVec 32) : fmt32.isNaN (unsigned32 v) = fmt32.isNaN v := by
  unfold unsigned32
  split
  · rename_i h; subst h; decide
  · rfl

theorem numKey_unsigned (f : Fields) : numKey f.unsigned = numKey f := by
  simp only [numKey, Fields.unsigned, unsigned_key]

/-- If one of the records that are looked for matches none that is read, there are fewer of those. -/
theorem check_objects_fewer {eq : Fields → Fields → Bool} {f : Fields} {b : Baseline} {e c : Idx}
    (os : List Idx) (heq : ∀ o ∈ os, ∀ r : Fields, readFields b c o = some r → eq f r = false) (left : List Fields) (hf : f ∈ left)
    (h : checkObjects eq b e c os left = true) : os.length < left.length := by
  induction os generalizing left with
  | nil => exact List.length_pos_of_mem hf
  | cons o os ih =>
    unfold checkObjects at h
    split at h
    · rename_i r ch oh k1 k2 k3
      simp only [Bool.and_eq_true] at h
      obtain ⟨⟨⟨hany, _⟩, _⟩, hrec⟩ := h
      have hn : eq f r = false := heq o List.mem_cons_self r k1
      have := ih (fun o ho => heq o (List.mem_cons_of_mem _ ho)) _ ((List.mem_eraseP_of_neg (p := fun g => eq g r) (by simp [hn])).2 hf) hrec
      obtain ⟨g, hg, hgr⟩ := List.any_eq_true.1 hany
      rw [List.length_eraseP_of_mem hg hgr] at this
      have := List.length_pos_of_mem hg
      simp only [List.length_cons]; omega
    · cases h

theorem Reads.check_fewer {eq : Fields → Fields → Bool} {f : Fields} {b : Baseline} {e c : Idx} {m : List (Idx × Fields)}
    {fs : List Fields} (h : Reads b e c m) (hf : f ∈ fs) (heq : ∀ r ∈ m.map Prod.snd, eq f r = false) :
    RoundTripTest.check eq fs e c b = false := by
  obtain ⟨cd, hcd, _, hp⟩ := h.cd
  obtain ⟨ce, hce, _⟩ := h.ce
  unfold RoundTripTest.check
  rw [hcd, hce]
  simp only
  refine Bool.eq_false_iff.2 fun hx => ?_
  simp only [Bool.and_eq_true, beq_iff_eq] at hx
  have := check_objects_fewer (f := f) cd.objects (fun o ho r hr => by
    obtain ⟨⟨o', f'⟩, hof, e1⟩ := List.mem_map.1 (hp.mem_iff.1 ho)
    have e1 : o' = o := e1
    subst e1
    obtain ⟨eo, _, hv⟩ := h.objs o' f' hof
    rw [(reads_fields hv).1] at hr
    injection hr with hr
    subst hr
    exact heq _ (List.mem_map.2 ⟨_, hof, rfl⟩)) fs hf hx.2
  omega

theorem rust_stuck {f : Fields} (h : ¬ Numbers f) (g : Fields) : Fields.rustEq g f = false := by
  have h : fmt32.isNaN f.f32_0 = true ∨ fmt32.isNaN f.f32_1 = true := by
    unfold Numbers at h
    cases h1 : fmt32.isNaN f.f32_0 <;> cases h2 : fmt32.isNaN f.f32_1 <;> simp_all
  rcases h with h | h <;> simp [Fields.rustEq, FloatFmt.feq, h]

end RoundTripTest

/-- **C120.** The repository's round-trip test (it is run there on ten records) passes for a list of records, whatever
the hash orders, exactly if all their floats are numbers and there are at most 34,482 of them.  Records may be repeated.
Otherwise it fails, because `==` does not find a record with a NaN or because the saved form is refused. -/
theorem C120_round_trip_test (fs : List Fields) (ordX ordE : HashOrder) (ordC ordO : IterOrder (Idx × Nat))
    (sched : IterOrder (ContractTy × Idx)) (ord' : IterOrder (Nat × Idx)) (hord : HashOrder) :
    test Fields.rustEq fs ordX ordE ordC ordO sched ord' hord =
      if (∀ f ∈ fs, Numbers f) ∧ fs.length ≤ 34482 then some true else none := by
  by_cases h : ∀ f ∈ fs, Numbers f
  · have : DecidableEq (BitVec 8 × BitVec 8 × BitVec 8 × BitVec 8 × Int × Int × String) := Classical.decEq _
    obtain ⟨t1, t2⟩ := test_run fs (rust_eqIs h h) ordX ordE ordC ordO sched ord' hord
    by_cases hl : fs.length ≤ 34482
    · rw [if_pos ⟨h, hl⟩]
      obtain ⟨e', c', b', m', hr, hm, ht⟩ := t1 hl
      have hnum : ∀ f ∈ m'.map Prod.snd, Numbers f := by
        intro f hf
        obtain ⟨g, hg, rfl⟩ := List.mem_map.1 (hm.mem_iff.2 hf)
        unfold Numbers Fields.unsigned
        simp only [unsigned_nan]
        exact h g hg
      have := hm.map numKey
      simp only [List.map_map, Function.comp_def, numKey_unsigned] at this
      rw [ht, hr.check (rust_eqIs hnum h) this]
    · rw [if_neg (fun x => hl x.2), t2 hl]
  · rw [if_neg (fun x => h x.1)]
    simp only [not_forall] at h
    obtain ⟨f, hf, hn⟩ := h
    obtain ⟨evs, b, m, h1, h2, h3⟩ := createBaseline_made fs
    unfold test
    rw [h1]
    simp only
    rw [h2.reads.check_stuck (rust_stuck hn) (h3.mem_iff.1 hf)]
    rfl

/-- Neither float of a record is minus zero. -/
def RoundTripTest.NoMinus (f : Fields) : Prop := f.f32_0 ≠ 0x80000000#32 ∧ f.f32_1 ≠ 0x80000000#32

instance (f : Fields) : Decidable (RoundTripTest.NoMinus f) := inferInstanceAs (Decidable (_ ∧ _))

theorem RoundTripTest.noMinus_iff (f : Fields) : NoMinus f ↔ f.unsigned = f := by
  obtain ⟨a, b, c, d, x, y, z⟩ := f
  simp only [NoMinus, Fields.unsigned, Fields.mk.injEq, true_and, and_true]
  have : ∀ v : BitVec 32, v ≠ 0x80000000#32 ↔ unsigned32 v = v := by
    intro v
    unfold unsigned32
    split
    · rename_i h; subst h; decide
    · rename_i h; exact ⟨fun _ => rfl, fun _ => h⟩
  rw [this, this]

/-- Comparing bit for bit instead, NaNs included, nothing is lost or changed but the sign of a zero: the test fails in its last
check exactly if there is a minus zero. -/
theorem C120_every_bit (fs : List Fields) (ordX ordE : HashOrder) (ordC ordO : IterOrder (Idx × Nat))
    (sched : IterOrder (ContractTy × Idx)) (ord' : IterOrder (Nat × Idx)) (hord : HashOrder) :
    test (fun f g => decide (f = g)) fs ordX ordE ordC ordO sched ord' hord =
      if fs.length ≤ 34482 then some (decide (∀ f ∈ fs, NoMinus f)) else none := by
  obtain ⟨t1, t2⟩ := test_run fs (bits_eqIs fs fs) ordX ordE ordC ordO sched ord' hord
  by_cases hl : fs.length ≤ 34482
  · rw [if_pos hl]
    obtain ⟨e', c', b', m', hr, hm, ht⟩ := t1 hl
    rw [ht]
    congr 1
    by_cases h : ∀ f ∈ fs, NoMinus f
    · rw [decide_eq_true h, hr.check (bits_eqIs _ _) ?_]
      have : fs.map Fields.unsigned = fs := by
        conv => rhs; rw [← List.map_id fs]
        exact List.map_congr_left fun f hf => (noMinus_iff f).1 (h f hf)
      rw [this] at hm
      simpa using hm
    · rw [decide_eq_false h]
      simp only [not_forall] at h
      obtain ⟨f, hf, hn⟩ := h
      refine hr.check_fewer hf fun r hr' => ?_
      obtain ⟨g, _, rfl⟩ := List.mem_map.1 (hm.mem_iff.2 hr')
      refine decide_eq_false fun e => hn ?_
      rw [e]
      refine (noMinus_iff _).2 ?_
      simp only [Fields.unsigned, unsigned32_twice]
  · rw [if_neg hl, t2 hl]

/-- A minus zero: the repository's own comparison passes, the one bit for bit does not. -/
example : (∀ f ∈ [(⟨1, 2, 3, 4, 0x80000000#32, 0x40000000#32, "x"⟩ : Fields)], Numbers f) ∧
    test Fields.rustEq [⟨1, 2, 3, 4, 0x80000000#32, 0x40000000#32, "x"⟩] .id .id .id .id .id .id .id = some true ∧
    test (fun f g => decide (f = g)) [⟨1, 2, 3, 4, 0x80000000#32, 0x40000000#32, "x"⟩] .id .id .id .id .id .id .id = some false := by
  decide +kernel

/-- The ten records of the repository are a case. -/
example : (∀ f ∈ fields, Numbers f) ∧ fields.length ≤ 34482 ∧
    test Fields.rustEq fields .id .id .id .id .id .id .id = some true :=
  ⟨by decide +kernel, by decide, repo_test_round_trip⟩

end Verif.Props
