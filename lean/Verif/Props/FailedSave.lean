import Verif.Props.Removed
/-!
# C105: what a failed `serialize` leaves behind
-/
namespace Verif.Props
open Verif Spec Arena Baseline Store

/-- Claim C105: a call of `serialize` that returned an error has no influence on what `finish` writes. -/
def FailureLeavesNothing : Prop :=
  ∀ (kind : Kind) (evs : List Event) (b : Baseline), History kind evs b → ∀ (s s' : Ser) (C : ContractTy) (h : Idx)
    (ord : HashOrder) (m : String), s.base = b → s.serialize C h ord = (s', .err m) →
    ∀ ordC ordO : IterOrder (Idx × Nat), s'.finish ordC ordO = s.finish ordC ordO

theorem pushState_objects (s : Ser) (o : Idx) (d : DynId) : (s.pushState o d).1.objects = s.objects := by
  unfold Ser.pushState
  split
  · rfl
  · rfl
  · split
    · rfl
    · rfl
    · split
      · rfl
      · exact (noteHandle_same _ _ _ _).1.objects

theorem pushStates_objects (s : Ser) (o : Idx) (ds : List DynId) : (s.pushStates o ds).1.objects = s.objects := by
  induction ds generalizing s with
  | nil => rfl
  | cons d ds ih =>
    have h := pushState_objects s o d
    unfold Ser.pushStates
    rcases hp : s.pushState o d with ⟨s1, i | m | m⟩ <;> rw [hp] at h <;> simp only at h ⊢
    · have h2 := ih s1
      rcases hq : s1.pushStates o ds with ⟨s2, is | m | m⟩ <;> rw [hq] at h2 <;> simp only at h2 ⊢ <;> rw [h2, h]
    · exact h
    · exact h

/-- The object loop up to the error. -/
theorem pushObjects_err {s s' : Ser} {C : ContractTy} {h : Idx} {k : BitVec 16} {os : List Idx} {m : String}
    (hC : ∀ f ∈ C.states, ∃ p, f.ty = .prim p) (he : s.pushObjects C h k os = (s', .err m)) :
    ∃ (pre : List Idx) (o : Idx) (post : List Idx) (ts : List FbObject), os = pre ++ o :: post ∧
      (∀ o' ∈ pre, ∀ d ∈ C.stateIds h, Writable s.base o' d) ∧ (¬ ∀ d ∈ C.stateIds h, Writable s.base o d) ∧
      s'.objects = s.objects ++ ts ∧ ts.length = pre.length ∧ ∀ t ∈ ts, t.contract = some k := by
  have hd : ∀ d ∈ C.stateIds h, ∃ p, d.ty = .prim p := by
    intro d hd
    obtain ⟨n, f, hf, rfl⟩ := mem_stateIds hd
    exact hC f (List.mem_of_getElem? hf)
  induction os generalizing s with
  | nil => simp [Ser.pushObjects] at he
  | cons o os ih =>
    have hobj := pushStates_objects s o (C.stateIds h)
    unfold Ser.pushObjects at he
    rcases pushStates_cases s o (C.stateIds h) hd with ⟨s1, is, e1, e2, e3⟩ | ⟨s1, m', e1, e2⟩
    · rw [e1] at hobj
      simp only [e1] at he
      obtain ⟨pre, o', post, ts, g1, g2, g3, g4, g5, g6⟩ := ih he
      simp only [e2] at g2 g3
      simp only at g4 hobj
      refine ⟨o :: pre, o', post, ⟨some k, some is⟩ :: ts, by rw [g1]; rfl, ?_, g3, ?_, by simp [g5], ?_⟩
      · intro o'' ho''
        rcases List.mem_cons.1 ho'' with rfl | ho''
        · exact e3
        · exact g2 o'' ho''
      · rw [g4, hobj, List.append_assoc]; rfl
      · intro t ht
        rcases List.mem_cons.1 ht with rfl | ht
        · rfl
        · exact g6 t ht
    · rw [e1] at hobj
      simp only [e1] at he
      injection he with he1 he2
      subst he1
      exact ⟨[], o, os, [], rfl, by simp, e2, by simpa using hobj, rfl, by simp⟩

/-- **C105, partial.** In every reachable baseline, and from every state of a serializer over it (short of its 2^16
contracts): if serializing a registered contract of a carriable type returned an error, then the table of the contract
has been written, and with it the objects that come before the first removed one in the order of the hash set, each
pointing at that contract table: which ones, and how many, depends on the hash seed.  (Where an error leaves nothing
behind, for unregistered handles and vector states, is C49.) -/
theorem C105_leftovers_partial {kind : Kind} {evs : List Event} {b : Baseline} (hist : History kind evs b)
    {C : ContractTy} {h : Idx} {cd : ContractData} (hreg : b.contractData h = .ok cd)
    (typed : ∀ (C' : ContractTy) (o : Idx), CreatedAs evs C' h o → C' = C)
    (prim : ∀ f ∈ C.states, ∃ p, f.ty = .prim p) (s : Ser) (hs : s.base = b)
    (room : (s.contracts.length + 1) % 65536 ≠ 0) (ord : HashOrder) (s' : Ser) (m : String)
    (failed : s.serialize C h ord = (s', .err m)) :
    (∃ t, s'.contracts = s.contracts ++ [t] ∧ Describes t C) ∧
    ∃ (pre : List Idx) (o : Idx) (post : List Idx) (ts : List FbObject), ord.order cd.objects = pre ++ o :: post ∧
      (∀ o' ∈ pre, ∃ ob, b.object o' = .ok ob) ∧ (b.object o).isErr = true ∧
      s'.objects = s.objects ++ ts ∧ ts.length = pre.length ∧
      ∀ t ∈ ts, t.contract = some (BitVec.ofNat 16 s.contracts.length) := by
  subst hs
  have hcon := (C49_serialize_rejects s C h ord).2.2.1 ⟨cd, hreg⟩ prim
  rw [failed] at hcon
  refine ⟨hcon, ?_⟩
  obtain ⟨ks, hk⟩ := kindsOf_prim C.stateTypes (by
    intro t ht
    simp only [ContractTy.stateTypes, List.mem_map] at ht
    obtain ⟨f, hf, rfl⟩ := ht
    exact prim f hf)
  unfold Ser.serialize at failed
  rw [hreg] at failed
  simp only [Ser.contractTable, hk, List.length_append, List.length_cons, List.length_nil, Nat.zero_add] at failed
  rw [if_neg room] at failed
  obtain ⟨pre, o, post, ts, g1, g2, g3, g4, g5, g6⟩ := pushObjects_err prim failed
  simp only at g2 g3 g4
  have mem : ∀ o', o' ∈ pre ++ o :: post → o' ∈ cd.objects := by
    intro o' ho'; rw [← g1] at ho'; exact (ord.perm _).mem_iff.1 ho'
  refine ⟨pre, o, post, ts, g1, ?_, ?_, g4, g5, ?_⟩
  · intro o' ho'
    have hne : C.stateIds h ≠ [] := by
      intro e; rw [e] at g3; exact g3 (by simp)
    obtain ⟨d, hd⟩ := List.exists_mem_of_ne_nil _ hne
    cases hg : s.base.objects.get o' with
    | none => exact absurd (g2 o' ho' d hd) (not_writable_dead hg d)
    | some ob => exact ⟨ob, object_ok.2 hg⟩
  · rw [object_err]
    cases hg : s.base.objects.get o with
    | none => rfl
    | some ob =>
      exact absurd (live_writable hist hreg typed prim (mem o (by simp)) ⟨ob, object_ok.2 hg⟩) g3
  · intro t ht
    rw [g6 t ht]
    congr 1
    apply BitVec.eq_of_toNat_eq
    simp only [BitVec.toNat_ofNat]
    omega

/-! One of two objects removed, and `serialize` fails.  The hash order decides whether the other one is in the buffer. -/

def backwards : HashOrder := ⟨List.reverse, fun l => List.reverse_perm l⟩

/-- The objects a restored baseline has after the failed save of `cutB` with this hash order. -/
def restoredAfterFailure (ord : HashOrder) : Option Nat :=
  match ((Ser.new cutB).serialize plainC h0 ord).1.finish .id .id with
  | .ok out =>
    match out.decode with
    | some buf =>
      match restore buf .main [plainC] .id .id .id with
      | .ok (_, b') => some b'.objects.iter.length
      | _ => none
    | none => none
  | _ => none

theorem half_saved : ((Ser.new cutB).serialize plainC h0 .id).2.isErr = true ∧
    ((Ser.new cutB).serialize plainC h0 backwards).2.isErr = true ∧
    restoredAfterFailure .id = some 1 ∧ restoredAfterFailure backwards = some 0 := by decide +kernel

/-- **C105 is false of the code**: after the failed call `finish` writes a contract table and an object. -/
theorem C105_negation : ¬ FailureLeavesNothing := by
  intro hA
  obtain ⟨s', m, e⟩ : ∃ s' m, (Ser.new cutB).serialize plainC h0 .id = (s', .err m) := by
    have := half_saved.1
    rcases hx : (Ser.new cutB).serialize plainC h0 .id with ⟨s', r⟩
    rw [hx] at this
    cases r with
    | err m => exact ⟨s', m, rfl⟩
    | ok a => cases this
    | panic m => cases this
  have h1 := hA .fork cutEvs cutB (runOps_trace _ _) (Ser.new cutB) s' plainC h0 .id m rfl e .id .id
  have h2 : ((Ser.new cutB).serialize plainC h0 .id).1.finish .id .id ≠ (Ser.new cutB).finish .id .id := by
    decide +kernel
  rw [e] at h2
  exact h2 h1

/-- The hypotheses of the partial theorem hold there, in every hash order. -/
example (ord : HashOrder) (s' : Ser) (m : String) (failed : (Ser.new cutB).serialize plainC h0 ord = (s', .err m)) :
    ∃ t, s'.contracts = [t] ∧ Describes t plainC := by
  have := (C105_leftovers_partial (kind := .fork) (evs := cutEvs) (b := cutB) (runOps_trace _ _)
    (cd := ⟨plainC.id, [h1, h0]⟩) (by decide +kernel) cut_typed
    (by intro f hf; simp [plainC] at hf; rcases hf with rfl | rfl <;> exact ⟨_, rfl⟩) (Ser.new cutB) rfl (by decide) ord
    s' m failed).1
  simpa [Ser.new] using this

end Verif.Props
