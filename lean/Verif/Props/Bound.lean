import Verif.Props.Genuine
import Verif.Props.Text
/-!
# C135: a file bounds what is restored from it
-/
namespace Verif.Props
open Verif Verif.Spec Verif.Fb

theorem elems_length {α : Type} {el : Nat → Option α} {size : Nat} : ∀ (n p : Nat) (l : List α), elems el size p n = some l → l.length = n
  | 0, _, l, h => by simp only [elems, Option.some.injEq] at h; subst h; rfl
  | n + 1, p, l, h => by
    rw [elems, Option.bind_eq_some_iff] at h
    obtain ⟨x, _, h⟩ := h
    rw [Option.map_eq_some_iff] at h
    obtain ⟨m, h, rfl⟩ := h
    rw [List.length_cons, elems_length n _ m h]

theorem rdVec_room {α : Type} {b : Bytes} {el : Nat → Option α} {size p : Nat} {l : List α} (h : rdVec b size el p = some l) :
    p + 4 + l.length * size ≤ b.length := by
  unfold rdVec at h
  rw [Option.bind_eq_some_iff] at h
  obtain ⟨n, _, h⟩ := h
  split at h
  next hc => rw [elems_length n _ l h]; exact hc.2
  next => cases h

/-- The entries of the vector of objects are in the file. -/
theorem root_objects {b : Bytes} {buf : FbBaseline} (h : root b = some buf) : 4 + 4 * (buf.objects.getD []).length ≤ b.length := by
  unfold root follow at h
  rw [Option.bind_eq_some_iff] at h
  obtain ⟨o, h0, h⟩ := h
  have hr : 4 ≤ b.length := by
    unfold rd at h0
    split at h0
    next hc => omega
    next => cases h0
  simp only [rdBaseline, Option.bind_eq_some_iff, Option.map_eq_some_iff] at h
  obtain ⟨t, _, cs, _, sts, _, os, h, rfl⟩ := h
  cases os with
  | none => simpa using hr
  | some os =>
    unfold Tab.offset at h
    rw [Option.bind_eq_some_iff] at h
    obtain ⟨f, _, h⟩ := h
    cases f with
    | none => cases h
    | some q =>
      simp only [Option.map_eq_some_iff, Option.some.injEq] at h
      obtain ⟨y, h, rfl⟩ := h
      unfold follow at h
      rw [Option.bind_eq_some_iff] at h
      obtain ⟨r, _, h⟩ := h
      have := rdVec_room h
      simp only [Option.getD_some]
      omega

/-- The entries at different indices are no more than all entries. -/
theorem sum_at_le {α : Type} (f : α → Nat) (l : List α) {ps : List Nat} (hp : ps.Nodup) :
    (ps.map fun p => (l[p]?.map f).getD 0).sum ≤ (l.map f).sum := by
  refine Nat.le_trans (sum_le_of_nodup hp (N := l.length) fun i hi => by rw [List.getElem?_eq_none hi]; rfl) (Nat.le_of_eq ?_)
  congr 1
  apply List.ext_getElem
  · simp
  · intro n h1 h2
    simp only [List.length_map, List.length_range] at h1
    simp [List.getElem?_eq_getElem h1]

/-- How many states an object has. -/
def statesOf (b : Baseline) (o : Idx) : Nat :=
  match b.object o with
  | .ok ob => ob.states.length
  | _ => 0

theorem number_inj {b : Baseline} {number : Idx → Nat} {os : List Idx} (hn : os.Nodup)
    (hi : ∀ o ∈ os, ∀ o' ∈ os, number o = number o' → o = o') : (os.map number).Nodup := by
  refine nodup_of_getElem? fun n n' x h1 h2 => ?_
  rw [List.getElem?_map, Option.map_eq_some_iff] at h1 h2
  obtain ⟨o, a1, a2⟩ := h1
  obtain ⟨o', b1, b2⟩ := h2
  have := hi o (List.mem_of_getElem? a1) o' (List.mem_of_getElem? b1) (a2.trans b2.symm)
  subst this
  obtain ⟨l1, e1⟩ := List.getElem?_eq_some_iff.1 a1
  obtain ⟨l2, e2⟩ := List.getElem?_eq_some_iff.1 b1
  exact (List.Nodup.getElem_inj_iff hn).1 (e1.trans e2.symm)

/-- **C135.** Whatever bytes something was restored from: the objects of the new baseline (`os` are any different ones that it has) take four bytes of the
file each, and contracts, objects and their states together are less than a million. -/
theorem C135_file_bounds_contents {bytes : Bytes} {d : Cycle} {cs : List (ContractTy × Idx)} {b : Baseline} (h : d.load bytes = .ok (cs, b))
    {os : List Idx} (hn : os.Nodup) (hos : ∀ o ∈ os, (b.object o).isOk = true) :
    4 + 4 * os.length ≤ bytes.length ∧
    1 + 3 * cs.length + 2 * os.length + (os.map (statesOf b)).sum ≤ 1000000 := by
  cases hr : root bytes with
  | none => rw [show d.load bytes = _ from restoreBytes_none hr ..] at h; cases h
  | some buf =>
    rw [show d.load bytes = _ from restoreBytes_some hr ..] at h
    obtain ⟨c1, c2, c3, c4, c5⟩ := (C62_restore_iff buf d.kind d.types d.sched d.ord d.hord).1 ⟨_, _, h⟩
    obtain ⟨cs', b', number, r1, r2, r3, _, _, r4, _, r5⟩ := C62_complete_buffers_restore c2 c3 c4 c5 c1 d.kind d.sched d.ord d.hord
    rw [h] at r1
    injection r1 with r1
    injection r1 with e1 e2
    subst e1 e2
    have hlive : ∀ o ∈ os, ∃ ob, b.object o = .ok ob := fun o ho => by
      have := hos o ho
      cases hb : b.object o with
      | ok ob => exact ⟨ob, rfl⟩
      | err m => rw [hb] at this; cases this
      | panic m => rw [hb] at this; cases this
    have hps : (os.map number).Nodup := number_inj (b := b) hn fun o ho o' ho' e => by
      obtain ⟨ob, h1⟩ := hlive o ho
      obtain ⟨ob', h2⟩ := hlive o' ho'
      exact r4 o o' ob ob' h1 h2 e
    have hat : ∀ o ∈ os, ∃ obj, (buf.objects.getD [])[number o]? = some obj ∧ obj.tables = 2 + statesOf b o := by
      intro o ho
      obtain ⟨ob, h1⟩ := hlive o ho
      obtain ⟨C, k, obj, m1, m2, ⟨objs, m3, m4⟩, ⟨⟨c, w1, w2⟩, w3, _⟩, m5, _⟩ := r5 o ob h1
      refine ⟨obj, by rw [m3]; exact m4, ?_⟩
      unfold FbObject.tables statesOf
      rw [h1, w1]
      show 1 + 1 + _ = 2 + ob.states.length
      rw [m5, ← w3]
      simp [stateIdxs]
    have hlen : os.length ≤ (buf.objects.getD []).length := by
      have := sum_at_le (fun _ => 1) (buf.objects.getD []) hps
      rw [List.map_map, List.map_congr_left (g := fun _ => 1) (fun o ho => by
        obtain ⟨obj, e, _⟩ := hat o ho
        simp [e])] at this
      simpa using this
    refine ⟨by have := root_objects hr; omega, ?_⟩
    have ho : 2 * os.length + (os.map (statesOf b)).sum ≤ ((buf.objects.getD []).map FbObject.tables).sum := by
      refine Nat.le_trans (Nat.le_of_eq ?_) (sum_at_le FbObject.tables (buf.objects.getD []) hps)
      rw [List.map_map, List.map_congr_left (f := _ ∘ number) (g := fun o => 2 + statesOf b o) (fun o ho => by
        obtain ⟨obj, e, e'⟩ := hat o ho
        show ((buf.objects.getD [])[number o]?.map FbObject.tables).getD 0 = 2 + statesOf b o
        rw [e, ← e']; rfl)]
      clear hn hos hlive hps hat hlen
      induction os with
      | nil => rfl
      | cons o os ih => simp only [List.map_cons, List.sum_cons, List.length_cons]; omega
    have hc : 3 * cs.length ≤ ((buf.contracts.getD []).map FbContract.tables).sum := by
      have hk : ∀ C ∈ d.types, ∃ k, ContractNo buf C k := c2.described
      classical
      let no : ContractTy → Nat := fun C => if h : ∃ k, ContractNo buf C k then h.choose else 0
      have hno : ∀ C ∈ d.types, ContractNo buf C (no C) := fun C hC => by
        have := hk C hC
        simp only [no, dif_pos this]
        exact this.choose_spec
      have hnd : (d.types.map no).Nodup := by
        refine nodup_of_getElem? fun n n' x h1 h2 => ?_
        rw [List.getElem?_map, Option.map_eq_some_iff] at h1 h2
        obtain ⟨C, a1, a2⟩ := h1
        obtain ⟨D, b1, b2⟩ := h2
        obtain ⟨l, t, e1, e2, e3, _⟩ := hno C (List.mem_of_getElem? a1)
        obtain ⟨l', t', f1, f2, f3, _⟩ := hno D (List.mem_of_getElem? b1)
        rw [e1] at f1; injection f1 with f1; subst f1
        rw [a2] at e2; rw [b2, e2] at f2; injection f2 with f2; subst f2
        have := (describes_same e3 f3).1
        have g1 : (d.types.map ContractTy.id)[n]? = some C.id := by rw [List.getElem?_map, a1]; rfl
        have g2 : (d.types.map ContractTy.id)[n']? = some C.id := by rw [List.getElem?_map, b1, this]; rfl
        obtain ⟨l1, i1⟩ := List.getElem?_eq_some_iff.1 g1
        obtain ⟨l2, i2⟩ := List.getElem?_eq_some_iff.1 g2
        exact (List.Nodup.getElem_inj_iff c3).1 (i1.trans i2.symm)
      refine Nat.le_trans (Nat.le_of_eq ?_) (sum_at_le FbContract.tables (buf.contracts.getD []) hnd)
      rw [List.map_map, List.map_congr_left (g := fun _ => 3) (fun C hC => by
        obtain ⟨l, t, e1, e2, ⟨e3, ks, e4, _⟩, _⟩ := hno C hC
        show ((buf.contracts.getD [])[no C]?.map FbContract.tables).getD 0 = 3
        rw [e1]
        show (l[no C]?.map FbContract.tables).getD 0 = 3
        rw [e2]
        simp [FbContract.tables, e3, e4])]
      have : cs.length = d.types.length := by rw [← r2, List.length_map]
      rw [this]
      simp [Nat.mul_comm]
    unfold FbBaseline.tables at c1
    omega

/-! The file of the tag has 276 bytes and one object with two states. -/

example : tagFile.length = 276 ∧ (match (asking [tagC]).load tagFile with
    | .ok (cs, b) => cs.map (fun e => (objectsOf b e.2).map fun o => ((b.object o).isOk, statesOf b o))
    | _ => []) = [[(true, 2)]] := by decide +kernel

end Verif.Props
