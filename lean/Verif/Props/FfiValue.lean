import Verif.Proofs.FfiContracts
import Verif.Props.FfiHeap
/-!
# C82, C83: what C# programs see

`Model/FfiValue` is the API with its pointers and allocations, `Spec/CsObjects` the same API on plain objects,
`Spec/BorrowRules` the rules a program has to follow.
-/
namespace Verif.Props
open Verif Verif.Ffi

/-! ## C82 -/

/-- **C82.** A C# program that follows the borrow rules sees exactly what it would see if every wrapper were an object, or a
part of an object, and there were no native memory. -/
theorem C82_values (cs : List VCall) (bs : List B) (h : Disciplined [] (cs.map VCall.erase) bs) :
    VWorld.empty.run cs = Cell.run [] cs :=
  sim_run cs _ _ _ _ sim_init h

/-- **C82.** Every call of such a program returns, or the process ends in a Rust panic. -/
theorem C82_returns_or_panics (cs : List VCall) (bs : List B) (h : Disciplined [] (cs.map VCall.erase) bs) :
    ∀ r ∈ VWorld.empty.run cs, (∃ new obs, r = .ok new obs) ∨ ∃ m, r = .abort m := by
  rw [C82_values cs bs h]
  exact sound_run cs _ _ _ _ sim_init sound_init h

/-- The results of a run none of whose calls can panic. -/
theorem run_no_panic (cs : List VCall) : ∀ (cells : List Cell),
    (∀ (a : Api) (d : a.Data) (args : List Nat), VCall.method a d args ∈ cs → a.canPanic = false) →
    (∀ r ∈ Cell.run cells cs, (∃ new obs, r = .ok new obs) ∨ ∃ m, r = .abort m) →
    (Cell.run cells cs).length = cs.length ∧ ∀ r ∈ Cell.run cells cs, ∃ new obs, r = .ok new obs := by
  induction cs with
  | nil => intro cells _ _; exact ⟨rfl, by simp [Cell.run]⟩
  | cons c cs ih =>
    intro cells hc hr
    have hnp : ∀ m, (Cell.step cells c).2 ≠ .abort m := by
      intro m hm
      cases c with
      | dispose i => simp [Cell.step] at hm
      | method a d args =>
        have h1 := hc a d args (by simp)
        unfold Cell.step at hm
        simp only at hm
        split at hm
        · cases hm
        · rename_i os _
          cases hex : exec a d os with
          | stuck => simp [hex] at hm
          | panic m' => rw [exec_no_panic a d os m' hex] at h1; cases h1
          | done wr ret =>
            simp only [hex] at hm
            split at hm
            · cases hm
            · cases ret <;> simp at hm
    have hmem : (Cell.step cells c).2 ∈ Cell.run cells (c :: cs) := by
      simp only [Cell.run]
      split <;> simp
    rcases hr _ hmem with ⟨n, o, e⟩ | ⟨m, e⟩
    · have he : (Cell.step cells c).2.ends = false := by rw [e]; rfl
      have hrun : Cell.run cells (c :: cs) = (Cell.step cells c).2 :: Cell.run (Cell.step cells c).1 cs := by
        simp only [Cell.run, he, Bool.false_eq_true, if_false]
      rw [hrun] at hr ⊢
      obtain ⟨k1, k2⟩ := ih (Cell.step cells c).1 (fun a d args h => hc a d args (by simp [h])) (fun r h => hr r (by simp [h]))
      refine ⟨by simp [k1], ?_⟩
      intro r hr'
      rcases List.mem_cons.1 hr' with rfl | hr'
      · exact ⟨n, o, e⟩
      · exact k2 r hr'
    · exact absurd e (hnp m)

/-- **C82.** If the program does not look things up in a baseline, does not register or unregister contracts and does not
index vectors, all its calls return. -/
theorem C82_all_return (cs : List VCall) (bs : List B) (h : Disciplined [] (cs.map VCall.erase) bs)
    (hc : ∀ (a : Api) (d : a.Data) (args : List Nat), VCall.method a d args ∈ cs →
      a ≠ .baselineContractData ∧ (∀ t, a ≠ .baselineState t) ∧ (∀ t, a ≠ .baselineStateMut t) ∧ (∀ t, a ≠ .baselineBindState t) ∧
      a ≠ .rvecGet ∧ a ≠ .exRegister ∧ a ≠ .ballRegister ∧ a ≠ .ballUnregister) :
    (VWorld.empty.run cs).length = cs.length ∧ ∀ r ∈ VWorld.empty.run cs, ∃ new obs, r = .ok new obs := by
  have h1 := C82_returns_or_panics cs bs h
  rw [C82_values cs bs h] at h1 ⊢
  refine run_no_panic cs [] ?_ h1
  intro a d args hm
  obtain ⟨e1, e2, e3, e4, e5, e6, e7, e8⟩ := hc a d args hm
  cases a <;> first | rfl | (simp at e1 e2 e3 e4 e5 e6 e7 e8)

/-- The value of a wrapper made from `x`. -/
def primOf (t : PrimType) (x : t.Carrier) : DynProp := DynProp.ofTyped (.prim t) x

/-- Where a disciplined program stands after its first part. -/
theorem split_at {cs1 cs2 : List VCall} {bs' : List B} {rs1 rs2 : List VRes} {cells : List Cell} {bs : List B} (h : At cells bs) (hp : Plain cells)
    (hd : Disciplined bs ((cs1 ++ cs2).map VCall.erase) bs') (hl : rs1.length = cs1.length) (hne : rs2 ≠ [])
    (hr : Cell.run cells (cs1 ++ cs2) = rs1 ++ rs2) :
    ∃ bs1, At (Cell.after cells cs1) bs1 ∧ Plain (Cell.after cells cs1) ∧ Disciplined bs1 (cs2.map VCall.erase) bs' ∧
      Cell.run (Cell.after cells cs1) cs2 = rs2 := by
  obtain ⟨h1, h2, h3⟩ := run_append cs1 cells cs2 rs1 rs2 hl hne hr
  obtain ⟨bs1, k1, k2, _⟩ := at_steps cs1 cells bs bs' cs2 rs1 h hd h2 hl h3
  exact ⟨bs1, k1, plain_after cs1 _ hp, k2, h1⟩

/-- Making a primitive. -/
theorem step_primNew (cells : List Cell) (t : PrimType) (x : (Api.primNew t).Data) :
    Cell.step cells (.method (.primNew t) x []) = (cells ++ [.own (.prim (primOf t x.val))], .ok (some cells.length) none) := rfl

/-- What a program that passes wrappers `args` knows of them. -/
theorem method_allowed {bs bs' : List B} {a : Api} {d : a.Data} {args : List Nat} {cs : List VCall}
    (hd : Disciplined bs ((.method a d args :: cs).map VCall.erase) bs') : allowed bs a.method.sig args := by
  cases hd with
  | method _ _ _ _ _ _ ha _ => exact ha

/-- Reading the value of a state whose object is known. -/
theorem read_state {cells : List Cell} {t : PrimType} {s q : Nat} {v : DynProp} {r : VRes} (hs : cells[s]? = some (.own (.state v)))
    (h : Cell.run cells [.method (.stateValue t) () [s], .method (.primValue t) () [q]] = [.ok (some q) none, r]) :
    r = .ok none (some (.prim v)) := by
  have h1 : Cell.step cells (.method (.stateValue t) () [s]) = (cells ++ [.view s [.value]], .ok (some cells.length) none) := by
    unfold Cell.step
    simp only [Cell.reads, Cell.read, hs, exec, Cell.written, Cell.part, List.headD_cons]
  obtain ⟨e1, e2⟩ := run_cons_of h
  rw [h1] at e1 e2
  simp only [VRes.ok.injEq, Option.some.injEq, and_true] at e1
  obtain ⟨e3, _⟩ := run_cons_of (e2 rfl)
  have hslt := (List.getElem?_eq_some_iff.1 hs).1
  have h2 : (cells ++ [Cell.view s [.value]])[s]? = some (.own (.state v)) := by rw [List.getElem?_append_left hslt]; exact hs
  rw [← e3, ← e1]
  unfold Cell.step
  simp only [Cell.reads, Cell.read, List.getElem?_concat_length, h2, pathGet, PStep.get, exec, Cell.written]

/-- `s.Value = new RBox(x)`, where the box becomes wrapper number `p`. -/
def assignState (t : PrimType) (x : (Api.primNew t).Data) (s p : Nat) : List VCall :=
  [.method (.primNew t) x [], .method (.stateSetValue t) () [s, p]]

/-- `s.Value.Value`, where `s.Value` becomes wrapper number `q`. -/
def readState (t : PrimType) (s q : Nat) : List VCall :=
  [.method (.stateValue t) () [s], .method (.primValue t) () [q]]

/-- **C82.** What was last assigned to a state is what is read from it: after `s.Value = new RBox(x)`, and whatever else the
program does except assigning to `s` again, `s.Value.Value` is `x`. -/
theorem C82_state_readback (t : PrimType) (x : (Api.primNew t).Data) (pre mid cs : List VCall) (s p q : Nat) (bs : List B)
    (rs rs' : List VRes) (r : VRes)
    (hcs : cs = pre ++ (assignState t x s p ++ (mid ++ readState t s q)))
    (hd : Disciplined [] (cs.map VCall.erase) bs) (hmid : ∀ c ∈ mid, c.sets s = false)
    (hrun : VWorld.empty.run cs = rs ++ ([.ok (some p) none, .ok none none] ++ (rs' ++ [.ok (some q) none, r])))
    (hpre : rs.length = pre.length) (hmidl : rs'.length = mid.length) :
    r = .ok none (some (.prim (primOf t x.val))) := by
  subst hcs
  rw [C82_values _ _ hd] at hrun
  obtain ⟨bs1, h1, p1, d1, r1⟩ := split_at at_init plain_init hd hpre (by simp) hrun
  obtain ⟨bs2, h2, p2, d2, r2⟩ := split_at h1 p1 d1 (by rfl) (by simp) r1
  -- the two calls in the middle
  have hs : (Cell.after (Cell.after [] pre) (assignState t x s p))[s]? =
      some (.own (.state (primOf t x.val))) := by
    generalize hcells : Cell.after [] pre = cells at *
    simp only [assignState, Cell.after, step_primNew]
    obtain ⟨e1, e2⟩ := run_cons_of (show Cell.run cells (.method (.primNew t) x [] :: .method (.stateSetValue t) () [s, p] ::
      (mid ++ readState t s q)) = _ from r1)
    rw [step_primNew] at e1 e2
    simp only [VRes.ok.injEq, Option.some.injEq, and_true] at e1
    obtain ⟨bs3, h3, d3, _⟩ := at_step h1 (show Disciplined bs1 ((.method (.primNew t) x [] :: .method (.stateSetValue t) () [s, p] ::
      (mid ++ readState t s q)).map VCall.erase) bs from d1) rfl
    rw [step_primNew] at h3
    have p3 : Plain (cells ++ [.own (.prim (primOf t x.val))]) := plain_step p1 (.method (.primNew t) x [])
    obtain ⟨_, ha, _⟩ := method_allowed d3
    obtain ⟨_, b, hb, hf⟩ := ha (.refMut (.state t) false, s) (by simp [Api.method])
    obtain ⟨o, ho, hty⟩ := owned_of_writable h3 p3 hb hf.2
    rw [hf.1] at hty
    cases o <;> simp [NObj.hasTy] at hty
    rename_i v
    subst e1
    have hlt := (List.getElem?_eq_some_iff.1 ho).1
    unfold Cell.step
    simp only [Cell.reads, Cell.read, ho, List.getElem?_concat_length, exec, Cell.written, Cell.write]
    rw [List.getElem?_set_self hlt]
  obtain ⟨k1, k2, k3⟩ := run_append mid _ _ rs' _ hmidl (by simp) r2
  have hs' := own_steps mid _ bs2 bs _ rs' h2 d2 k2 hmidl k3 s _ hs (by simp) (fun c hc e => by rw [hmid c hc] at e; cases e)
  exact read_state hs' k1

/-- `new State(new RBox(x))`, where the box becomes wrapper number `p`. -/
def newState (t : PrimType) (x : (Api.primNew t).Data) (p : Nat) : List VCall :=
  [.method (.primNew t) x [], .method (.stateNew t) () [p]]

/-- **C82.** A new state holds the value it was made from until it is assigned to. -/
theorem C82_state_initial (t : PrimType) (x : (Api.primNew t).Data) (pre mid cs : List VCall) (s p q : Nat) (bs : List B)
    (rs rs' : List VRes) (r : VRes)
    (hcs : cs = pre ++ (newState t x p ++ (mid ++ readState t s q)))
    (hd : Disciplined [] (cs.map VCall.erase) bs) (hmid : ∀ c ∈ mid, c.sets s = false)
    (hrun : VWorld.empty.run cs = rs ++ ([.ok (some p) none, .ok (some s) none] ++ (rs' ++ [.ok (some q) none, r])))
    (hpre : rs.length = pre.length) (hmidl : rs'.length = mid.length) :
    r = .ok none (some (.prim (primOf t x.val))) := by
  subst hcs
  rw [C82_values _ _ hd] at hrun
  obtain ⟨bs1, h1, p1, d1, r1⟩ := split_at at_init plain_init hd hpre (by simp) hrun
  obtain ⟨bs2, h2, p2, d2, r2⟩ := split_at h1 p1 d1 (by rfl) (by simp) r1
  have hs : (Cell.after (Cell.after [] pre) (newState t x p))[s]? = some (.own (.state (primOf t x.val))) := by
    generalize hcells : Cell.after [] pre = cells at *
    simp only [newState, Cell.after, step_primNew]
    obtain ⟨e1, e2⟩ := run_cons_of (show Cell.run cells (.method (.primNew t) x [] :: .method (.stateNew t) () [p] ::
      (mid ++ readState t s q)) = _ from r1)
    rw [step_primNew] at e1 e2
    simp only [VRes.ok.injEq, Option.some.injEq, and_true] at e1
    subst e1
    obtain ⟨e3, _⟩ := run_cons_of (e2 rfl)
    revert e3
    unfold Cell.step
    simp only [Cell.reads, Cell.read, List.getElem?_concat_length, exec, Cell.written, VRes.ok.injEq, Option.some.injEq, and_true]
    intro e3
    rw [← e3, List.getElem?_concat_length]
  obtain ⟨k1, k2, k3⟩ := run_append mid _ _ rs' _ hmidl (by simp) r2
  have hs' := own_steps mid _ bs2 bs _ rs' h2 d2 k2 hmidl k3 s _ hs (by simp) (fun c hc e => by rw [hmid c hc] at e; cases e)
  exact read_state hs' k1

/-- `new Keyframe(new RBox(x), time)`, where the box becomes wrapper number `p`. -/
def newKeyframe (t : PrimType) (x : (Api.primNew t).Data) (time : BitVec 64) (p : Nat) : List VCall :=
  [.method (.primNew t) x [], .method (.keyframeNew t) time [p]]

/-- `k.Value.Value` and `k.Time`, where `k.Value` becomes wrapper number `q`. -/
def readKeyframe (t : PrimType) (k q : Nat) : List VCall :=
  [.method (.keyframeValue t) () [k], .method (.primValue t) () [q], .method (.keyframeTime t) () [k]]

/-- Making a keyframe. -/
theorem step_keyframeNew (cells : List Cell) (t : PrimType) (v : DynProp) (time : BitVec 64) :
    Cell.step (cells ++ [.own (.prim v)]) (.method (.keyframeNew t) time [cells.length]) =
      (cells ++ [.own (.prim v)] ++ [.own (.keyframe v time)], .ok (some (cells.length + 1)) none) := by
  unfold Cell.step
  simp only [Cell.reads, Cell.read, List.getElem?_concat_length, exec, Cell.written, List.length_append, List.length_cons, List.length_nil]

/-- Reading a keyframe. -/
theorem read_keyframe {cells : List Cell} {t : PrimType} {k q : Nat} {v : DynProp} {time : BitVec 64} {r r' : VRes}
    (hk : Cell.read cells k = some (.keyframe v time))
    (h : Cell.run cells (readKeyframe t k q) = [.ok (some q) none, r, r']) :
    r = .ok none (some (.prim v)) ∧ r' = .ok none (some (.time time)) := by
  obtain ⟨c0, hc0, hklt⟩ : ∃ c0, cells[k]? = some c0 ∧ k < cells.length := by
    cases hc : cells[k]? with
    | none => simp [Cell.read, hc] at hk
    | some c0 => exact ⟨c0, rfl, (List.getElem?_eq_some_iff.1 hc).1⟩
  have h1 : Cell.step cells (.method (.keyframeValue t) () [k]) = (cells ++ [Cell.part cells k .value], .ok (some cells.length) none) := by
    unfold Cell.step
    simp only [Cell.reads, hk, exec, Cell.written, List.headD_cons]
  -- what the other wrappers stand for does not change
  have hext : Cell.read (cells ++ [Cell.part cells k .value]) k = some (.keyframe v time) := by
    have hk2 := hk
    unfold Cell.read at hk ⊢
    rw [List.getElem?_append_left hklt]
    rw [hc0] at hk ⊢
    cases c0 with
    | own o => exact hk
    | view r path =>
      simp only at hk ⊢
      cases hr : cells[r]? with
      | none => rw [hr] at hk; cases hk
      | some c1 =>
        rw [List.getElem?_append_left (List.getElem?_eq_some_iff.1 hr).1, hr]
        rw [hr] at hk
        exact hk
  have hval : Cell.read (cells ++ [Cell.part cells k .value]) cells.length = some (.prim v) := by
    unfold Cell.read
    rw [List.getElem?_concat_length]
    unfold Cell.read at hk
    rw [hc0] at hk
    unfold Cell.part
    rw [hc0]
    cases c0 with
    | own o =>
      simp only [Option.some.injEq] at hk
      subst hk
      simp only
      rw [List.getElem?_append_left hklt, hc0]
      rfl
    | view r path =>
      simp only at hk ⊢
      cases hr : cells[r]? with
      | none => rw [hr] at hk; cases hk
      | some c1 =>
        rw [List.getElem?_append_left (List.getElem?_eq_some_iff.1 hr).1, hr]
        rw [hr] at hk
        cases c1 with
        | own o => simp only at hk ⊢; rw [pathGet_append path o _ .value hk]; rfl
        | view => cases hk
  obtain ⟨e1, e2⟩ := run_cons_of h
  rw [h1] at e1 e2
  simp only [VRes.ok.injEq, Option.some.injEq, and_true] at e1
  subst e1
  have h2 : Cell.step (cells ++ [Cell.part cells k .value]) (.method (.primValue t) () [cells.length]) =
      (cells ++ [Cell.part cells k .value], .ok none (some (.prim v))) := by
    unfold Cell.step
    simp only [Cell.reads, hval, exec, Cell.written]
  obtain ⟨e3, e4⟩ := run_cons_of (e2 rfl)
  rw [h2] at e3 e4
  have h3 : Cell.step (cells ++ [Cell.part cells k .value]) (.method (.keyframeTime t) () [k]) =
      (cells ++ [Cell.part cells k .value], .ok none (some (.time time))) := by
    unfold Cell.step
    simp only [Cell.reads, hext, exec, Cell.written]
  obtain ⟨e5, _⟩ := run_cons_of (e4 (by rw [← e3]; rfl))
  rw [h3] at e5
  exact ⟨e3.symm, e5.symm⟩

/-- **C82.** A keyframe never changes: whatever the program does after making it, as long as it can be read it holds the
value and the time it was made with. -/
theorem C82_keyframe_immutable (t : PrimType) (x : (Api.primNew t).Data) (time : BitVec 64) (pre mid cs : List VCall) (k p q : Nat)
    (bs : List B) (rs rs' : List VRes) (r r' : VRes)
    (hcs : cs = pre ++ (newKeyframe t x time p ++ (mid ++ readKeyframe t k q)))
    (hd : Disciplined [] (cs.map VCall.erase) bs)
    (hrun : VWorld.empty.run cs = rs ++ ([.ok (some p) none, .ok (some k) none] ++ (rs' ++ [.ok (some q) none, r, r'])))
    (hpre : rs.length = pre.length) (hmidl : rs'.length = mid.length) :
    r = .ok none (some (.prim (primOf t x.val))) ∧ r' = .ok none (some (.time time)) := by
  subst hcs
  rw [C82_values _ _ hd] at hrun
  obtain ⟨bs1, h1, p1, d1, r1⟩ := split_at at_init plain_init hd hpre (by simp) hrun
  obtain ⟨bs2, h2, p2, d2, r2⟩ := split_at h1 p1 d1 (by rfl) (by simp) r1
  have hs : (Cell.after (Cell.after [] pre) (newKeyframe t x time p))[k]? = some (.own (.keyframe (primOf t x.val) time)) := by
    generalize hcells : Cell.after [] pre = cells at *
    simp only [newKeyframe, Cell.after, step_primNew]
    obtain ⟨e1, e2⟩ := run_cons_of (show Cell.run cells (.method (.primNew t) x [] :: .method (.keyframeNew t) time [p] ::
      (mid ++ readKeyframe t k q)) = _ from r1)
    rw [step_primNew] at e1 e2
    simp only [VRes.ok.injEq, Option.some.injEq, and_true] at e1
    subst e1
    obtain ⟨e3, _⟩ := run_cons_of (e2 rfl)
    rw [step_keyframeNew] at e3 ⊢
    simp only [VRes.ok.injEq, Option.some.injEq, and_true] at e3
    rw [← e3, show cells.length + 1 = (cells ++ [Cell.own (.prim (primOf t x.val))]).length by simp, List.getElem?_concat_length]
  obtain ⟨k1, k2, k3⟩ := run_append mid _ _ rs' _ hmidl (by simp) r2
  have hs' := own_steps mid _ bs2 bs _ rs' h2 d2 k2 hmidl k3 k _ hs (by simp) (fun c hc e => by simp)
  exact read_keyframe (by unfold Cell.read; rw [hs']) k1

/-- A C# index as the native code sees it. -/
theorem ulong_of_int (i : BitVec 32) : (0 ≤ i.toInt → (ulongOfInt i : Int) = i.toInt) ∧ (i.toInt < 0 → 2 ^ 63 ≤ ulongOfInt i) := by
  have h1 : (i.signExtend 64).toInt = i.toInt := BitVec.toInt_signExtend_of_le (by omega)
  have h2 := (i.signExtend 64).toInt_eq_toNat_cond
  unfold ulongOfInt
  constructor
  · intro h; rw [h1] at h2; split at h2 <;> omega
  · intro h; rw [h1] at h2; split at h2 <;> omega

/-- **C82.** `v[i]` returns exactly if `0 ≤ i` and `i` is less than the number of `Push` calls on `v` so far; otherwise the
process ends in a panic.  (No Rust vector is longer than `2 ^ 63`.) -/
theorem C82_vector_bounds (i : BitVec 32) (pre cs : List VCall) (v : Nat) (bs : List B) (rs : List VRes) (r : VRes)
    (hcs : cs = pre ++ [.method .rvecGet i [v]]) (hd : Disciplined [] (cs.map VCall.erase) bs)
    (hrun : VWorld.empty.run cs = rs ++ [r]) (hpre : rs.length = pre.length) (hn : pushCount v pre ≤ 2 ^ 63) :
    ((0 ≤ i.toInt ∧ i.toInt < pushCount v pre) → ∃ e, r = .ok (some e) none) ∧
    (¬ (0 ≤ i.toInt ∧ i.toInt < pushCount v pre) → ∃ m, r = .abort m) := by
  subst hcs
  rw [C82_values _ _ hd] at hrun
  obtain ⟨k1, k2, k3⟩ := run_append pre _ _ rs _ hpre (by simp) hrun
  obtain ⟨bs1, h1, p1, d1, r1⟩ := split_at at_init plain_init hd hpre (by simp) hrun
  obtain ⟨_, ha, _⟩ := method_allowed d1
  obtain ⟨hu, b, hb, hf⟩ := ha (.ref .rvec, v) (by simp [Api.method])
  obtain ⟨ks, hv⟩ := vec_owned h1 p1 hu hb hf
  have hlen := vec_length pre [] [] bs _ rs at_init hd k2 hpre k3 v ks (Nat.zero_le _) hv
  obtain ⟨e1, _⟩ := run_cons_of r1
  have hi := ulong_of_int i
  rw [← e1]
  unfold Cell.step
  simp only [Cell.reads, Cell.read, hv, exec, hlen]
  constructor
  · intro ⟨g1, g2⟩
    have := hi.1 g1
    rw [if_pos (by omega)]
    exact ⟨_, rfl⟩
  · intro hne
    rw [if_neg]
    · exact ⟨_, rfl⟩
    · intro hlt
      apply hne
      by_cases h0 : 0 ≤ i.toInt
      · exact ⟨h0, by have := hi.1 h0; omega⟩
      · have := hi.2 (by omega)
        omega

/-- `v.Push(new Keyframe(new RBox(x), time))`, where the box becomes wrapper `p` and the keyframe wrapper `k`. -/
def pushKeyframe (x : (Api.primNew .u8).Data) (time : BitVec 64) (v p k : Nat) : List VCall :=
  [.method (.primNew .u8) x [], .method (.keyframeNew .u8) time [p], .method .rvecPush () [v, k]]

/-- `v[i].Value.Value` and `v[i].Time`, where `v[i]` becomes wrapper `e` and its value wrapper `q`. -/
def readElement (i : BitVec 32) (v e q : Nat) : List VCall := .method .rvecGet i [v] :: readKeyframe .u8 e q

/-- **C82.** The keyframe pushed after `n` others is, from then on, `v[n]`: it is read back with its value and its time,
however many more are pushed and whatever else the program does. -/
theorem C82_vector_element (x : (Api.primNew .u8).Data) (time : BitVec 64) (i : BitVec 32) (pre mid cs : List VCall) (v p k e q : Nat)
    (bs : List B) (rs rs' : List VRes) (r r' : VRes)
    (hcs : cs = pre ++ (pushKeyframe x time v p k ++ (mid ++ readElement i v e q)))
    (hd : Disciplined [] (cs.map VCall.erase) bs) (hi : i.toInt = pushCount v pre)
    (hrun : VWorld.empty.run cs = rs ++ ([.ok (some p) none, .ok (some k) none, .ok none none] ++
      (rs' ++ [.ok (some e) none, .ok (some q) none, r, r'])))
    (hpre : rs.length = pre.length) (hmidl : rs'.length = mid.length) :
    r = .ok none (some (.prim (primOf .u8 x.val))) ∧ r' = .ok none (some (.time time)) := by
  subst hcs
  rw [C82_values _ _ hd] at hrun
  obtain ⟨q1, q2, q3⟩ := run_append pre _ _ rs _ hpre (by simp) hrun
  obtain ⟨bs1, h1, p1, d1, r1⟩ := split_at at_init plain_init hd hpre (by simp) hrun
  obtain ⟨bs2, h2, p2, d2, r2⟩ := split_at h1 p1 d1 (by rfl) (by simp) r1
  have hs : ∃ ks, (Cell.after (Cell.after [] pre) (pushKeyframe x time v p k))[v]? = some (.own (.vec (ks ++ [(primOf .u8 x.val, time)]))) ∧
      ks.length = pushCount v pre := by
    have hvl := fun ks hv => vec_length pre [] [] bs _ rs at_init hd q2 hpre q3 v ks (Nat.zero_le _) hv
    generalize hcells : Cell.after [] pre = cells at *
    simp only [pushKeyframe, Cell.after, step_primNew]
    obtain ⟨e1, e2⟩ := run_cons_of (show Cell.run cells (.method (.primNew .u8) x [] :: .method (.keyframeNew .u8) time [p] ::
      .method .rvecPush () [v, k] :: (mid ++ readElement i v e q)) = _ from r1)
    rw [step_primNew] at e1 e2
    simp only [VRes.ok.injEq, Option.some.injEq, and_true] at e1
    subst e1
    obtain ⟨e3, e4⟩ := run_cons_of (e2 rfl)
    rw [step_keyframeNew] at e3 e4 ⊢
    simp only [VRes.ok.injEq, Option.some.injEq, and_true] at e3
    subst e3
    -- the third call
    obtain ⟨bs3, h3, d3, _⟩ := at_step h1 (show Disciplined bs1 ((.method (.primNew .u8) x [] ::
      .method (.keyframeNew .u8) time [cells.length] :: .method .rvecPush () [v, cells.length + 1] ::
      (mid ++ readElement i v e q)).map VCall.erase) bs from d1) rfl
    rw [step_primNew] at h3
    obtain ⟨bs4, h4, d4, _⟩ := at_step h3 d3 (by rw [step_keyframeNew]; rfl)
    rw [step_keyframeNew] at h4
    have p4 : Plain (cells ++ [.own (.prim (primOf .u8 x.val))] ++ [.own (.keyframe (primOf .u8 x.val) time)]) := by
      have := plain_step (plain_step p1 (.method (.primNew .u8) x [])) (.method (.keyframeNew .u8) time [cells.length])
      rw [step_primNew, step_keyframeNew] at this
      exact this
    obtain ⟨_, ha, _⟩ := method_allowed d4
    obtain ⟨hu, b, hb, hf⟩ := ha (.refMut .rvec true, v) (by simp [Api.method])
    obtain ⟨ks, hv⟩ := vec_owned h4 p4 hu hb hf.1
    have hlt := (List.getElem?_eq_some_iff.1 hv).1
    have hv' : cells[v]? = some (.own (.vec ks)) := by
      rcases get_append_cases hv with ⟨hv1, _⟩ | ⟨_, hv1⟩
      · rcases get_append_cases hv1 with ⟨hv2, _⟩ | ⟨_, hv2⟩
        · exact hv2
        · cases hv2
      · cases hv1
    refine ⟨ks, ?_, hvl ks hv'⟩
    have hk : (cells ++ [Cell.own (.prim (primOf .u8 x.val))] ++ [Cell.own (.keyframe (primOf .u8 x.val) time)])[cells.length + 1]? =
        some (.own (.keyframe (primOf .u8 x.val) time)) := by
      rw [show cells.length + 1 = (cells ++ [Cell.own (.prim (primOf .u8 x.val))]).length by simp, List.getElem?_concat_length]
    unfold Cell.step
    simp only [Cell.reads, Cell.read, hv, hk, exec, Cell.written, Cell.write]
    rw [List.getElem?_set_self hlt]
  obtain ⟨ks, hs, hkl⟩ := hs
  obtain ⟨k1, k2, k3⟩ := run_append mid _ _ rs' _ hmidl (by simp) r2
  obtain ⟨ks', hs', _⟩ := vec_steps mid _ bs2 bs _ rs' h2 d2 k2 hmidl k3 v _ hs
  generalize Cell.after (Cell.after (Cell.after [] pre) (pushKeyframe x time v p k)) mid = cells at *
  have hidx : ulongOfInt i = ks.length := by
    have := (ulong_of_int i).1 (by omega)
    omega
  have hget : (ks ++ [(primOf .u8 x.val, time)] ++ ks')[ks.length]? = some (primOf .u8 x.val, time) := by
    rw [List.append_assoc, List.getElem?_append_right (Nat.le_refl _)]; simp
  have hstep : Cell.step cells (.method .rvecGet i [v]) = (cells ++ [.view v [.elem ks.length]], .ok (some cells.length) none) := by
    unfold Cell.step
    simp only [Cell.reads, Cell.read, hs', exec, hidx]
    rw [if_pos (by simp)]
    simp only [Cell.written, List.headD_cons, Cell.part, hs']
  obtain ⟨e1, e2⟩ := run_cons_of k1
  rw [hstep] at e1 e2
  simp only [VRes.ok.injEq, Option.some.injEq, and_true] at e1
  subst e1
  refine read_keyframe ?_ (e2 rfl)
  unfold Cell.read
  rw [List.getElem?_concat_length]
  simp only
  rw [List.getElem?_append_left (List.getElem?_eq_some_iff.1 hs').1, hs']
  simp only [pathGet, PStep.get, hget, Option.map_some]

/-- **C82.** `new Baseline(m).IsMain` is `m`, whatever the program does in between. -/
theorem C82_is_main (m : Bool) (pre mid cs : List VCall) (b : Nat) (bs : List B) (rs rs' : List VRes) (r : VRes)
    (hcs : cs = pre ++ ([.method .baselineNew m []] ++ (mid ++ [.method .baselineIsMain () [b]])))
    (hd : Disciplined [] (cs.map VCall.erase) bs)
    (hrun : VWorld.empty.run cs = rs ++ ([.ok (some b) none] ++ (rs' ++ [r])))
    (hpre : rs.length = pre.length) (hmidl : rs'.length = mid.length) :
    r = .ok none (some (.bool m)) := by
  subst hcs
  rw [C82_values _ _ hd] at hrun
  obtain ⟨bs1, h1, p1, d1, r1⟩ := split_at at_init plain_init hd hpre (by simp) hrun
  obtain ⟨bs2, h2, p2, d2, r2⟩ := split_at h1 p1 d1 (by rfl) (by simp) r1
  obtain ⟨e1, _⟩ := run_cons_of r1
  have hb : (Cell.after (Cell.after [] pre) [.method .baselineNew m []])[b]? =
      some (.own (.baseline (Baseline.new (if m = true then .main else .fork)))) := by
    generalize Cell.after [] pre = cells at *
    have e0 : Cell.step cells (.method .baselineNew m []) =
      (cells ++ [.own (.baseline (Baseline.new (if m = true then .main else .fork)))], .ok (some cells.length) none) := rfl
    simp only [Cell.after]
    rw [e0] at e1 ⊢
    simp only [VRes.ok.injEq, Option.some.injEq, and_true] at e1
    subst e1
    exact List.getElem?_concat_length
  obtain ⟨k1, k2, k3⟩ := run_append mid _ _ rs' _ hmidl (by simp) r2
  obtain ⟨bb', hb', hk, _⟩ := baseline_steps mid _ bs2 bs _ rs' h2 p2 d2 k2 hmidl k3 b _ hb
  obtain ⟨e3, _⟩ := run_cons_of k1
  rw [← e3]
  unfold Cell.step
  simp only [Cell.reads, Cell.read, hb', exec, Cell.written, hk]
  cases m <;> rfl

/-- `b.ContractData(h).Id` and its `Name` and `Version`, where `h` was the last wrapper made. -/
def readContractId (b h : Nat) : List VCall :=
  [.method .baselineContractData () [b, h], .method .contractDataId () [h + 1], .method .contractIdName () [h + 2],
    .method .contractIdVersion () [h + 2]]

/-- What is read: the two wrappers and the two values. -/
def contractIdResults (h : Nat) (id : ContractId) : List VRes :=
  [.ok (some (h + 1)) none, .ok (some (h + 2)) none, .ok none (some (.name id.name)), .ok none (some (.version id.version))]

/-- Reading the id of a contract whose data is known. -/
theorem read_contract_id {cells : List Cell} {b h : Nat} {bb : Baseline} {k : Idx} {cd : ContractData}
    (hb : cells[b]? = some (.own (.baseline bb))) (hc : bb.contractData k = .ok cd)
    (hl : cells.length = h + 1) (hh : cells[h]? = some (.own (.prim (.primitive (.contractDataHandle k))))) :
    Cell.run cells (readContractId b h) = contractIdResults h cd.id := by
  have hblt := (List.getElem?_eq_some_iff.1 hb).1
  have s1 : Cell.step cells (.method .baselineContractData () [b, h]) = (cells ++ [.view b [.contract k]], .ok (some (h + 1)) none) := by
    unfold Cell.step
    simp only [Cell.reads, Cell.read, hb, hh, exec, DynProp.tryInto, Baseline.cContractData, hc, Baseline.expect, Exec.unwrap,
      Cell.written, List.headD_cons, Cell.part, hl]
  have hb2 : (cells ++ [Cell.view b [.contract k]])[b]? = some (.own (.baseline bb)) := by rw [List.getElem?_append_left hblt]; exact hb
  have hv2 : (cells ++ [Cell.view b [.contract k]])[h + 1]? = some (.view b [.contract k]) := by rw [← hl]; exact List.getElem?_concat_length
  have s2 : Cell.step (cells ++ [Cell.view b [.contract k]]) (.method .contractDataId () [h + 1]) =
      (cells ++ [Cell.view b [.contract k]] ++ [.view b [.contract k, .id]], .ok (some (h + 2)) none) := by
    unfold Cell.step
    simp only [Cell.reads, Cell.read, hb2, hv2, pathGet, PStep.get, hc, exec, Cell.written, List.headD_cons, Cell.part, List.length_append, hl,
      List.length_cons, List.length_nil, List.cons_append, List.nil_append]
  have hb3 : (cells ++ [Cell.view b [.contract k]] ++ [Cell.view b [.contract k, .id]])[b]? = some (.own (.baseline bb)) := by
    rw [List.getElem?_append_left (by simp; omega)]; exact hb2
  have hv3 : (cells ++ [Cell.view b [.contract k]] ++ [Cell.view b [.contract k, .id]])[h + 2]? = some (.view b [.contract k, .id]) := by
    rw [show h + 2 = (cells ++ [Cell.view b [.contract k]]).length by simp [hl]]; exact List.getElem?_concat_length
  have s3 : Cell.step (cells ++ [Cell.view b [.contract k]] ++ [Cell.view b [.contract k, .id]]) (.method .contractIdName () [h + 2]) =
      (cells ++ [Cell.view b [.contract k]] ++ [Cell.view b [.contract k, .id]], .ok none (some (.name cd.id.name))) := by
    unfold Cell.step
    simp only [Cell.reads, Cell.read, hb3, hv3, pathGet, PStep.get, hc, exec, Cell.written]
  have s4 : Cell.step (cells ++ [Cell.view b [.contract k]] ++ [Cell.view b [.contract k, .id]]) (.method .contractIdVersion () [h + 2]) =
      (cells ++ [Cell.view b [.contract k]] ++ [Cell.view b [.contract k, .id]], .ok none (some (.version cd.id.version))) := by
    unfold Cell.step
    simp only [Cell.reads, Cell.read, hb3, hv3, pathGet, PStep.get, hc, exec, Cell.written]
  simp only [readContractId, Cell.run, s1, s2, s3, s4, VRes.ends, Bool.false_eq_true, if_false, contractIdResults]

/-- Registering a contract, as the C API does it. -/
theorem step_register {cells : List Cell} {a : Api} {d : a.Data} {b c : Nat} {bb : Baseline} {C : ContractTy} {o : Idx → NObj} {m : String}
    (hp : Plain cells) (hb : cells[b]? = some (.own (.baseline bb)))
    (hex : exec a d [.baseline bb] = .unwrap (Baseline.expect m (bb.registerContract C).2)
      fun h => .done (some (.baseline (bb.registerContract C).1)) (.box (o h)))
    (h : (Cell.step cells (.method a d [b])).2 = .ok (some c) none) :
    ∃ bb' k, (Cell.step cells (.method a d [b])).1[b]? = some (.own (.baseline bb')) ∧ bb'.contractData k = .ok ⟨C.id, []⟩ ∧
      (Cell.step cells (.method a d [b])).1[c]? = some (.own (o k)) := by
  have hist : ∃ k evs, History k evs bb := (hp.own b _ hb).2
  have hblt := (List.getElem?_eq_some_iff.1 hb).1
  cases hr : bb.registerContract C with
  | mk bb' r =>
    rw [hr] at hex
    cases r with
    | err e => exfalso; revert h; unfold Cell.step; simp [Cell.reads, Cell.read, hb, hex, Baseline.expect, Exec.unwrap]
    | panic e => exfalso; revert h; unfold Cell.step; simp [Cell.reads, Cell.read, hb, hex, Baseline.expect, Exec.unwrap]
    | ok k =>
      have hs : Cell.step cells (.method a d [b]) = (cells.set b (.own (.baseline bb')) ++ [.own (o k)], .ok (some cells.length) none) := by
        unfold Cell.step
        simp only [Cell.reads, Cell.read, hb, hex, Baseline.expect, Exec.unwrap, Cell.written, Cell.write]
      rw [hs] at h ⊢
      simp only [VRes.ok.injEq, Option.some.injEq, and_true] at h
      subst h
      refine ⟨bb', k, ?_, register_new hist hr, ?_⟩
      · rw [List.getElem?_append_left (by simpa using hblt), List.getElem?_set_self hblt]
      · rw [show cells.length = (cells.set b (.own (.baseline bb'))).length by simp, List.getElem?_concat_length]

/-- The contract of a wrapper that was registered stays what it is, and so do its data in the baseline. -/
theorem contract_steps {mid : List VCall} {cells : List Cell} {bs bs' : List B} {cs2 : List VCall} {rs1 : List VRes} (h : At cells bs) (hp : Plain cells)
    (hd : Disciplined bs ((mid ++ cs2).map VCall.erase) bs') (hrun : Cell.run cells mid = rs1) (hl : rs1.length = mid.length)
    (hne : ∀ r ∈ rs1, r.ends = false) {b c : Nat} {bb : Baseline} {k : Idx} {cd : ContractData} {o : NObj}
    (hb : cells[b]? = some (.own (.baseline bb))) (hc : bb.contractData k = .ok cd) (hu : (∃ c ∈ mid, c.unregisters b = true) → cd.id ≠ Ball.C.id)
    (ho : cells[c]? = some (.own o)) (ho1 : ∀ b, o ≠ .baseline b) (ho2 : ∀ v, o ≠ .state v) (ho3 : ∀ ks, o ≠ .vec ks) :
    ∃ bb', (Cell.after cells mid)[b]? = some (.own (.baseline bb')) ∧ bb'.contractData k = .ok cd ∧
      (Cell.after cells mid)[c]? = some (.own o) := by
  obtain ⟨bb', g1, _, g3⟩ := baseline_steps mid cells bs bs' cs2 rs1 h hp hd hrun hl hne b bb hb
  exact ⟨bb', g1, g3 k cd hc hu, own_steps mid cells bs bs' cs2 rs1 h hd hrun hl hne c o ho ho1 (fun _ _ _ => ⟨ho2, ho3⟩)⟩

/-- The part common to the four theorems about contract ids: `a` registers `C`, and after a middle part the program obtains
the contract's handle by `get` and asks the baseline. -/
theorem contract_id_of {a : Api} {d : a.Data} {C : ContractTy} {o : Idx → NObj} {m : String} {get : List VCall} {gs : List VRes} {h : Nat}
    (ha : a.method.sig.params[0]? = some (.refMut .baseline true) ∨ a.method.sig.params[0]? = some (.refMut .baseline false))
    (hex : ∀ bb : Baseline, exec a d [.baseline bb] = .unwrap (Baseline.expect m (bb.registerContract C).2)
      fun h => .done (some (.baseline (bb.registerContract C).1)) (.box (o h)))
    (ho1 : ∀ k b, o k ≠ .baseline b) (ho2 : ∀ k v, o k ≠ .state v) (ho3 : ∀ k ks, o k ≠ .vec ks)
    {pre mid : List VCall} {b c : Nat} {bs : List B} {rs rs' tail : List VRes}
    (hget : ∀ (cells : List Cell) (k : Idx), cells[c]? = some (.own (o k)) → Cell.run cells get = gs →
      ∃ new, Cell.after cells get = cells ++ new ∧ (cells ++ new)[h]? = some (.own (.prim (.primitive (.contractDataHandle k)))) ∧
        (cells ++ new).length = h + 1)
    (hd : Disciplined [] ((pre ++ ([VCall.method a d [b]] ++ (mid ++ (get ++ readContractId b h)))).map VCall.erase) bs)
    (hmid : (∃ c ∈ mid, c.unregisters b = true) → C.id ≠ Ball.C.id)
    (hrun : VWorld.empty.run (pre ++ ([VCall.method a d [b]] ++ (mid ++ (get ++ readContractId b h)))) =
      rs ++ ([.ok (some c) none] ++ (rs' ++ (gs ++ tail))))
    (hpre : rs.length = pre.length) (hmidl : rs'.length = mid.length) (hgl : gs.length = get.length) (ht : tail ≠ []) :
    tail = contractIdResults h C.id := by
  rw [C82_values _ _ hd] at hrun
  obtain ⟨bs1, h1, p1, d1, r1⟩ := split_at at_init plain_init hd hpre (by simp) hrun
  obtain ⟨bs2, h2, p2, d2, r2⟩ := split_at h1 p1 d1 (by rfl) (by simp [ht]) r1
  obtain ⟨e1, _⟩ := run_cons_of r1
  obtain ⟨_, hal, _⟩ := method_allowed (show Disciplined bs1 ((.method a d [b] :: (mid ++ (get ++ readContractId b h))).map VCall.erase) bs from d1)
  obtain ⟨mv, hpar⟩ : ∃ mv, a.method.sig.params[0]? = some (.refMut .baseline mv) := ha.elim (fun h => ⟨_, h⟩) (fun h => ⟨_, h⟩)
  have hmem : (Param.refMut .baseline mv, b) ∈ a.method.sig.params.zip [b] := by
    cases hps : a.method.sig.params with
    | nil => rw [hps] at hpar; simp at hpar
    | cons q qs => rw [hps] at hpar; simp only [List.getElem?_cons_zero, Option.some.injEq] at hpar; subst hpar; simp
  obtain ⟨_, bx, hbx, hf⟩ := hal _ hmem
  obtain ⟨ob, hob, hty⟩ := owned_of_writable h1 p1 hbx hf.2
  rw [hf.1] at hty
  cases ob <;> simp [NObj.hasTy] at hty
  rename_i bb
  obtain ⟨bb', k, g1, g2, g3⟩ := step_register p1 hob (hex bb) e1
  obtain ⟨k1, k2, k3⟩ := run_append mid _ _ rs' _ hmidl (by simp [ht]) r2
  obtain ⟨bb2, f1, f2, f3⟩ := contract_steps h2 p2 d2 k2 hmidl k3 g1 g2 hmid g3 (ho1 k) (ho2 k) (ho3 k)
  obtain ⟨j1, j2, j3⟩ := run_append get _ _ gs _ hgl ht k1
  obtain ⟨new, n1, n2, n3⟩ := hget _ k f3 j2
  rw [n1] at j1
  rw [← j1]
  exact read_contract_id (by rw [List.getElem?_append_left (List.getElem?_eq_some_iff.1 f1).1]; exact f1) f2 n3 n2

/-- The id of the example contract. -/
def exampleId : ContractId := ⟨"teleportal.example-ffi-contract", (1, 2, 3)⟩
/-- The id of the ball contract. -/
def ballId : ContractId := ⟨"Ball", (0, 0, 0)⟩

/-- `c.Handle` -/
theorem get_handle {a : Api} {d : a.Data} {o : Idx → NObj} {c h : Nat}
    (hex : ∀ k, exec a d [o k] = .done none (.box (.prim (.primitive (.contractDataHandle k))))) (cells : List Cell) (k : Idx)
    (hc : cells[c]? = some (.own (o k))) (hr : Cell.run cells [.method a d [c]] = [.ok (some h) none]) :
    ∃ new, Cell.after cells [.method a d [c]] = cells ++ new ∧ (cells ++ new)[h]? = some (.own (.prim (.primitive (.contractDataHandle k)))) ∧
      (cells ++ new).length = h + 1 := by
  have hs : Cell.step cells (.method a d [c]) = (cells ++ [.own (.prim (.primitive (.contractDataHandle k)))], .ok (some cells.length) none) := by
    unfold Cell.step
    simp only [Cell.reads, Cell.read, hc, hex, Cell.written]
  obtain ⟨e1, _⟩ := run_cons_of hr
  rw [hs] at e1
  simp only [VRes.ok.injEq, Option.some.injEq, and_true] at e1
  subst e1
  refine ⟨[.own (.prim (.primitive (.contractDataHandle k)))], ?_, List.getElem?_concat_length, by simp⟩
  simp only [Cell.after, hs]

/-- The ids that a `States` struct hands out are for its contract. -/
theorem field_contract {e : Expansion} {h : Idx} {n : String} {d : DynId} (hf : e.field h n = some d) : d.id.contract = h := by
  simp only [Expansion.field, Expansion.construct] at hf
  cases hg : (e.fields.map fun f => (f.1, (e.inits.find? fun p => p.1 = f.1).map fun p => (⟨f.2, ⟨p.2, h⟩⟩ : DynId))).find? fun f => f.1 = n with
  | none => rw [hg] at hf; cases hf
  | some y =>
    rw [hg] at hf
    simp only [Option.bind_some] at hf
    obtain ⟨f, _, rfl⟩ := List.mem_map.1 (List.mem_of_find?_eq_some hg)
    simp only at hf
    cases hi : e.inits.find? fun p => p.1 = f.1 with
    | none => rw [hi] at hf; cases hf
    | some p => rw [hi] at hf; cases hf; rfl

/-- `c.States.name.Contract` -/
theorem get_field_handle {a1 a2 : Api} {d1 : a1.Data} {d2 : a2.Data} {t : PrimType} {o o2 : Idx → NObj} {e : Expansion} {n : String} {c s : Nat}
    (hex1 : ∀ k, exec a1 d1 [o k] = .done none (.borrow .states)) (hst : ∀ k, PStep.states.get (o k) = some (o2 k))
    (hex2 : ∀ k, exec a2 d2 [o2 k] = match e.field k n with
      | some d => .done none (.box (.stateId d))
      | none => .stuck) (cells : List Cell) (k : Idx)
    (hc : cells[c]? = some (.own (o k)))
    (hr : Cell.run cells [.method a1 d1 [c], .method a2 d2 [s], .method (.stateIdContract t) () [s + 1]] =
      [.ok (some s) none, .ok (some (s + 1)) none, .ok (some (s + 2)) none]) :
    ∃ new, Cell.after cells [.method a1 d1 [c], .method a2 d2 [s], .method (.stateIdContract t) () [s + 1]] = cells ++ new ∧
      (cells ++ new)[s + 2]? = some (.own (.prim (.primitive (.contractDataHandle k)))) ∧ (cells ++ new).length = s + 2 + 1 := by
  have hclt := (List.getElem?_eq_some_iff.1 hc).1
  have s1 : Cell.step cells (.method a1 d1 [c]) = (cells ++ [.view c [.states]], .ok (some cells.length) none) := by
    unfold Cell.step
    simp only [Cell.reads, Cell.read, hc, hex1, Cell.written, Cell.part, List.headD_cons]
  obtain ⟨e1, e2⟩ := run_cons_of hr
  rw [s1] at e1 e2
  simp only [VRes.ok.injEq, Option.some.injEq, and_true] at e1
  subst e1
  have hc2 : (cells ++ [Cell.view c [.states]])[c]? = some (.own (o k)) := by rw [List.getElem?_append_left hclt]; exact hc
  obtain ⟨e3, e4⟩ := run_cons_of (e2 rfl)
  cases hf : e.field k n with
  | none =>
    exfalso
    revert e3
    unfold Cell.step
    simp [Cell.reads, Cell.read, List.getElem?_concat_length, hc2, pathGet, hst, hex2, hf]
  | some d =>
    have s2 : Cell.step (cells ++ [Cell.view c [.states]]) (.method a2 d2 [cells.length]) =
        (cells ++ [Cell.view c [.states]] ++ [.own (.stateId d)], .ok (some (cells.length + 1)) none) := by
      unfold Cell.step
      simp only [Cell.reads, Cell.read, List.getElem?_concat_length, hc2, pathGet, hst, hex2, hf, Cell.written, List.length_append, List.length_cons,
        List.length_nil]
    have hv : (cells ++ [Cell.view c [.states]] ++ [Cell.own (.stateId d)])[cells.length + 1]? = some (.own (.stateId d)) := by
      rw [show cells.length + 1 = (cells ++ [Cell.view c [.states]]).length by simp]; exact List.getElem?_concat_length
    have s3 : Cell.step (cells ++ [Cell.view c [.states]] ++ [Cell.own (.stateId d)]) (.method (.stateIdContract t) () [cells.length + 1]) =
        (cells ++ [Cell.view c [.states]] ++ [Cell.own (.stateId d)] ++ [.own (.prim (.primitive (.contractDataHandle k)))],
          .ok (some (cells.length + 2)) none) := by
      unfold Cell.step
      simp only [Cell.reads, Cell.read, hv, exec, Cell.written, field_contract hf, List.length_append, List.length_cons, List.length_nil]
    refine ⟨[.view c [.states], .own (.stateId d), .own (.prim (.primitive (.contractDataHandle k)))], ?_, ?_, by simp⟩
    · simp only [Cell.after, s1, s2, s3]
      simp only [List.append_assoc, List.cons_append, List.nil_append]
    · rw [List.getElem?_append_right (by omega)]
      rw [show cells.length + 2 - cells.length = 2 by omega]; rfl

/-- **C82.** After `c = ExampleContract.Register(b)`, and whatever the program does next, `b.ContractData(c.Handle).Id` is the id
of the example contract; none of these calls panics. -/
theorem C82_example_id (pre mid cs : List VCall) (b c h : Nat) (bs : List B) (rs rs' tail : List VRes)
    (hcs : cs = pre ++ ([.method .exRegister () [b]] ++ (mid ++ ([.method .exHandle () [c]] ++ readContractId b h))))
    (hd : Disciplined [] (cs.map VCall.erase) bs)
    (hrun : VWorld.empty.run cs = rs ++ ([.ok (some c) none] ++ (rs' ++ ([.ok (some h) none] ++ tail))))
    (hpre : rs.length = pre.length) (hmidl : rs'.length = mid.length) (ht : tail ≠ []) :
    tail = contractIdResults h exampleId := by
  subst hcs
  exact contract_id_of (C := Example.C) (o := .exContract) (.inl rfl) (fun _ => rfl) (by simp) (by simp) (by simp) (get_handle fun _ => rfl) hd (by intro _; decide)
    hrun hpre hmidl rfl ht

/-- **C82.** The same for the ball contract, if it is not unregistered. -/
theorem C82_ball_id (pre mid cs : List VCall) (b c h : Nat) (bs : List B) (rs rs' tail : List VRes)
    (hcs : cs = pre ++ ([.method .ballRegister () [b]] ++ (mid ++ ([.method .ballHandle () [c]] ++ readContractId b h))))
    (hd : Disciplined [] (cs.map VCall.erase) bs) (hmid : ∀ c ∈ mid, c.unregisters b = false)
    (hrun : VWorld.empty.run cs = rs ++ ([.ok (some c) none] ++ (rs' ++ ([.ok (some h) none] ++ tail))))
    (hpre : rs.length = pre.length) (hmidl : rs'.length = mid.length) (ht : tail ≠ []) :
    tail = contractIdResults h ballId := by
  subst hcs
  exact contract_id_of (C := Ball.C) (o := .ballContract) (.inl rfl) (fun _ => rfl) (by simp) (by simp) (by simp) (get_handle fun _ => rfl) hd (by rintro ⟨c, hc, e⟩; rw [hmid c hc] at e; cases e)
    hrun hpre hmidl rfl ht

/-- **C82.** Every state id of the example contract leads back to it: `b.ContractData(c.States.name.Contract).Id` is its id. -/
theorem C82_example_field_id (t : PrimType) (n : (Api.exField t).Data) (pre mid cs : List VCall) (b c s : Nat) (bs : List B) (rs rs' tail : List VRes)
    (hcs : cs = pre ++ ([.method .exRegister () [b]] ++ (mid ++ ([.method .exStates () [c], .method (.exField t) n [s], .method (.stateIdContract t) () [s + 1]] ++ readContractId b (s + 2)))))
    (hd : Disciplined [] (cs.map VCall.erase) bs)
    (hrun : VWorld.empty.run cs = rs ++ ([.ok (some c) none] ++ (rs' ++ ([.ok (some s) none, .ok (some (s + 1)) none, .ok (some (s + 2)) none] ++ tail))))
    (hpre : rs.length = pre.length) (hmidl : rs'.length = mid.length) (ht : tail ≠ []) :
    tail = contractIdResults (s + 2) exampleId := by
  subst hcs
  exact contract_id_of (C := Example.C) (o := .exContract) (.inl rfl) (fun _ => rfl) (by simp) (by simp) (by simp) (get_field_handle (o2 := .exStates) (e := Example.states) (n := n.val) (fun _ => rfl) (fun _ => rfl) fun _ => rfl) hd (by intro _; decide)
    hrun hpre hmidl rfl ht

/-- **C82.** The same for the ball contract, if it is not unregistered. -/
theorem C82_ball_field_id (t : PrimType) (n : (Api.ballField t).Data) (pre mid cs : List VCall) (b c s : Nat) (bs : List B) (rs rs' tail : List VRes)
    (hcs : cs = pre ++ ([.method .ballRegister () [b]] ++ (mid ++ ([.method .ballStates () [c], .method (.ballField t) n [s], .method (.stateIdContract t) () [s + 1]] ++ readContractId b (s + 2)))))
    (hd : Disciplined [] (cs.map VCall.erase) bs) (hmid : ∀ c ∈ mid, c.unregisters b = false)
    (hrun : VWorld.empty.run cs = rs ++ ([.ok (some c) none] ++ (rs' ++ ([.ok (some s) none, .ok (some (s + 1)) none, .ok (some (s + 2)) none] ++ tail))))
    (hpre : rs.length = pre.length) (hmidl : rs'.length = mid.length) (ht : tail ≠ []) :
    tail = contractIdResults (s + 2) ballId := by
  subst hcs
  exact contract_id_of (C := Ball.C) (o := .ballContract) (.inl rfl) (fun _ => rfl) (by simp) (by simp) (by simp) (get_field_handle (o2 := .ballStates) (e := Ball.states) (n := n.val) (fun _ => rfl) (fun _ => rfl) fun _ => rfl) hd (by rintro ⟨c, hc, e⟩; rw [hmid c hc] at e; cases e)
    hrun hpre hmidl rfl ht


/-! Concrete programs meet the hypotheses. -/

/-- The byte 7 as a value for `new RBox`. -/
def box7 : (Api.primNew .u8).Data := ⟨(7 : BitVec 8), by decide⟩
/-- The byte 9. -/
def box9 : (Api.primNew .u8).Data := ⟨(9 : BitVec 8), by decide⟩

/-- A state is made from 9, assigned 7, a baseline is made in between, and read. -/
def stateProgram : List VCall :=
  newState .u8 box9 0 ++ (assignState .u8 box7 1 2 ++ ([.method .baselineNew true []] ++ readState .u8 1 4))

example : ∃ bs, Disciplined [] (stateProgram.map VCall.erase) bs :=
  ⟨_, checkCalls_sound _ _ _ (by rfl)⟩

example : VWorld.empty.run stateProgram =
    [.ok (some 0) none, .ok (some 1) none] ++ ([.ok (some 2) none, .ok none none] ++
      ([.ok (some 3) none] ++ [.ok (some 4) none, .ok none (some (.prim (.primitive (.u8 7))))])) := by decide +kernel

example : ∀ c ∈ [VCall.method .baselineNew true []], c.sets 1 = false := by
  intro c hc; simp only [List.mem_singleton] at hc; subst hc; rfl

/-- Two keyframes are pushed, the second is read, then index 2. -/
def vectorProgram : List VCall :=
  ([.method .rvecNew () []] ++ pushKeyframe box9 5 0 1 2) ++
    (pushKeyframe box7 6 0 3 4 ++ ([.method .baselineNew true []] ++ readElement 1 0 6 7))

example : ∃ bs, Disciplined [] (vectorProgram.map VCall.erase) bs :=
  ⟨_, checkCalls_sound _ _ _ (by rfl)⟩

example : VWorld.empty.run vectorProgram =
    [.ok (some 0) none, .ok (some 1) none, .ok (some 2) none, .ok none none] ++
    ([.ok (some 3) none, .ok (some 4) none, .ok none none] ++
      ([.ok (some 5) none] ++ [.ok (some 6) none, .ok (some 7) none, .ok none (some (.prim (.primitive (.u8 7)))),
        .ok none (some (.time 6))])) := by decide +kernel

example : pushCount 0 ([VCall.method .rvecNew () []] ++ pushKeyframe box9 5 0 1 2) = 1 := by rfl
example : (1 : BitVec 32).toInt = (1 : Nat) := by decide

/-- Reading past the end, or before the beginning, ends the process. -/
example : (VWorld.empty.run (vectorProgram ++ [VCall.method .rvecGet 2 [0]]))[12]? = some (.abort "index out of bounds") := by decide +kernel
example : (VWorld.empty.run (vectorProgram ++ [VCall.method .rvecGet (-1) [0]]))[12]? = some (.abort "index out of bounds") := by decide +kernel
example : ∃ bs, Disciplined [] ((vectorProgram ++ [VCall.method .rvecGet (-1) [0]]).map VCall.erase) bs :=
  ⟨_, checkCalls_sound _ _ _ (by rfl)⟩

/-- A keyframe is made and read. -/
def keyframeProgram : List VCall :=
  [.method .baselineNew true []] ++ (newKeyframe .u8 box7 6 1 ++ ([.dispose 0] ++ readKeyframe .u8 2 3))

example : ∃ bs, Disciplined [] (keyframeProgram.map VCall.erase) bs :=
  ⟨_, checkCalls_sound _ _ _ (by rfl)⟩

example : VWorld.empty.run keyframeProgram = [.ok (some 0) none] ++ ([.ok (some 1) none, .ok (some 2) none] ++
    ([.ok none none] ++ [.ok (some 3) none, .ok none (some (.prim (.primitive (.u8 7)))), .ok none (some (.time 6))])) := by decide +kernel

/-- A fork is made; the example contract is registered, then the ball contract; the ids are read by handle and by field. -/
def contractProgram : List VCall :=
  [.method .baselineNew false []] ++ ([.method .exRegister () [0]] ++ ([.method .ballRegister () [0]] ++
    ([.method .exHandle () [1]] ++ readContractId 0 3)))

example : ∃ bs, Disciplined [] (contractProgram.map VCall.erase) bs :=
  ⟨_, checkCalls_sound _ _ _ (by rfl)⟩

example : VWorld.empty.run contractProgram = [.ok (some 0) none] ++ ([.ok (some 1) none] ++ ([.ok (some 2) none] ++
    ([.ok (some 3) none] ++ contractIdResults 3 exampleId))) := by decide +kernel

/-- The same, and the ball contract is asked for through one of its states. -/
def fieldProgram : List VCall :=
  [.method .baselineNew false []] ++ ([.method .ballRegister () [0]] ++ ([.method .exRegister () [0], .method .baselineIsMain () [0]] ++
    ([.method .ballStates () [1], .method (.ballField .u64) ⟨"color", by decide⟩ [3], .method (.stateIdContract .u64) () [4]] ++
      readContractId 0 5)))

example : ∃ bs, Disciplined [] (fieldProgram.map VCall.erase) bs :=
  ⟨_, checkCalls_sound _ _ _ (by rfl)⟩

example : VWorld.empty.run fieldProgram = [.ok (some 0) none] ++ ([.ok (some 1) none] ++ ([.ok (some 2) none, .ok none (some (.bool false))] ++
    ([.ok (some 3) none, .ok (some 4) none, .ok (some 5) none] ++ contractIdResults 5 ballId))) := by decide +kernel

example : ∀ c ∈ [VCall.method .exRegister () [0], VCall.method .baselineIsMain () [0]], c.unregisters 0 = false := by
  intro c hc
  simp only [List.mem_cons, List.not_mem_nil, or_false] at hc
  rcases hc with rfl | rfl <;> rfl

/-- After `Unregister` the handle leads nowhere. -/
example : VWorld.empty.run [.method .baselineNew false [], .method .ballRegister () [0], .method .ballHandle () [1], .method .ballHandle () [1],
      .method .ballUnregister HashOrder.id [0, 2], .method .baselineContractData () [0, 3]] =
    [.ok (some 0) none, .ok (some 1) none, .ok (some 2) none, .ok (some 3) none, .ok none none, .abort "unwrap"] := by decide +kernel

/-- Without the rules the two semantics differ: a box that has been given away throws, in plain objects it does not. -/
example : VWorld.empty.run [.method (.primNew .u8) box7 [], .method (.stateNew .u8) () [0], .method (.primValue .u8) () [0]] =
    [.ok (some 0) none, .ok (some 1) none, .exception] := by decide +kernel
example : Cell.run [] [.method (.primNew .u8) box7 [], .method (.stateNew .u8) () [0], .method (.primValue .u8) () [0]] =
    [.ok (some 0) none, .ok (some 1) none, .ok none (some (.prim (.primitive (.u8 7))))] := by decide +kernel

/-! ## C83 -/

/-- The state of a disciplined program before its `k`-th call, if it gets there. -/
theorem before_call {cs : List VCall} {bs : List B} (h : Disciplined [] (cs.map VCall.erase) bs) {k : Nat} {c : VCall} {r : VRes}
    (hk : cs[k]? = some c) (hr : (VWorld.empty.run cs)[k]? = some r) :
    ∃ cells bs1, At cells bs1 ∧ Plain cells ∧ (Cell.step cells c).2 = r := by
  rw [C82_values cs bs h] at hr
  have hlt := (List.getElem?_eq_some_iff.1 hk).1
  have hrlt := (List.getElem?_eq_some_iff.1 hr).1
  have e1 : cs = cs.take k ++ c :: cs.drop (k + 1) := by
    have := List.getElem?_eq_some_iff.1 hk
    rw [← this.2, List.getElem_cons_drop, List.take_append_drop]
  have e2 : Cell.run [] cs = (Cell.run [] cs).take k ++ r :: (Cell.run [] cs).drop (k + 1) := by
    have := List.getElem?_eq_some_iff.1 hr
    rw [← this.2, List.getElem_cons_drop, List.take_append_drop]
  have e3 : ((Cell.run [] cs).take k).length = (cs.take k).length := by
    rw [List.length_take, List.length_take]; omega
  generalize (Cell.run [] cs).take k = rs1 at e2 e3
  generalize (Cell.run [] cs).drop (k + 1) = rs2 at e2
  generalize hc1 : cs.take k = cs1 at e1 e3
  generalize hc2 : cs.drop (k + 1) = cs2 at e1
  rw [e1] at h e2
  obtain ⟨bs1, h1, p1, d1, r1⟩ := split_at at_init plain_init h e3.symm.symm (by simp) e2
  exact ⟨_, bs1, h1, p1, (run_cons_of r1).1⟩

/-- A call of a native function that does not return does not return. -/
theorem step_not_ok {cells : List Cell} {a : Api} {d : a.Data} {args : List Nat} (hp : Plain cells)
    (h : ∀ os : List NObj, (∀ o ∈ os, o.plain) → ∀ wr ret, exec a d os ≠ .done wr ret) (new : Option Nat) (obs : Option Obs) :
    (Cell.step cells (.method a d args)).2 ≠ .ok new obs := by
  unfold Cell.step
  simp only
  cases hr : Cell.reads cells args with
  | none => simp
  | some os =>
    simp only
    cases hex : exec a d os with
    | stuck => simp
    | panic => simp
    | done wr ret => exact absurd hex (h os (plain_reads hp args os hr) wr ret)

theorem step_stuck {cells : List Cell} {a : Api} {d : a.Data} {args : List Nat} (hp : Plain cells)
    (h : ∀ os : List NObj, (∀ o ∈ os, o.plain) → exec a d os = .stuck) : (Cell.step cells (.method a d args)).2 = .stuck := by
  unfold Cell.step
  simp only
  cases hr : Cell.reads cells args with
  | none => rfl
  | some os => simp only [h os (plain_reads hp args os hr)]

/-- **C83, refuted.** `BindState` never returns: a C# program that follows the borrow rules has no way to put an object into
a baseline, so no object handle it can come by is ever bound, and the process ends in a panic. -/
theorem C83_bind_state_negation (cs : List VCall) (bs : List B) (h : Disciplined [] (cs.map VCall.erase) bs) (k : Nat) (t : PrimType)
    (args : List Nat) (hk : cs[k]? = some (.method (.baselineBindState t) () args)) (r : VRes) (hr : (VWorld.empty.run cs)[k]? = some r) :
    ∃ m, r = .abort m := by
  obtain ⟨cells, bs1, h1, p1, e⟩ := before_call h hk hr
  rcases C82_returns_or_panics cs bs h r (List.mem_of_getElem? hr) with ⟨new, obs, e'⟩ | e'
  · refine absurd (e.trans e') (step_not_ok p1 ?_ new obs)
    intro os ho wr ret hex
    exact exec_bind _ _ os t rfl ho wr ret hex
  · exact e'

/-- **C83, refuted.** No such program ever calls `State` or `StateMut`. -/
theorem C83_state_access_negation (cs : List VCall) (bs : List B) (h : Disciplined [] (cs.map VCall.erase) bs) (k : Nat) (t : PrimType)
    (args : List Nat) (hk : cs[k]? = some (.method (.baselineState t) () args) ∨ cs[k]? = some (.method (.baselineStateMut t) () args)) :
    (VWorld.empty.run cs)[k]? = none := by
  cases hr : (VWorld.empty.run cs)[k]? with
  | none => rfl
  | some r =>
    exfalso
    rcases hk with hk | hk
    · obtain ⟨cells, bs1, h1, p1, e⟩ := before_call h hk hr
      have hst := step_stuck (args := args) p1 (fun os ho => exec_state _ () os t (.inl rfl) ho)
      rw [e] at hst
      rcases C82_returns_or_panics cs bs h r (List.mem_of_getElem? hr) with ⟨new, obs, e'⟩ | ⟨m, e'⟩ <;> rw [hst] at e' <;> cases e'
    · obtain ⟨cells, bs1, h1, p1, e⟩ := before_call h hk hr
      have hst := step_stuck (args := args) p1 (fun os ho => exec_state _ () os t (.inr rfl) ho)
      rw [e] at hst
      rcases C82_returns_or_panics cs bs h r (List.mem_of_getElem? hr) with ⟨new, obs, e'⟩ | ⟨m, e'⟩ <;> rw [hst] at e' <;> cases e'

/-- A program that registers both contracts, asks for a state id and binds it with an object handle that it made up. -/
def bindProgram : List VCall :=
  [.method .baselineNew true [], .method .exRegister () [0], .method .exStates () [1],
    .method (.exField .u8) ⟨"u8_0", by decide⟩ [2], .method (.primNew .objectHandle) ⟨⟨0, 0⟩, by simp [DynProp.ofTyped]⟩ [],
    .method (.baselineBindState .u8) () [0, 3, 4]]

example : ∃ bs, Disciplined [] (bindProgram.map VCall.erase) bs :=
  ⟨_, checkCalls_sound _ _ _ (by rfl)⟩

example : VWorld.empty.run bindProgram =
    [.ok (some 0) none, .ok (some 1) none, .ok (some 2) none, .ok (some 3) none, .ok (some 4) none, .abort "unwrap"] := by decide +kernel

end Verif.Props
