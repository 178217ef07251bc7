import Verif.Spec.CsObjects
import Verif.Proofs.FfiExact
/-!
# Disciplined programs behave as if there were no pointers
-/
namespace Verif.Ffi

/-- The outcome of an allowed call, in detail. -/
theorem call_shape {w : World} {bs : List B} (hi : Inv w.ws w.heap bs) (m : Method) (hm : Faithful m) (args : List Nat)
    (ha : allowed bs m.sig args) :
    ∃ (ws' : List W) (h' : Heap), ws'.length = w.ws.length ∧ h'.length = w.heap.length ∧
      (∀ (j : Nat) (p : Ptr), ptrAt ws' j = some p → ptrAt w.ws j = some p) ∧
      match m.sig.ret with
      | .nothing => w.call m args = (⟨ws', h'⟩, .ok none)
      | .box t => w.call m args = (⟨ws' ++ [⟨t, Wrapper.new ⟨h'.length, t, false, true, 0⟩ .owned⟩], h' ++ [⟨t, true, 0⟩]⟩, .ok (some ws'.length))
      | .borrow _ _ _ => ∃ x : W, w.call m args = (⟨ws' ++ [x], h'⟩, .ok (some ws'.length)) := by
  have ha' := ha
  obtain ⟨hl, hall, hpw⟩ := ha'
  obtain ⟨ws', ptrs, e1, e2, e3, e4, e5, e6⟩ := inv_params m.sig.params args [] w.ws w.heap bs hi hl hall hpw
  have hn := native_ok hi m.sig args ha ptrs e2 e4
  have ht : World.typed w.ws args m.args = true := by rw [hm.args]; exact typed_of_allowed hi _ _ hl hall
  have hg := guards_of_allowed hi m hm args hl hall
  have he : World.evalPasses w.ws args m.pass = (ws', some ptrs) := by rw [hm.pass]; exact e1
  have hh : ∀ (xs : List (Param × Ptr)) (h : Heap), (xs.foldl Heap.applyParam h).length = h.length := by
    intro xs
    induction xs with
    | nil => intro h; rfl
    | cons x xs ih =>
      intro h
      rw [List.foldl_cons, ih]
      unfold Heap.applyParam
      split
      · rfl
      · split <;> simp
      · simp
  have hlw : ws'.length = w.ws.length := by
    have h1 := inv_length e3
    have h2 := inv_length hi
    have h3 : ((m.sig.params.zip args).foldl passed bs).length = bs.length := by
      have hl1 : ∀ (xs : List (Param × Nat)) (l : List B), (xs.foldl passed l).length = l.length := by
        intro xs
        induction xs with
        | nil => intro l; rfl
        | cons x xs ih =>
          intro l
          rw [List.foldl_cons, ih]
          unfold passed
          split
          · rfl
          · split <;> simp
          · simp
      exact hl1 _ _
    omega
  refine ⟨ws', (m.sig.params.zip ptrs).foldl Heap.applyParam w.heap, hlw, hh _ _,
    fun j p hp => evalPasses_ptr m.pass w.ws ws' args (some ptrs) j p he hp, ?_⟩
  have hret := hm.ret
  cases hr : m.sig.ret with
  | nothing =>
    rw [hr] at hret
    unfold World.call
    simp only [ht, hg, Bool.not_true, Bool.false_eq_true, if_false, he, hn, hr, Heap.applyRet, hret]
  | box t =>
    rw [hr] at hret
    unfold World.call
    simp only [ht, hg, Bool.not_true, Bool.false_eq_true, if_false, he, hn, hr, Heap.applyRet, hret]
  | borrow k t wr =>
    rw [hr] at hret
    obtain ⟨hret, q, hq, hqb⟩ := hret
    have hk := (List.getElem?_eq_some_iff.1 hq).1
    have hpk : ptrs[k]? = some (ptrs[k]'(by omega)) := List.getElem?_eq_getElem (by omega)
    unfold World.call
    simp only [ht, hg, Bool.not_true, Bool.false_eq_true, if_false, he, hn, hr, Heap.applyRet, hret, hpk]
    exact ⟨_, rfl⟩

/-- A result is of the kind that a signature announces. -/
def RetV.agrees : RetV → Ret → Prop
  | .nothing, r => r = .nothing
  | .val _, r => r = .nothing
  | .box _, r => ∃ t, r = .box t
  | .borrow _, r => ∃ t m, r = .borrow 0 t m

/-- The native functions return what their signatures say and write only to a `&mut`. -/
theorem exec_shape (a : Api) (d : a.Data) (os : List NObj) (wr : Option NObj) (ret : RetV) (h : exec a d os = .done wr ret) :
    ret.agrees a.method.sig.ret ∧ (wr ≠ none → ∃ t mv, a.method.sig.params[0]? = some (.refMut t mv)) := by
  have hu : ∀ {α : Type} (r : Outcome α) (k : α → Exec), Exec.unwrap r k = .done wr ret → ∃ x, r = .ok x ∧ k x = .done wr ret := by
    intro α r k hk
    unfold Exec.unwrap at hk
    split at hk
    · exact ⟨_, rfl, hk⟩
    · cases hk
    · cases hk
  revert h
  fun_cases exec a d os <;> intro h <;> first
    | (obtain ⟨x, _, h⟩ := hu _ _ h; injection h with h1 h2; subst h1; subst h2; simp [Api.method, RetV.agrees])
    | (injection h with h1 h2; subst h1; subst h2; simp [Api.method, RetV.agrees])
    | (exact Exec.noConfusion h)

/-- The heap world and the pointer-free world belong together. -/
structure Sim (s : VWorld) (cells : List Cell) (bs : List B) : Prop where
  inv : Inv s.w.ws s.w.heap bs
  lenP : s.paths.length = bs.length
  lenC : cells.length = bs.length
  lenO : s.objs.length = s.w.heap.length
  own : ∀ (i : Nat) (b : B), bs[i]? = some b → b.own = .owned → s.paths[i]? = some [] ∧
    ∃ o, cells[i]? = some (.own o) ∧ ∀ p, ptrAt s.w.ws i = some p → s.objs[p.alloc]? = some o
  bor : ∀ (i : Nat) (b : B), bs[i]? = some b → b.own ≠ .owned → ∃ path, s.paths[i]? = some path ∧ cells[i]? = some (.view b.root path)

theorem allocOf_eq (s : VWorld) (i : Nat) : s.allocOf i = (ptrAt s.w.ws i).map Ptr.alloc := by
  unfold VWorld.allocOf ptrAt
  cases s.w.ws[i]? <;> rfl

/-- What a usable wrapper points to. -/
theorem sim_place {s : VWorld} {cells : List Cell} {bs : List B} (hs : Sim s cells bs) {i : Nat} (hu : usable bs i) :
    ∃ (b r : B) (o : NObj) (al : Nat) (path : List PStep), bs[i]? = some b ∧ bs[b.root]? = some r ∧ r.own = .owned ∧
      s.allocOf i = some al ∧ s.paths[i]? = some path ∧ s.objs[al]? = some o ∧ cells[b.root]? = some (.own o) ∧
      (∃ q, ptrAt s.w.ws b.root = some q ∧ q.alloc = al) ∧
      ((b.root = i ∧ path = [] ∧ b.own = .owned) ∨ (cells[i]? = some (.view b.root path) ∧ b.own ≠ .owned)) := by
  have hu' := hu
  obtain ⟨b, r, hb, hr, _⟩ := hu'
  obtain ⟨p, q, r', hp, hq, hr', hro, hal, _⟩ := usable_ptr hs.inv hu hb
  obtain ⟨hp0, o, ho1, ho2⟩ := hs.own _ _ hr' hro
  have hob := ho2 q hq
  have ha : s.allocOf i = some q.alloc := by rw [allocOf_eq, hp]; simp [hal]
  by_cases ho : b.own = .owned
  · have hroot := hs.inv.ownRoot i b hb ho
    exact ⟨b, r', o, q.alloc, [], hb, hr', hro, ha, by rw [hroot] at hp0; exact hp0, hob, ho1, ⟨q, hq, rfl⟩, .inl ⟨hroot, rfl, ho⟩⟩
  · obtain ⟨path, h1, h2⟩ := hs.bor i b hb ho
    exact ⟨b, r', o, q.alloc, path, hb, hr', hro, ha, h1, hob, ho1, ⟨q, hq, rfl⟩, .inr ⟨h2, ho⟩⟩

/-- Reading through a usable wrapper. -/
theorem sim_read {s : VWorld} {cells : List Cell} {bs : List B} (hs : Sim s cells bs) {i : Nat} (hu : usable bs i) :
    s.deref i = Cell.read cells i := by
  obtain ⟨b, r, o, al, path, hb, hr, hro, ha, hp, ho, hc, _, h⟩ := sim_place hs hu
  rcases h with ⟨h1, h2, _⟩ | ⟨h1, _⟩
  · subst h2
    rw [h1] at hc
    simp only [VWorld.deref, ha, hp, ho, Cell.read, hc, pathGet]
  · simp only [VWorld.deref, ha, hp, ho, Cell.read, h1, hc]

theorem sim_reads {s : VWorld} {cells : List Cell} {bs : List B} (hs : Sim s cells bs) (args : List Nat)
    (hu : ∀ i ∈ args, usable bs i) : s.derefs (args.map some) = Cell.reads cells args := by
  induction args with
  | nil => rfl
  | cons i is ih =>
    rw [List.map_cons]
    unfold VWorld.derefs Cell.reads
    rw [sim_read hs (hu i (by simp)), ih fun j hj => hu j (by simp [hj])] <;> rfl

/-- Contents after a write, on both sides. -/
def Contents (s : VWorld) (bs : List B) (objs : List NObj) (cells : List Cell) : Prop :=
  objs.length = s.objs.length ∧ cells.length = bs.length ∧
  (∀ (i : Nat) (b : B), bs[i]? = some b → b.own = .owned →
    ∃ o, cells[i]? = some (.own o) ∧ ∀ p, ptrAt s.w.ws i = some p → objs[p.alloc]? = some o) ∧
  (∀ (i : Nat) (b : B), bs[i]? = some b → b.own ≠ .owned → ∃ path, s.paths[i]? = some path ∧ cells[i]? = some (.view b.root path))

theorem contents_refl {s : VWorld} {cells : List Cell} {bs : List B} (hs : Sim s cells bs) : Contents s bs s.objs cells :=
  ⟨rfl, hs.lenC, fun i b hb ho => (hs.own i b hb ho).2, hs.bor⟩

/-- Writing through a usable wrapper. -/
theorem sim_write {s : VWorld} {cells : List Cell} {bs : List B} (hs : Sim s cells bs) {i : Nat} (hu : usable bs i) (n : NObj) :
    (s.assign i n = none ∧ Cell.write cells i n = none) ∨
    ∃ objs cells', s.assign i n = some objs ∧ Cell.write cells i n = some cells' ∧ Contents s bs objs cells' := by
  obtain ⟨b, r, o, al, path, hb, hr, hro, ha, hp, ho, hc, ⟨q, hq, hqa⟩, h⟩ := sim_place hs hu
  have key : ∀ o' : NObj, Contents s bs (s.objs.set al o') (cells.set b.root (.own o')) := by
    intro o'
    refine ⟨by simp, by simp [hs.lenC], ?_, ?_⟩
    · intro j c hj hjo
      obtain ⟨_, oj, h1, h2⟩ := hs.own j c hj hjo
      by_cases hjr : j = b.root
      · subst hjr
        refine ⟨o', by rw [List.getElem?_set_self (List.getElem?_eq_some_iff.1 hc).1], ?_⟩
        intro p hp
        rw [hq] at hp; injection hp with hp; subst hp
        rw [hqa, List.getElem?_set_self (List.getElem?_eq_some_iff.1 ho).1]
      · refine ⟨oj, by rw [List.getElem?_set_ne (Ne.symm hjr)]; exact h1, ?_⟩
        intro p hp
        have : al ≠ p.alloc := fun e => hjr (hs.inv.inj j b.root c r p q hj hjo hr hro hp hq (by rw [hqa]; exact e.symm))
        rw [List.getElem?_set_ne this]
        exact h2 p hp
    · intro j c hj hjo
      obtain ⟨path, h1, h2⟩ := hs.bor j c hj hjo
      refine ⟨path, h1, ?_⟩
      have : b.root ≠ j := by
        rintro rfl
        rw [hr] at hj; injection hj with hj; subst hj; exact hjo hro
      rw [List.getElem?_set_ne this]; exact h2
  rcases h with ⟨h1, h2, _⟩ | ⟨h1, _⟩
  · subst h2
    refine .inr ⟨s.objs.set al n, cells.set b.root (.own n), ?_, ?_, key n⟩
    · simp only [VWorld.assign, ha, hp, ho, pathPut]
    · rw [h1] at hc ⊢
      simp only [Cell.write, hc]
  · cases hpp : pathPut path o n with
    | none =>
      left
      simp only [VWorld.assign, ha, hp, ho, hpp, Cell.write, h1, hc]
      exact ⟨trivial, trivial⟩
    | some o' =>
      right
      refine ⟨_, _, ?_, ?_, key o'⟩
      · simp only [VWorld.assign, ha, hp, ho, hpp]
      · simp only [Cell.write, h1, hc, hpp]

theorem passedArgs_faithful {m : Method} (hm : Faithful m) (args : List Nat) (hl : args.length = m.sig.params.length) :
    VWorld.passedArgs m args = args.map some := by
  have key : ∀ (ps : List Param) (rest pre : List Nat), rest.length = ps.length →
      ((passList ps pre.length).map fun p => (pre ++ rest)[p.idx]?) = rest.map some := by
    intro ps
    induction ps with
    | nil => intro rest pre h; cases rest with
      | nil => rfl
      | cons => simp at h
    | cons q qs ih =>
      intro rest pre h
      cases rest with
      | nil => simp at h
      | cons i rest =>
        have := ih rest (pre ++ [i]) (by simpa using h)
        rw [List.append_assoc] at this
        simp only [List.length_append, List.length_cons, List.length_nil, Nat.zero_add, List.cons_append, List.nil_append] at this
        simp only [passList, List.map_cons, this]
        congr 1
        cases q <;> simp [Pass.idx, isBox]
  unfold VWorld.passedArgs
  rw [hm.pass]
  exact key m.sig.params args [] hl


theorem foldl_passed_meta (xs : List (Param × Nat)) : ∀ (bs : List B) (m : Nat),
    (xs.foldl passed bs)[m]?.map (fun b => (b.cls, b.own, b.root, b.stamp)) = bs[m]?.map fun b => (b.cls, b.own, b.root, b.stamp) := by
  induction xs with
  | nil => intro bs m; rfl
  | cons x xs ih => intro bs m; rw [List.foldl_cons, ih, passed_get]

theorem foldl_passed_length (xs : List (Param × Nat)) : ∀ (l : List B), (xs.foldl passed l).length = l.length := by
  induction xs with
  | nil => intro l; rfl
  | cons x xs ih =>
    intro l
    rw [List.foldl_cons, ih]
    unfold passed
    split
    · rfl
    · split <;> simp
    · simp

/-- Wrappers known after a call: the old ones with class, ownership and owner as before, and the new one. -/
theorem foldl_passed_old {bs : List B} (xs : List (Param × Nat)) {i : Nat} {b : B} (h : (xs.foldl passed bs)[i]? = some b) :
    ∃ b0, bs[i]? = some b0 ∧ b.cls = b0.cls ∧ b.own = b0.own ∧ b.root = b0.root ∧ b.stamp = b0.stamp := by
  have := foldl_passed_meta xs bs i
  rw [h] at this
  cases hb : bs[i]? with
  | none => rw [hb] at this; simp at this
  | some b0 =>
    rw [hb] at this
    simp only [Option.map_some, Option.some.injEq, Prod.mk.injEq] at this
    exact ⟨b0, rfl, this⟩

/-- The contents of old wrappers, with possibly fewer pointers. -/
theorem contents_mono {s : VWorld} {bs bs1 : List B} {objs : List NObj} {cells : List Cell} {ws' : List W}
    (hc : Contents s bs objs cells)
    (hown : ∀ (i : Nat) (b : B), bs[i]? = some b → b.own = .owned → s.paths[i]? = some [])
    (hp : ∀ (j : Nat) (p : Ptr), ptrAt ws' j = some p → ptrAt s.w.ws j = some p)
    (hold : ∀ (i : Nat) (b : B), bs1[i]? = some b → ∃ b0, bs[i]? = some b0 ∧ b.own = b0.own ∧ b.root = b0.root) :
    (∀ (i : Nat) (b : B), bs1[i]? = some b → b.own = .owned → s.paths[i]? = some [] ∧
      ∃ o, cells[i]? = some (.own o) ∧ ∀ p, ptrAt ws' i = some p → objs[p.alloc]? = some o) ∧
    (∀ (i : Nat) (b : B), bs1[i]? = some b → b.own ≠ .owned → ∃ path, s.paths[i]? = some path ∧ cells[i]? = some (.view b.root path)) := by
  refine ⟨fun i b hb ho => ?_, fun i b hb ho => ?_⟩
  · obtain ⟨b0, h0, h1, h2⟩ := hold i b hb
    obtain ⟨o, h3, h4⟩ := hc.2.2.1 i b0 h0 (h1 ▸ ho)
    exact ⟨hown i b0 h0 (h1 ▸ ho), o, h3, fun p hpp => h4 p (hp i p hpp)⟩
  · obtain ⟨b0, h0, h1, h2⟩ := hold i b hb
    rw [h2]
    exact hc.2.2.2 i b0 h0 (h1 ▸ ho)

/-- An allowed call: both sides do the same. -/
theorem sim_method {s : VWorld} {cells : List Cell} {bs : List B} (hs : Sim s cells bs) (a : Api) (hb : a.broken = false) (d : a.Data)
    (args : List Nat) (ha : allowed bs a.method.sig args) :
    (s.method a d args).2 = (Cell.step cells (.method a d args)).2 ∧
    ((s.method a d args).2.ends = false →
      Sim (s.method a d args).1 (Cell.step cells (.method a d args)).1 (after bs a.method.sig args)) := by
  have hm := faithful_of_not_broken a hb
  have ha' := ha
  obtain ⟨hl, hall, hpw⟩ := ha'
  have husable : ∀ i ∈ args, usable bs i := by
    intro i hi
    obtain ⟨k, hk⟩ := List.mem_iff_getElem?.1 hi
    have hkl := (List.getElem?_eq_some_iff.1 hk).1
    exact (hall _ (mem_zip_of_get (List.getElem?_eq_getElem (by omega : k < a.method.sig.params.length)) hk)).1
  obtain ⟨w', n, ecall, hinv⟩ := inv_call hs.inv a.method hm args ha
  obtain ⟨ws', h', hlw, hlh, hptr, hshape⟩ := call_shape hs.inv a.method hm args ha
  have hwlen := inv_length hs.inv
  unfold VWorld.method Cell.step
  simp only [ecall, passedArgs_faithful hm args hl, sim_reads hs args husable]
  cases hre : Cell.reads cells args with
  | none => exact ⟨rfl, fun h => by simp [VRes.ends] at h⟩
  | some os =>
    cases hex : exec a d os with
    | stuck => simp only [hex]; exact ⟨trivial, fun h => by simp [VRes.ends] at h⟩
    | panic m => simp only [hex]; exact ⟨trivial, fun h => by simp [VRes.ends] at h⟩
    | done wr ret =>
      simp only [hex]
      obtain ⟨hagree, hwr⟩ := exec_shape a d os wr ret hex
      -- the write
      have hw : (s.written (args.map some) wr = none ∧ Cell.written cells args wr = none) ∨
          ∃ objs cells', s.written (args.map some) wr = some objs ∧ Cell.written cells args wr = some cells' ∧ Contents s bs objs cells' := by
        cases wr with
        | none => exact .inr ⟨s.objs, cells, rfl, rfl, contents_refl hs⟩
        | some n =>
          cases args with
          | nil => exact .inl ⟨rfl, rfl⟩
          | cons i is => exact sim_write hs (husable i (by simp)) n
      rcases hw with ⟨h1, h2⟩ | ⟨objs, cells', h1, h2, hcon⟩
      · simp only [h1, h2]
        exact ⟨trivial, fun h => by simp [VRes.ends] at h⟩
      · simp only [h1, h2]
        have hold : ∀ (i : Nat) (b : B), ((a.method.sig.params.zip args).foldl passed bs)[i]? = some b →
            ∃ b0, bs[i]? = some b0 ∧ b.own = b0.own ∧ b.root = b0.root := by
          intro i b hb
          obtain ⟨b0, e0, _, e1, e2, _⟩ := foldl_passed_old _ hb
          exact ⟨b0, e0, e1, e2⟩
        obtain ⟨hO, hB⟩ := contents_mono (ws' := ws') hcon (fun i b h1 h2 => (hs.own i b h1 h2).1) hptr hold
        have hfl := foldl_passed_length (a.method.sig.params.zip args) bs
        have hnothing : a.method.sig.ret = .nothing → n = none ∧ Sim ⟨w', objs, s.paths⟩ cells' (after bs a.method.sig args) := by
          intro hr
          rw [hr] at hshape
          simp only [ecall, Prod.mk.injEq, Res.ok.injEq] at hshape
          obtain ⟨hw', hn⟩ := hshape
          refine ⟨hn, ?_⟩
          have haf : after bs a.method.sig args = (a.method.sig.params.zip args).foldl passed bs := by unfold after; rw [hr]; rfl
          subst hw'
          rw [haf] at hinv ⊢
          exact ⟨hinv, by rw [hfl]; exact hs.lenP, by rw [hfl]; exact hcon.2.1, by simp [hcon.1, hs.lenO, hlh], hO, hB⟩
        cases ret with
        | nothing =>
          obtain ⟨hn, hsim⟩ := hnothing hagree
          simp only [hn]
          exact ⟨trivial, fun _ => hsim⟩
        | val o =>
          obtain ⟨hn, hsim⟩ := hnothing hagree
          simp only [hn]
          exact ⟨trivial, fun _ => hsim⟩
        | box o =>
          obtain ⟨t, hr⟩ := hagree
          rw [hr] at hshape
          simp only [ecall, Prod.mk.injEq, Res.ok.injEq] at hshape
          obtain ⟨hw', hn⟩ := hshape
          have hlen : ws'.length = cells.length := by rw [hlw, hwlen, hs.lenC]
          simp only [hn, hlen]
          refine ⟨trivial, fun _ => ?_⟩
          have haf : after bs a.method.sig args = (a.method.sig.params.zip args).foldl passed bs ++ [⟨t, .owned, true, bs.length, 0, 0⟩] := by
            unfold after; rw [hr]; simp only [returned, hfl]
          subst hw'
          rw [haf] at hinv ⊢
          have hobl : objs.length = h'.length := by rw [hcon.1, hs.lenO, hlh]
          refine ⟨hinv, by simp [hfl, hs.lenP], by simp [hfl, hcon.2.1], by simp [hobl], ?_, ?_⟩
          · intro i b hbi ho
            rcases get_append_cases hbi with ⟨hbi, hlt⟩ | ⟨hi, hbi⟩
            · obtain ⟨e1, o1, e2, e3⟩ := hO i b hbi ho
              rw [hfl] at hlt
              refine ⟨by rw [List.getElem?_append_left (by rw [hs.lenP]; exact hlt)]; exact e1, o1,
                by rw [List.getElem?_append_left (by rw [hcon.2.1]; exact hlt)]; exact e2, ?_⟩
              intro p hp
              rw [ptrAt_append_old (by omega)] at hp
              have e4 := e3 p hp
              rw [List.getElem?_append_left (List.getElem?_eq_some_iff.1 e4).1]; exact e4
            · rw [hfl] at hi
              subst hi
              refine ⟨by rw [← hs.lenP]; simp, o, by rw [← hcon.2.1]; simp, ?_⟩
              intro p hp
              rw [show bs.length = ws'.length from by omega, ptrAt_append_new] at hp
              simp only [Wrapper.new, Option.some.injEq] at hp
              subst hp
              simp [← hobl]
          · intro i b hbi ho
            rcases get_append_cases hbi with ⟨hbi, hlt⟩ | ⟨hi, hbi⟩
            · obtain ⟨path, e1, e2⟩ := hB i b hbi ho
              rw [hfl] at hlt
              exact ⟨path, by rw [List.getElem?_append_left (by rw [hs.lenP]; exact hlt)]; exact e1,
                by rw [List.getElem?_append_left (by rw [hcon.2.1]; exact hlt)]; exact e2⟩
            · subst hbi; exact absurd rfl ho
        | borrow st =>
          obtain ⟨t, wr', hr⟩ := hagree
          rw [hr] at hshape
          obtain ⟨x, hshape⟩ := hshape
          simp only [ecall, Prod.mk.injEq, Res.ok.injEq] at hshape
          obtain ⟨hw', hn⟩ := hshape
          have hlen : ws'.length = cells.length := by rw [hlw, hwlen, hs.lenC]
          simp only [hn, hlen]
          refine ⟨trivial, fun _ => ?_⟩
          -- there is a first argument
          obtain ⟨q, hq, _⟩ : ∃ q, a.method.sig.params[0]? = some q ∧ isBox q = false := by
            have := hm.ret
            rw [hr] at this
            exact this.2
          obtain ⟨i0, rest, rfl⟩ : ∃ i0 rest, args = i0 :: rest := by
            cases args with
            | nil =>
              have := (List.getElem?_eq_some_iff.1 hq).1
              simp at hl; omega
            | cons i0 rest => exact ⟨i0, rest, rfl⟩
          obtain ⟨b, r, o, al, path, hbi, hbr, hro, hal, hpath, hob, hcr, _, hcase⟩ := sim_place hs (husable i0 (by simp))
          have hroot : rootOf ((a.method.sig.params.zip (i0 :: rest)).foldl passed bs) i0 = b.root := by
            have hmeta := foldl_passed_meta (a.method.sig.params.zip (i0 :: rest)) bs i0
            rw [hbi] at hmeta
            unfold rootOf
            cases hx : ((a.method.sig.params.zip (i0 :: rest)).foldl passed bs)[i0]? with
            | none => rw [hx] at hmeta; simp at hmeta
            | some b1 =>
              rw [hx] at hmeta
              simp only [Option.map_some, Option.some.injEq, Prod.mk.injEq] at hmeta
              simp [hmeta.2.2.1]
          obtain ⟨bn, haf, hbn1, hbn2⟩ : ∃ bn : B, after bs a.method.sig (i0 :: rest) =
              (a.method.sig.params.zip (i0 :: rest)).foldl passed bs ++ [bn] ∧ bn.own ≠ .owned ∧ bn.root = b.root := by
            unfold after
            rw [hr]
            simp only [returned, List.getElem?_cons_zero, hroot]
            exact ⟨_, rfl, by cases wr' <;> simp, rfl⟩
          have hbp : s.borrowPath ((i0 :: rest).map some) st = path ++ [st] := by
            simp [VWorld.borrowPath, hpath]
          have hpart : Cell.part cells ((i0 :: rest).headD 0) st = .view b.root (path ++ [st]) := by
            unfold Cell.part
            rw [List.headD_cons]
            rcases hcase with ⟨e1, e2, _⟩ | ⟨e1, _⟩
            · rw [e1] at hcr ⊢
              simp only [hcr, e2, List.nil_append]
            · simp only [e1]
          subst hw'
          rw [haf] at hinv ⊢
          rw [hbp, hpart]
          have hobl : objs.length = h'.length := by rw [hcon.1, hs.lenO, hlh]
          refine ⟨hinv, by simp [hfl, hs.lenP], by simp [hfl, hcon.2.1], hobl, ?_, ?_⟩
          · intro i c hci ho
            rcases get_append_cases hci with ⟨hci, hlt⟩ | ⟨hi, hci⟩
            · obtain ⟨e1, o1, e2, e3⟩ := hO i c hci ho
              rw [hfl] at hlt
              refine ⟨by rw [List.getElem?_append_left (by rw [hs.lenP]; exact hlt)]; exact e1, o1,
                by rw [List.getElem?_append_left (by rw [hcon.2.1]; exact hlt)]; exact e2, ?_⟩
              intro p hp
              rw [ptrAt_append_old (by omega)] at hp
              exact e3 p hp
            · subst hci; exact absurd ho hbn1
          · intro i c hci ho
            rcases get_append_cases hci with ⟨hci, hlt⟩ | ⟨hi, hci⟩
            · obtain ⟨path', e1, e2⟩ := hB i c hci ho
              rw [hfl] at hlt
              exact ⟨path', by rw [List.getElem?_append_left (by rw [hs.lenP]; exact hlt)]; exact e1,
                by rw [List.getElem?_append_left (by rw [hcon.2.1]; exact hlt)]; exact e2⟩
            · rw [hfl] at hi
              subst hci; subst hi
              exact ⟨path ++ [st], by rw [← hs.lenP]; simp, by rw [hbn2, ← hcon.2.1]; simp⟩

/-- Disposal changes nothing that can still be seen. -/
theorem sim_dispose {s : VWorld} {cells : List Cell} {bs : List B} (hs : Sim s cells bs) (i : Nat) (hl : i < bs.length) :
    (s.step (.dispose i)).2 = .ok none none ∧
    Sim (s.step (.dispose i)).1 cells (bs.modify i fun b => { b with full := false }) := by
  obtain ⟨w', n, e, hinv⟩ := inv_dispose hs.inv i hl
  obtain ⟨b, hb⟩ : ∃ b, bs[i]? = some b := ⟨_, List.getElem?_eq_getElem hl⟩
  obtain ⟨x, hx, _⟩ := ws_some hs.inv hb
  have hd := dispose_eq s.w.ws s.w.heap i x hx
  have hw : (⟨s.w.ws, s.w.heap⟩ : World) = s.w := rfl
  rw [hw, e] at hd
  have hfin : w'.ws = emptied s.w.ws i ∧ w'.heap.length = s.w.heap.length ∧ n = none := by
    split at hd
    · split at hd
      · injection hd with h1 h2; injection h2 with h2; subst h1; exact ⟨rfl, rfl, h2⟩
      · split at hd
        · injection hd with h1 h2; cases h2
        · injection hd with h1 h2; injection h2 with h2; subst h1; exact ⟨rfl, free_length _ _, h2⟩
    · injection hd with h1 h2; injection h2 with h2; subst h1; exact ⟨rfl, rfl, h2⟩
  obtain ⟨h1, h2, h3⟩ := hfin
  unfold VWorld.step
  simp only [e, h3]
  refine ⟨trivial, hinv, by simp [hs.lenP], by simp [hs.lenC], by simp [h2, hs.lenO], ?_, ?_⟩
  · intro j c hc ho
    have hmeta := full_meta bs i j
    rw [hc] at hmeta
    cases hb0 : bs[j]? with
    | none => rw [hb0] at hmeta; simp at hmeta
    | some c0 =>
      rw [hb0] at hmeta
      simp only [Option.map_some, Option.some.injEq, Prod.mk.injEq] at hmeta
      obtain ⟨e1, o, e2, e3⟩ := hs.own j c0 hb0 (hmeta.2.1 ▸ ho)
      refine ⟨e1, o, e2, fun p hp => e3 p ?_⟩
      simp only [h1] at hp
      exact ptr_of_emptied hp
  · intro j c hc ho
    have hmeta := full_meta bs i j
    rw [hc] at hmeta
    cases hb0 : bs[j]? with
    | none => rw [hb0] at hmeta; simp at hmeta
    | some c0 =>
      rw [hb0] at hmeta
      simp only [Option.map_some, Option.some.injEq, Prod.mk.injEq] at hmeta
      rw [hmeta.2.2.1]
      exact hs.bor j c0 hb0 (hmeta.2.1 ▸ ho)

theorem sim_init : Sim VWorld.empty [] [] := ⟨inv_init, rfl, rfl, rfl, by simp, by simp⟩

/-- Disciplined programs have the same results on both sides. -/
theorem sim_run (cs : List VCall) : ∀ (s : VWorld) (cells : List Cell) (bs bs' : List B), Sim s cells bs →
    Disciplined bs (cs.map VCall.erase) bs' → s.run cs = Cell.run cells cs := by
  induction cs with
  | nil => intros; rfl
  | cons c cs ih =>
    intro s cells bs bs' hs hd
    cases c with
    | method a d args =>
      cases hd with
      | method _ _ _ _ _ hb ha hd' =>
        obtain ⟨h1, h2⟩ := sim_method hs a hb d args ha
        have e1 : s.step (.method a d args) = s.method a d args := rfl
        cases hstep : s.method a d args with
        | mk s1 r1 => cases hcell : Cell.step cells (.method a d args) with
          | mk c1 r2 =>
            rw [hstep, hcell] at h1 h2
            simp only at h1 h2
            subst h1
            simp only [VWorld.run, Cell.run, e1, hstep, hcell]
            cases hr : r1.ends with
            | true => rfl
            | false =>
              simp only [Bool.false_eq_true, if_false]
              rw [ih s1 c1 _ bs' (h2 hr) hd']
    | dispose i =>
      cases hd with
      | dispose _ _ _ _ hl hd' =>
        obtain ⟨h1, h2⟩ := sim_dispose hs i hl
        have e2 : Cell.step cells (.dispose i) = (cells, .ok none none) := rfl
        cases hstep : s.step (.dispose i) with
        | mk s1 r1 =>
          rw [hstep] at h1 h2
          simp only at h1 h2
          subst h1
          simp only [VWorld.run, Cell.run, hstep, e2, VRes.ends, Bool.false_eq_true, if_false]
          rw [ih s1 cells _ bs' h2 hd']

end Verif.Ffi
