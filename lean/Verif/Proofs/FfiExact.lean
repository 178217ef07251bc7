import Verif.Proofs.Gc
/-!
# A call that succeeds was allowed

The converse of `inv_call`, for programs without vectors.
-/
namespace Verif.Ffi

/-- What `Inv` does not say of borrowed wrappers whose owner is gone. -/
structure Ext (ws : List W) (h : Heap) (bs : List B) : Prop where
  shape : ∀ (i : Nat) (b : B) (p : Ptr), bs[i]? = some b → b.own ≠ .owned → ptrAt ws i = some p →
    p.interior = true ∧ p.ty = b.cls ∧ p.writable = decide (b.own = .mutRef) ∧ p.ver = b.stamp ∧ p.alloc < h.length
  root : ∀ (i : Nat) (b : B) (p : Ptr) (k : Nat) (c : B) (q : Ptr), bs[i]? = some b → b.own ≠ .owned → ptrAt ws i = some p →
    bs[k]? = some c → c.own = .owned → ptrAt ws k = some q → q.alloc = p.alloc → k = b.root
  novec : ∀ al ∈ h, al.ty ≠ .rvec

theorem ext_init : Ext World.empty.ws World.empty.heap [] := by
  constructor <;> simp [World.empty]

theorem ext_shrink {ws ws' : List W} {h h' : Heap} {bs bs' : List B} (he : Ext ws h bs)
    (hp : ∀ (j : Nat) (p : Ptr), ptrAt ws' j = some p → ptrAt ws j = some p)
    (hb : ∀ m : Nat, bs'[m]?.map (fun b => (b.cls, b.own, b.root, b.stamp)) = bs[m]?.map fun b => (b.cls, b.own, b.root, b.stamp))
    (hl : h'.length = h.length) (hv : ∀ al ∈ h', al.ty ≠ .rvec) : Ext ws' h' bs' := by
  have hget : ∀ (j : Nat) (b' : B), bs'[j]? = some b' → ∃ b, bs[j]? = some b ∧ b'.cls = b.cls ∧ b'.own = b.own ∧
      b'.root = b.root ∧ b'.stamp = b.stamp := by
    intro j b' hb'
    have := hb j
    rw [hb'] at this
    cases hx : bs[j]? with
    | none => rw [hx] at this; cases this
    | some b => rw [hx] at this; simp only [Option.map_some, Option.some.injEq, Prod.mk.injEq] at this; exact ⟨b, rfl, this⟩
  constructor
  · intro i b p hbi ho hpi
    obtain ⟨b0, e0, e1, e2, e3, e4⟩ := hget i b hbi
    rw [e1, e2, e4, hl]
    exact he.shape i b0 p e0 (e2 ▸ ho) (hp i p hpi)
  · intro i b p k c q hbi ho hpi hck hco hq ha
    obtain ⟨b0, e0, e1, e2, e3, e4⟩ := hget i b hbi
    obtain ⟨c0, d0, d1, d2, d3, d4⟩ := hget k c hck
    rw [e3]
    exact he.root i b0 p k c0 q e0 (e2 ▸ ho) (hp i p hpi) d0 (d2 ▸ hco) (hp k q hq) ha
  · exact hv

theorem applyParam_novec (h : Heap) (x : Param × Ptr) (hv : ∀ al ∈ h, al.ty ≠ .rvec) : ∀ al ∈ h.applyParam x, al.ty ≠ .rvec := by
  have key : ∀ (f : Alloc → Alloc) (a : Nat), (∀ al, (f al).ty = al.ty) → ∀ al ∈ h.modify a f, al.ty ≠ .rvec := by
    intro f a hf al hal
    obtain ⟨j, hj⟩ := List.mem_iff_getElem?.1 hal
    rw [modify_get] at hj
    split at hj
    · cases hx : h[j]? with
      | none => rw [hx] at hj; cases hj
      | some y => rw [hx] at hj; simp at hj; subst hj; rw [hf]; exact hv y (List.mem_of_getElem? hx)
    · exact hv al (List.mem_of_getElem? hj)
  unfold Heap.applyParam
  split
  · exact hv
  · split
    · exact key _ _ fun _ => rfl
    · exact hv
  · exact key _ _ fun _ => rfl

theorem foldl_applyParam_novec (xs : List (Param × Ptr)) : ∀ (h : Heap), (∀ al ∈ h, al.ty ≠ .rvec) →
    ∀ al ∈ xs.foldl Heap.applyParam h, al.ty ≠ .rvec := by
  induction xs with
  | nil => intro h hv; exact hv
  | cons x xs ih => intro h hv; exact ih _ (applyParam_novec h x hv)

theorem ptrAt_append_old {ws : List W} {x : W} {i : Nat} (h : i < ws.length) : ptrAt (ws ++ [x]) i = ptrAt ws i := by
  unfold ptrAt; rw [List.getElem?_append_left h]

theorem ptrAt_append_new {ws : List W} {x : W} : ptrAt (ws ++ [x]) ws.length = x.w.inner := by
  unfold ptrAt; simp

theorem get_append_cases {α : Type} {l : List α} {a b : α} {i : Nat} (h : (l ++ [a])[i]? = some b) :
    l[i]? = some b ∧ i < l.length ∨ i = l.length ∧ b = a := by
  rcases Nat.lt_or_ge i l.length with hl | hl
  · rw [List.getElem?_append_left hl] at h; exact .inl ⟨h, hl⟩
  · rw [List.getElem?_append_right hl] at h
    rcases Nat.eq_or_lt_of_le hl with e | e
    · subst e; simp at h; exact .inr ⟨rfl, h.symm⟩
    · rw [List.getElem?_eq_none (by simp; omega)] at h; cases h

/-- A new owner. -/
theorem ext_box {ws : List W} {h : Heap} {bs : List B} (hi : Inv ws h bs) (he : Ext ws h bs) (t : NTy) (ht : t ≠ .rvec) :
    Ext (ws ++ [⟨t, Wrapper.new ⟨h.length, t, false, true, 0⟩ .owned⟩]) (h ++ [⟨t, true, 0⟩])
      (bs ++ [⟨t, .owned, true, bs.length, 0, 0⟩]) := by
  have hlen := inv_length hi
  constructor
  · intro i b p hb ho hp
    rcases get_append_cases hb with ⟨hb, hl⟩ | ⟨rfl, rfl⟩
    · rw [ptrAt_append_old (by omega)] at hp
      obtain ⟨h1, h2, h3, h4, h5⟩ := he.shape i b p hb ho hp
      exact ⟨h1, h2, h3, h4, by simp; omega⟩
    · exact absurd rfl ho
  · intro i b p k c q hb ho hp hc hco hq ha
    rcases get_append_cases hb with ⟨hb, hl⟩ | ⟨rfl, rfl⟩
    · rw [ptrAt_append_old (by omega)] at hp
      obtain ⟨_, _, _, _, h5⟩ := he.shape i b p hb ho hp
      rcases get_append_cases hc with ⟨hc, hl'⟩ | ⟨rfl, rfl⟩
      · rw [ptrAt_append_old (by omega)] at hq
        exact he.root i b p k c q hb ho hp hc hco hq ha
      · rw [← hlen, ptrAt_append_new] at hq
        simp only [Wrapper.new, Option.some.injEq] at hq
        subst hq
        simp only at ha
        omega
    · exact absurd rfl ho
  · intro al hal
    rcases List.mem_append.1 hal with hal | hal
    · exact he.novec al hal
    · simp at hal; subst hal; exact ht

/-- A new borrower. -/
theorem ext_borrow {ws : List W} {h : Heap} {bs : List B} (hi : Inv ws h bs) (he : Ext ws h bs) (t : NTy) (wr : Bool) (r : Nat) (rb : B)
    (q : Ptr) (hr : bs[r]? = some rb) (hro : rb.own = .owned) (hq : ptrAt ws r = some q) :
    Ext (ws ++ [⟨t, Wrapper.new ⟨q.alloc, t, true, wr, rb.moved⟩ (if wr then .mutRef else .sharedRef)⟩]) h
      (bs ++ [⟨t, if wr then .mutRef else .sharedRef, true, r, rb.moved, 0⟩]) := by
  have hlen := inv_length hi
  have hno : (if wr then Ownership.mutRef else .sharedRef) ≠ .owned := by cases wr <;> simp
  obtain ⟨_, _, _, hq4⟩ := hi.good r rb q hr hro hq
  have hqa := (List.getElem?_eq_some_iff.1 hq4).1
  constructor
  · intro i b p hb ho hp
    rcases get_append_cases hb with ⟨hb, hl⟩ | ⟨rfl, rfl⟩
    · rw [ptrAt_append_old (by omega)] at hp
      exact he.shape i b p hb ho hp
    · rw [← hlen, ptrAt_append_new] at hp
      simp only [Wrapper.new, Option.some.injEq] at hp
      subst hp
      exact ⟨rfl, rfl, by cases wr <;> rfl, rfl, hqa⟩
  · intro i b p k c q' hb ho hp hc hco hq' ha
    rcases get_append_cases hc with ⟨hc, hl'⟩ | ⟨rfl, rfl⟩
    · rw [ptrAt_append_old (by omega)] at hq'
      rcases get_append_cases hb with ⟨hb, hl⟩ | ⟨rfl, rfl⟩
      · rw [ptrAt_append_old (by omega)] at hp
        exact he.root i b p k c q' hb ho hp hc hco hq' ha
      · rw [← hlen, ptrAt_append_new] at hp
        simp only [Wrapper.new, Option.some.injEq] at hp
        subst hp
        exact hi.inj k r c rb q' q hc hco hr hro hq' hq ha
    · exact absurd hco hno
  · exact he.novec

theorem ptr_of_emptied {ws : List W} {i j : Nat} {p : Ptr} (h : ptrAt (emptied ws i) j = some p) : ptrAt ws j = some p := by
  rw [ptrAt_emptied] at h
  split at h
  · cases h
  · exact h

theorem full_meta (bs : List B) (i m : Nat) : (bs.modify i fun b => { b with full := false })[m]?.map (fun b => (b.cls, b.own, b.root, b.stamp)) =
    bs[m]?.map fun b => (b.cls, b.own, b.root, b.stamp) := by
  rw [modify_get]
  split
  · rw [Option.map_map]; rfl
  · rfl

/-- Pointers are only taken out while arguments are evaluated. -/
theorem evalPass_ptr (ws : List W) (args : List Nat) (q : Pass) (j : Nat) (p : Ptr)
    (h : ptrAt (World.evalPass ws args q).1 j = some p) : ptrAt ws j = some p := by
  unfold World.evalPass at h
  split at h
  · exact h
  · split at h
    · exact h
    · rename_i i _ y hy
      cases q with
      | inner => exact h
      | data => exact h
      | steal =>
        simp only at h
        cases hs : y.w.inner with
        | none => simp only [Wrapper.stealInner, hs] at h; exact h
        | some r =>
          simp only [Wrapper.stealInner, hs] at h
          rw [set_eq_emptied hy] at h
          exact ptr_of_emptied h

theorem evalPasses_ptr (qs : List Pass) : ∀ (ws ws' : List W) (args : List Nat) (o : Option (List Ptr)) (j : Nat) (p : Ptr),
    World.evalPasses ws args qs = (ws', o) → ptrAt ws' j = some p → ptrAt ws j = some p := by
  induction qs with
  | nil => intro ws ws' args o j p h hp; simp only [World.evalPasses, Prod.mk.injEq] at h; rw [h.1]; exact hp
  | cons q qs ih =>
    intro ws ws' args o j p h hp
    simp only [World.evalPasses] at h
    have h1 := evalPass_ptr ws args q j p
    cases e1 : World.evalPass ws args q with
    | mk w1 o1 =>
      rw [e1] at h h1
      cases o1 with
      | none => simp only [Prod.mk.injEq] at h; rw [← h.1] at hp; exact h1 hp
      | some p1 =>
        simp only at h
        cases e2 : World.evalPasses w1 args qs with
        | mk w2 o2 =>
          rw [e2] at h
          have h2 := ih w1 w2 args o2 j p e2
          cases o2 with
          | none => simp only [Prod.mk.injEq] at h; rw [← h.1] at hp; exact h1 (h2 hp)
          | some p2 => simp only [Prod.mk.injEq] at h; rw [← h.1] at hp; exact h1 (h2 hp)

/-- The pointers a faithful method passes are those of its arguments. -/
theorem evalPasses_args (params : List Param) : ∀ (n : Nat) (ws ws' : List W) (args : List Nat) (ptrs : List Ptr),
    World.evalPasses ws args (passList params n) = (ws', some ptrs) →
    ∀ (k : Nat) (p : Ptr), ptrs[k]? = some p → ∃ i, args[n + k]? = some i ∧ ptrAt ws i = some p := by
  induction params with
  | nil =>
    intro n ws ws' args ptrs h k p hk
    simp only [passList, World.evalPasses, Prod.mk.injEq, Option.some.injEq] at h
    rw [← h.2] at hk; simp at hk
  | cons q qs ih =>
    intro n ws ws' args ptrs h k p hk
    simp only [passList, World.evalPasses] at h
    have h1 := fun j p => evalPass_ptr ws args (if isBox q = true then Pass.steal n else Pass.inner n) j p
    cases e1 : World.evalPass ws args (if isBox q = true then Pass.steal n else Pass.inner n) with
    | mk w1 o1 =>
      rw [e1] at h h1
      cases o1 with
      | none => cases h
      | some p1 =>
        simp only at h
        cases e2 : World.evalPasses w1 args (passList qs (n + 1)) with
        | mk w2 o2 =>
          rw [e2] at h
          cases o2 with
          | none => cases h
          | some p2 =>
            simp only [Prod.mk.injEq, Option.some.injEq] at h
            rw [← h.2] at hk
            cases k with
            | zero =>
              simp only [List.getElem?_cons_zero, Option.some.injEq] at hk
              subst hk
              have e1' : (World.evalPass ws args (if isBox q = true then Pass.steal n else Pass.inner n)).2 = some p1 := by rw [e1]
              unfold World.evalPass at e1'
              have hidx : (if isBox q = true then Pass.steal n else Pass.inner n).idx = n := by split <;> rfl
              rw [hidx] at e1'
              cases ha : args[n]? with
              | none => rw [ha] at e1'; cases e1'
              | some i =>
                rw [ha] at e1'
                simp only at e1'
                refine ⟨i, by simpa using ha, ?_⟩
                unfold ptrAt
                cases hw : ws[i]? with
                | none => rw [hw] at e1'; cases e1'
                | some x =>
                  rw [hw] at e1'
                  simp only at e1'
                  split at e1'
                  · exact e1'
                  · cases hs : x.w.inner with
                    | none => simp only [Wrapper.stealInner, hs] at e1'; cases e1'
                    | some r => simp only [Wrapper.stealInner, hs] at e1'; simpa [hs] using e1'
                  · rename_i heq; exfalso; revert heq; split <;> intro h <;> cases h
            | succ k =>
              simp only [List.getElem?_cons_succ] at hk
              obtain ⟨i, hi, hpi⟩ := ih (n + 1) w1 w2 args p2 e2 k p hk
              exact ⟨i, by rw [← hi]; congr 1; omega, h1 i p hpi⟩

/-- A pointer that can be dereferenced belongs to a usable wrapper. -/
theorem usable_of_valid {ws : List W} {h : Heap} {bs : List B} (hi : Inv ws h bs) (he : Ext ws h bs) {i : Nat} {b : B} {p : Ptr}
    (hb : bs[i]? = some b) (hp : ptrAt ws i = some p) (hv : h.valid p = true) :
    usable bs i ∧ ∃ r q, bs[b.root]? = some r ∧ r.own = .owned ∧ ptrAt ws b.root = some q ∧ p.alloc = q.alloc := by
  have hfull : b.full = true := by rw [← ptrAt_isSome hi hb, hp]; rfl
  by_cases ho : b.own = .owned
  · have hr := hi.ownRoot i b hb ho
    exact ⟨⟨b, b, hb, by rw [hr]; exact hb, hfull, hfull, .inl ho⟩, b, p, by rw [hr]; exact hb, ho, by rw [hr]; exact hp, rfl⟩
  · obtain ⟨s1, s2, s3, s4, s5⟩ := he.shape i b p hb ho hp
    unfold Heap.valid at hv
    cases hal : h[p.alloc]? with
    | none => rw [hal] at hv; cases hv
    | some al =>
      rw [hal] at hv
      simp only [Bool.and_eq_true, s1, Bool.not_true, Bool.false_or, beq_iff_eq] at hv
      obtain ⟨k, c, q, hc, hco, hq, hqa⟩ := hi.noLeak p.alloc al hal hv.1 (he.novec al (List.mem_of_getElem? hal))
      have hk := he.root i b p k c q hb ho hp hc hco hq hqa
      subst hk
      obtain ⟨_, _, _, g4⟩ := hi.good b.root c q hc hco hq
      rw [hqa, hal] at g4
      injection g4 with g4
      have hcf : c.full = true := by rw [← ptrAt_isSome hi hc, hq]; rfl
      refine ⟨⟨b, c, hb, hc, hfull, hcf, .inr ?_⟩, c, q, hc, hco, hq, hqa.symm⟩
      rw [← s4, hv.2, g4]

/-- A call that succeeds was allowed. -/
theorem allowed_of_ok {w : World} {bs : List B} (hi : Inv w.ws w.heap bs) (he : Ext w.ws w.heap bs) (m : Method) (hm : Faithful m)
    (args : List Nat) (n : Option Nat) (hok : (w.call m args).2 = .ok n) : allowed bs m.sig args := by
  unfold World.call at hok
  split at hok
  · cases hok
  · rename_i ht
    split at hok
    · cases hok
    · simp only [Bool.not_eq_true', Bool.not_eq_false] at ht
      cases hev : World.evalPasses w.ws args m.pass with
      | mk ws' o =>
        rw [hev] at hok
        cases o with
        | none => cases hok
        | some ptrs =>
          simp only at hok
          rw [hm.pass] at hev
          have hargs := evalPasses_args m.sig.params 0 w.ws ws' args ptrs hev
          cases hn : w.heap.native m.sig ptrs with
          | error f => rw [hn] at hok; cases hok
          | ok r =>
            unfold Heap.native at hn
            split at hn
            · cases hn
            · rename_i hlen
              simp only [ne_eq, Decidable.not_not] at hlen
              simp only at hn
              split at hn
              · cases hn
              · rename_i hf
                rw [List.findSome?_eq_none_iff] at hf
                split at hn
                · rename_i hpw
                  unfold World.typed at ht
                  rw [beq_iff_eq, hm.args] at ht
                  have hla : args.length = m.sig.params.length := by
                    have := congrArg List.length ht
                    simpa using this
                  -- what is known of the arguments
                  have key : ∀ (k : Nat) (q : Param) (i : Nat), m.sig.params[k]? = some q → args[k]? = some i →
                      ∃ b p, bs[i]? = some b ∧ ptrAt w.ws i = some p ∧ ptrs[k]? = some p ∧ b.cls = q.ty ∧
                        w.heap.checkParam q p = none := by
                    intro k q i hq ha
                    have hk : k < ptrs.length := by rw [hlen]; exact (List.getElem?_eq_some_iff.1 hq).1
                    have hpk : ptrs[k]? = some ptrs[k] := List.getElem?_eq_getElem hk
                    obtain ⟨i', hi', hp'⟩ := hargs k _ hpk
                    rw [Nat.zero_add, ha] at hi'
                    injection hi' with hi'; subst hi'
                    have hcls := congrArg (fun l : List (Option NTy) => l[k]?) ht
                    simp only [List.getElem?_map, ha, hq, Option.map_some, Option.some.injEq] at hcls
                    cases hx : w.ws[i]? with
                    | none => rw [hx] at hcls; cases hcls
                    | some x =>
                      rw [hx] at hcls
                      simp only [Option.map_some, Option.some.injEq] at hcls
                      have hs := hi.same i
                      rw [hx] at hs
                      cases hb : bs[i]? with
                      | none => rw [hb] at hs; cases hs
                      | some b =>
                        rw [hb] at hs
                        simp only [Option.map_some, Option.some.injEq, Prod.mk.injEq] at hs
                        exact ⟨b, _, rfl, hp', hpk, by rw [← hs.1]; exact hcls, hf _ (mem_zip_of_get hq hpk)⟩
                  have valid : ∀ (q : Param) (p : Ptr), w.heap.checkParam q p = none → w.heap.valid p = true := by
                    intro q p hc
                    unfold Heap.checkParam at hc
                    split at hc
                    · cases hc
                    · rename_i hv; simpa using hv
                  refine ⟨hla, ?_, ?_⟩
                  · rintro ⟨q, i⟩ hx
                    obtain ⟨k, hk⟩ := List.mem_iff_getElem?.1 hx
                    obtain ⟨hq, ha⟩ := List.getElem?_zip_eq_some.1 hk
                    obtain ⟨b, p, hb, hp, _, hcls, hc⟩ := key k q i hq ha
                    refine ⟨(usable_of_valid hi he hb hp (valid q p hc)).1, b, hb, ?_⟩
                    unfold Heap.checkParam at hc
                    split at hc
                    · cases hc
                    · split at hc
                      · cases hc
                      · cases q with
                        | ref t => exact hcls
                        | refMut t mv =>
                          refine ⟨hcls, ?_⟩
                          intro ho
                          obtain ⟨_, _, s3, _⟩ := he.shape i b p hb (by rw [ho]; simp) hp
                          rw [ho] at s3
                          simp only [s3] at hc
                          simp at hc
                        | box t =>
                          refine ⟨hcls, ?_⟩
                          by_cases ho : b.own = .owned
                          · exact ho
                          · obtain ⟨s1, _⟩ := he.shape i b p hb ho hp
                            simp only [s1, if_true] at hc
                            cases hc
                  · rw [List.pairwise_iff_getElem] at hpw ⊢
                    intro j k hj hk hjk
                    rw [List.length_zip] at hj hk
                    have hpw := hpw j k (by rw [List.length_zip]; omega) (by rw [List.length_zip]; omega) hjk
                    simp only [List.getElem_zip] at hpw ⊢
                    intro hex hroot
                    have h1 := hpw hex
                    obtain ⟨b, p, hb, hp, hpk, _, hc⟩ := key j _ _ (List.getElem?_eq_getElem (by omega)) (List.getElem?_eq_getElem (by omega))
                    obtain ⟨b', p', hb', hp', hpk', _, hc'⟩ := key k _ _ (List.getElem?_eq_getElem (by omega)) (List.getElem?_eq_getElem (by omega))
                    rw [rootOf_eq hb, rootOf_eq hb'] at hroot
                    obtain ⟨_, r, q, _, _, hq, hpq⟩ := usable_of_valid hi he hb hp (valid _ p hc)
                    obtain ⟨_, r', q', _, _, hq', hpq'⟩ := usable_of_valid hi he hb' hp' (valid _ p' hc')
                    rw [hroot, hq'] at hq
                    injection hq with hq; subst hq
                    apply h1
                    rw [List.getElem?_eq_getElem (by omega)] at hpk hpk'
                    injection hpk with hpk; injection hpk' with hpk'
                    rw [hpk, hpk', hpq, hpq']
                · cases hn

/-- An allowed call keeps borrowers in step as well. -/
theorem ext_call {w : World} {bs : List B} (hi : Inv w.ws w.heap bs) (he : Ext w.ws w.heap bs) (m : Method) (hm : Faithful m)
    (args : List Nat) (ha : allowed bs m.sig args) (hv : m.sig.ret ≠ .box .rvec) :
    Ext (w.call m args).1.ws (w.call m args).1.heap (after bs m.sig args) := by
  have ha' := ha
  obtain ⟨hl, hall, hpw⟩ := ha'
  obtain ⟨ws', ptrs, e1, e2, e3, e4, e5, e6⟩ := inv_params m.sig.params args [] w.ws w.heap bs hi hl hall hpw
  have hn := native_ok hi m.sig args ha ptrs e2 e4
  have ht : World.typed w.ws args m.args = true := by rw [hm.args]; exact typed_of_allowed hi _ _ hl hall
  have hg := guards_of_allowed hi m hm args hl hall
  have hev : World.evalPasses w.ws args m.pass = (ws', some ptrs) := by rw [hm.pass]; exact e1
  have he3 : Ext ws' ((m.sig.params.zip ptrs).foldl Heap.applyParam w.heap) ((m.sig.params.zip args).foldl passed bs) :=
    ext_shrink he (fun j p => evalPasses_ptr _ _ _ _ _ j p hev) e6 (foldl_applyParam_length _ _) (foldl_applyParam_novec _ _ he.novec)
  unfold World.call
  simp only [ht, hg, Bool.not_true, Bool.false_eq_true, if_false, hev, hn]
  have hret := hm.ret
  unfold after
  cases hr : m.sig.ret with
  | nothing =>
    rw [hr] at hret
    simp only [Heap.applyRet, hret, returned]
    exact he3
  | box t =>
    rw [hr] at hret
    simp only [Heap.applyRet, hret, returned]
    exact ext_box e3 he3 t (fun e => hv (by rw [hr, e]))
  | borrow k t wr =>
    rw [hr] at hret
    obtain ⟨hret, q, hq, hqb⟩ := hret
    have hk := (List.getElem?_eq_some_iff.1 hq).1
    have hpk : ptrs[k]? = some (ptrs[k]'(by omega)) := List.getElem?_eq_getElem (by omega)
    have hak : args[k]? = some (args[k]'(by omega)) := List.getElem?_eq_getElem (by omega)
    obtain ⟨hu, b, hb, hf⟩ := hall _ (mem_zip_of_get hq hak)
    obtain ⟨p', r, rb, hp', hrp, hrb, hro, hal, _⟩ := usable_ptr hi hu hb
    have hpi := e4 k _ _ hak hpk
    rw [hpi] at hp'; injection hp' with hp'; subst hp'
    have hroot : ptrAt ws' b.root = some r := by
      rw [e5, hrp]
      rintro ⟨q', i'⟩ hx hbx heq
      simp only at hbx heq
      obtain ⟨_, b', hb', hf'⟩ := hall _ hx
      have hex : q'.exclusive = true := by cases q' <;> simp_all [isBox, Param.exclusive]
      have hown' : b'.own = .owned := by
        cases q' with
        | box t => exact hf'.2
        | _ => simp [isBox] at hbx
      simp only at hb'
      have hrt := hi.ownRoot i' b' hb' hown'
      obtain ⟨k', hk'⟩ := List.mem_iff_getElem?.1 hx
      have hkz : (m.sig.params.zip args)[k]? = some (q, args[k]'(by omega)) := List.getElem?_zip_eq_some.2 ⟨hq, hak⟩
      have hkk : k ≠ k' := by
        rintro rfl
        rw [hk'] at hkz; injection hkz with hkz; injection hkz with h1 h2
        subst h1; rw [hqb] at hbx; cases hbx
      have hneq : rootOf bs (args[k]'(by omega)) ≠ rootOf bs i' := by
        rw [List.pairwise_iff_getElem] at hpw
        obtain ⟨l1, g1⟩ := List.getElem?_eq_some_iff.1 hkz
        obtain ⟨l2, g2⟩ := List.getElem?_eq_some_iff.1 hk'
        rcases Nat.lt_or_ge k k' with hlt | hge
        · have := hpw k k' l1 l2 hlt
          rw [g1, g2] at this
          exact this (by simp [hex])
        · have := hpw k' k l2 l1 (by omega)
          rw [g1, g2] at this
          exact fun e => this (by simp [hex]) e.symm
      rw [rootOf_eq hb, rootOf_eq hb', hrt] at hneq
      exact hneq heq
    have hbs' : ∀ (j : Nat) (c : B), bs[j]? = some c → ∃ c', ((m.sig.params.zip args).foldl passed bs)[j]? = some c' ∧
        c'.own = c.own ∧ c'.root = c.root := by
      intro j c hc
      have := e6 j
      rw [hc] at this
      cases hx : ((m.sig.params.zip args).foldl passed bs)[j]? with
      | none => rw [hx] at this; simp at this
      | some c' => rw [hx] at this; simp only [Option.map_some, Option.some.injEq, Prod.mk.injEq] at this; exact ⟨c', rfl, this.2.1, this.2.2.1⟩
    obtain ⟨b1, hb1, _, hb1r⟩ := hbs' _ b hb
    obtain ⟨rb1, hrb1, hrb1o, _⟩ := hbs' _ rb hrb
    rw [hro] at hrb1o
    obtain ⟨_, _, _, hver⟩ := e3.good b.root rb1 r hrb1 hrb1o hroot
    simp only [Heap.applyRet, hpk, hret, returned, hak, rootOf_eq hb1, hb1r, hrb1, Option.map_some, Option.getD_some, hal, hver]
    exact ext_borrow e3 he3 t wr b.root rb1 r hrb1 hrb1o hroot

theorem ext_dispose {w : World} {bs : List B} (hi : Inv w.ws w.heap bs) (he : Ext w.ws w.heap bs) (i : Nat) (hl : i < bs.length) :
    Ext (w.dispose i).1.ws (w.dispose i).1.heap (bs.modify i fun b => { b with full := false }) := by
  obtain ⟨b, hb⟩ : ∃ b, bs[i]? = some b := ⟨_, List.getElem?_eq_getElem hl⟩
  obtain ⟨x, hx, _⟩ := ws_some hi hb
  have hv : ∀ (a : Nat), ∀ al ∈ w.heap.free a, al.ty ≠ .rvec := by
    intro a
    have := applyParam_novec w.heap (.box .rvec, ⟨a, .rvec, false, false, 0⟩) he.novec
    simpa [Heap.applyParam, Heap.free] using this
  have h1 : Ext (emptied w.ws i) w.heap (bs.modify i fun b => { b with full := false }) :=
    ext_shrink he (fun j p => ptr_of_emptied) (full_meta bs i) rfl he.novec
  have h2 : ∀ a, Ext (emptied w.ws i) (w.heap.free a) (bs.modify i fun b => { b with full := false }) := fun a =>
    ext_shrink he (fun j p => ptr_of_emptied) (full_meta bs i) (free_length _ _) (hv a)
  have hd := dispose_eq w.ws w.heap i x hx
  have hw : (⟨w.ws, w.heap⟩ : World) = w := rfl
  rw [hw] at hd
  rw [hd]
  split
  · split
    · exact h1
    · split
      · exact h1
      · exact h2 _
  · exact h1

theorem ret_not_rvec (a : Api) (ha : a ≠ .rvecNew) : a.method.sig.ret ≠ .box .rvec := by
  cases a <;> simp_all [Api.method]

/-- A program that runs to its end without a fault or an exception followed the rules. -/
theorem disciplined_of_ok (cs : List Call) : ∀ (w : World) (bs : List B), Inv w.ws w.heap bs → Ext w.ws w.heap bs →
    (∀ (a : Api) (args : List Nat), .method a args ∈ cs → a.broken = false ∧ a ≠ .rvecNew) →
    (∀ r ∈ (w.run cs).2, ∃ n, r = .ok n) → ∃ bs', Disciplined bs cs bs' := by
  induction cs with
  | nil => intro w bs _ _ _ _; exact ⟨bs, .nil bs⟩
  | cons c cs ih =>
    intro w bs hi he hc hok
    have hstep : ∃ n, (w.step c).2 = .ok n := by
      have : (w.step c).2 ∈ (w.run (c :: cs)).2 := by
        simp only [World.run]
        cases hs : w.step c with
        | mk w' r => cases r <;> simp
      exact hok _ this
    obtain ⟨n, hn⟩ := hstep
    have htail : ∀ r ∈ ((w.step c).1.run cs).2, ∃ n, r = .ok n := by
      intro r hr
      apply hok
      simp only [World.run]
      cases hs : w.step c with
      | mk w' r' =>
        rw [hs] at hn hr
        simp only at hn
        subst hn
        exact List.mem_cons_of_mem _ hr
    have hc' : ∀ (a : Api) (args : List Nat), .method a args ∈ cs → a.broken = false ∧ a ≠ .rvecNew :=
      fun a args h => hc a args (List.mem_cons_of_mem _ h)
    cases c with
    | method a args =>
      obtain ⟨hb, hv⟩ := hc a args (List.mem_cons_self ..)
      have hf := faithful_of_not_broken a hb
      have hal := allowed_of_ok hi he a.method hf args n hn
      obtain ⟨w', n', e, hi'⟩ := inv_call hi a.method hf args hal
      have he' := ext_call hi he a.method hf args hal (ret_not_rvec a hv)
      simp only [World.step] at htail
      rw [e] at he' htail
      obtain ⟨bs', hd⟩ := ih w' _ hi' he' hc' htail
      exact ⟨bs', .method bs a args cs bs' hb hal hd⟩
    | dispose i =>
      have hl : i < bs.length := by
        rcases Nat.lt_or_ge i bs.length with h | h
        · exact h
        · exfalso
          rw [← inv_length hi] at h
          simp [World.step, World.dispose, List.getElem?_eq_none h] at hn
      obtain ⟨w', n', e, hi'⟩ := inv_dispose hi i hl
      have he' := ext_dispose hi he i hl
      simp only [World.step] at htail
      rw [e] at he' htail
      obtain ⟨bs', hd⟩ := ih w' _ hi' he' hc' htail
      exact ⟨bs', .dispose bs i cs bs' hl hd⟩

end Verif.Ffi
