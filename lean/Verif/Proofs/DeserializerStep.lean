import Verif.Proofs.Deserializer
/-! # The deserializer: the invariant is preserved by every call -/
namespace Verif
open Arena Baseline Store

theorem created_field {s s' : Store PropType.Carrier} {props : List DynProp} {is : List Idx}
    {types : List PropType} (hs : props.map DynProp.propType = types)
    (hcr : Created s (props.map DynProp.typed) s' is) {n : Nat} {t : PropType} {prop : DynProp} {j : Idx}
    (ht : types[n]? = some t) (hp : props[n]? = some prop) (hj : is[n]? = some j) :
    ∃ x, s'.get t j = some x ∧ prop = DynProp.ofTyped t x ∧ s.get t j = none := by
  have hty : prop.propType = t := by
    rw [← hs, List.getElem?_map, hp] at ht; injection ht
  subst hty
  have h1 : (props.map DynProp.typed)[n]? = some prop.typed := by rw [List.getElem?_map, hp]; rfl
  obtain ⟨x, hx⟩ := prop.exists_typed
  have hT : prop.typed = ⟨prop.propType, x⟩ := 
    (congrArg DynProp.typed hx).trans (DynProp.typed_ofTyped _ _)
  rw [hT] at h1
  exact ⟨x, hcr.val n _ j h1 hj, hx, hcr.fresh n _ j h1 hj⟩

/-- What calls leave alone. -/
structure SameCtx (d d' : Des) : Prop where
  buf : d'.b.buf = d.b.buf
  contracts : d'.b.contracts = d.b.contracts
  nullObj : d'.b.nullObj = d.b.nullObj
  nullContract : d'.b.nullContract = d.b.nullContract

theorem SameCtx.refl (d : Des) : SameCtx d d := ⟨rfl, rfl, rfl, rfl⟩
theorem SameCtx.trans {d1 d2 d3 : Des} (h1 : SameCtx d1 d2) (h2 : SameCtx d2 d3) : SameCtx d1 d3 :=
  ⟨h2.buf.trans h1.buf, h2.contracts.trans h1.contracts, h2.nullObj.trans h1.nullObj,
    h2.nullContract.trans h1.nullContract⟩

theorem Des.RefsGrow.ctx {d d' : Des} (h : Des.RefsGrow d d') : SameCtx d d' := by
  obtain ⟨_, rfl⟩ := h.same; exact ⟨rfl, rfl, rfl, rfl⟩

/-- The invariant after one more object has been restored. -/
theorem DInv.addObject {d : Des} {done : List DoneObj} (hI : DInv d done) {C : ContractTy} {hh : Idx}
    {k p : Nat} {obj : FbObject} (hk : (k, hh) ∈ d.b.contracts.pairs) (hv : ValidObj C k d.b.buf p obj)
    {refs : List (Nat × Nat)} {props : List DynProp} {nulls : List (PropId × Nat)}
    (hrp : d.restoreProps ((C.stateIds hh).zip obj.idxs) = ({ d with objRefs := refs }, .ok (props, nulls)))
    (hs : props.map DynProp.propType = C.stateTypes) (hcs : C.channelTypes = [])
    {cons : Arena ContractData}
    (hm : d.b.base.contracts.modify hh
      (addObj (d.b.base.objects.insert (createdObj d.b.base hh props [])).2) = some cons) :
    ∃ m, Des.trackNulls (d.b.base.objects.insert (createdObj d.b.base hh props [])).2 nulls
        ⟨{ d.b with base := ⟨d.b.base.kind, (d.b.base.objects.insert (createdObj d.b.base hh props [])).1, cons,
            (createAll d.b.base.states (props.map DynProp.typed)).1, (createAll d.b.base.channels []).1⟩ },
          d.states, refs, d.objects⟩ =
        (⟨{ d.b with base := ⟨d.b.base.kind, (d.b.base.objects.insert (createdObj d.b.base hh props [])).1, cons,
            (createAll d.b.base.states (props.map DynProp.typed)).1, (createAll d.b.base.channels []).1⟩ },
          m, refs, d.objects⟩, .ok ()) ∧
      (d.objects.clashes (d.b.base.objects.insert (createdObj d.b.base hh props [])).2 p = false →
        DInv ⟨{ d.b with base := ⟨d.b.base.kind, (d.b.base.objects.insert (createdObj d.b.base hh props [])).1, cons,
            (createAll d.b.base.states (props.map DynProp.typed)).1, (createAll d.b.base.channels []).1⟩ },
          m, refs, d.objects.insert (d.b.base.objects.insert (createdObj d.b.base hh props [])).2 p⟩
          (done ++ [⟨p, (d.b.base.objects.insert (createdObj d.b.base hh props [])).2, C, hh⟩])) := by
  have hg := Des.restoreProps_grow ((C.stateIds hh).zip obj.idxs) d
  rw [hrp] at hg
  obtain ⟨hlen, hnd, hprop, hnull⟩ := Des.restoreProps_ok _ _ _ _ _ hrp
  have hcr := createAll_created hI.sInv (props.map DynProp.typed)
  have hobs : (createdObj d.b.base hh props []).states = (createAll d.b.base.states (props.map DynProp.typed)).2 := rfl
  have hobch : (createdObj d.b.base hh props []).channels = [] := rfl
  have hobc : (createdObj d.b.base hh props []).contract = hh := rfl
  have hobw : (createdObj d.b.base hh props []).warp = TimeWarp.default := rfl
  have hself := get_insert_self hI.oInv (createdObj d.b.base hh props [])
  have hfresh := insert_fresh hI.oInv (createdObj d.b.base hh props [])
  have hoinv := insert_inv hI.oInv (createdObj d.b.base hh props [])
  have hget := get_insert hI.oInv (createdObj d.b.base hh props [])
  have hkeep : ∀ (o : Idx) (ob : ObjectD), d.b.base.objects.get o = some ob →
      (d.b.base.objects.insert (createdObj d.b.base hh props [])).1.get o = some ob :=
    fun o ob h => get_insert_of_some hI.oInv _ _ h
  generalize hob : createdObj d.b.base hh props [] = ob at *
  generalize hins : d.b.base.objects.insert ob = ins at *
  obtain ⟨objs', o⟩ := ins
  simp only at *
  generalize hS : createAll d.b.base.states (props.map DynProp.typed) = SS at *
  obtain ⟨S', is⟩ := SS
  simp only at *
  subst hobs
  have hlen' : ob.states.length = C.stateTypes.length := by rw [hcr.len, ← hs]; simp
  -- fields of the new object
  have hfield : ∀ (n i : Nat) (t : PropType) (j : Idx), C.stateTypes[n]? = some t → obj.idxs[n]? = some i →
      ob.states[n]? = some j → ∃ prop x, props[n]? = some prop ∧ S'.get t j = some x ∧
        prop = DynProp.ofTyped t x ∧ d.b.base.states.get t j = none ∧
        Des.PropOk d { d with objRefs := refs } nulls ⟨t, ⟨n, hh⟩⟩ i prop := by
    intro n i t j h1 h2 h3
    obtain ⟨prop, e1, e2⟩ := hprop n _ i (stateIds_zip_mk (h := hh) h1 h2)
    obtain ⟨x, e3, e4, e5⟩ := created_field hs hcr h1 e1 h3
    exact ⟨prop, x, e1, e3, e4, e5, e2⟩
  -- null states
  have hnull' : ∀ (pid : PropId) (i : Nat), (pid, i) ∈ nulls → d.objRef i = none ∧
      ∃ (n : Nat) (j : Idx) (sts : List FbVal) (r : BitVec 32), pid = ⟨n, hh⟩ ∧
        C.stateTypes[n]? = some objT ∧ obj.idxs[n]? = some i ∧ ob.states[n]? = some j ∧
        d.b.buf.states = some sts ∧ sts[i]? = some (.objectHandle r) ∧
        ({ d with objRefs := refs } : Des).objRef i = some r.toNat := by
    intro pid i hmem
    obtain ⟨a0, n, id, sts, r, a1, a2, a3, a4, a5, a6⟩ := hnull pid i hmem
    obtain ⟨t, b1, b2, b3⟩ := stateIds_zip a1
    simp only at b2 b3
    subst b3
    simp only at a2 a3
    subst a3 a2
    have hlt : n < ob.states.length := by
      rw [hlen']; exact (List.getElem?_eq_some_iff.1 b1).1
    exact ⟨a0, n, ob.states[n], sts, r, rfl, b1, b2, List.getElem?_eq_getElem hlt, a4, a5, a6⟩
  let f : PropId → Idx := fun pid => (ob.states[pid.idx]?).getD ⟨0, 0⟩
  have hbase : ∀ (pid : PropId) (i : Nat), (pid, i) ∈ nulls →
      (⟨d.b.base.kind, objs', cons, S', (createAll d.b.base.channels []).1⟩ : Baseline).bindState pid o = .ok (f pid) := by
    intro pid i hmem
    obtain ⟨_, n, j, _, _, rfl, _, _, a3, _⟩ := hnull' pid i hmem
    rw [bindState_of_get hself]
    exact bindIdx_ok.2 ⟨hobc.symm, by simp [f, a3]⟩
  have hfj : ∀ (pid : PropId) (i : Nat), (pid, i) ∈ nulls → ∀ x : Nat, (x, f pid) ∉ d.states.pairs := by
    intro pid i hmem x hx
    obtain ⟨_, n, j, _, _, rfl, a1, a2, a3, _⟩ := hnull' pid i hmem
    obtain ⟨_, _, _, _, _, e, _⟩ := hfield n i objT j a1 a2 a3
    have : f ⟨n, hh⟩ = j := by simp [f, a3]
    rw [this] at hx
    rw [(hI.states x j hx).2] at e; cases e
  have hfi : ∀ (pid : PropId) (i : Nat), (pid, i) ∈ nulls → ∀ y : Idx, (i, y) ∉ d.states.pairs := by
    intro pid i hmem y hy
    obtain ⟨a0, _⟩ := hnull' pid i hmem
    obtain ⟨⟨_, _, _, _, e⟩, _⟩ := hI.states i y hy
    rw [e] at a0; cases a0
  have hj : (nulls.map fun e => f e.1).Nodup := by
    rw [List.Nodup, List.pairwise_map] at hnd ⊢
    refine hnd.imp_of_mem ?_
    rintro ⟨pid1, i1⟩ ⟨pid2, i2⟩ m1 m2 hne hf
    obtain ⟨_, n1, j1, _, _, rfl, a1, a2, a3, _⟩ := hnull' pid1 i1 m1
    obtain ⟨_, n2, j2, _, _, rfl, c1, c2, c3, _⟩ := hnull' pid2 i2 m2
    simp only [f, a3, c3, Option.getD_some] at hf
    subst hf
    obtain ⟨pr1, x1, p1, _, q1, _⟩ := hfield n1 i1 objT j1 a1 a2 a3
    obtain ⟨pr2, x2, p2, _, q2, _⟩ := hfield n2 i2 objT j1 c1 c2 c3
    have t1 : (props.map DynProp.typed)[n1]? = some ⟨objT, x1⟩ := by
      rw [List.getElem?_map, p1, q1]; simp [DynProp.typed_ofTyped]
    have t2 : (props.map DynProp.typed)[n2]? = some ⟨objT, x2⟩ := by
      rw [List.getElem?_map, p2, q2]; simp [DynProp.typed_ofTyped]
    have := hcr.distinct n1 n2 _ _ j1 t1 a3 t2 c3 rfl
    subst this
    rw [a2] at c2; injection c2 with c2
    exact hne c2
  obtain ⟨m, hm1, hm2, hm3⟩ := Des.trackNulls_ok o f nulls
    ⟨{ d.b with base := ⟨d.b.base.kind, objs', cons, S', (createAll d.b.base.channels []).1⟩ },
      d.states, refs, d.objects⟩ hI.smap hbase hnd hj hfi hfj
  refine ⟨m, hm1, fun hcl => ?_⟩
  simp only at hm3
  obtain ⟨hcl1, hcl2⟩ := BiMap.clashes_false.1 hcl
  obtain ⟨hknn, cdk, Ck, hcdk, hcid, hfind⟩ := hI.reg k hh hk
  have hgetc : ∀ k' : Idx, cons.get k' = if k' = hh then some (addObj o cdk) else d.b.base.contracts.get k' := by
    intro k'
    rw [get_modify hm]
    split
    · rw [hcdk]; rfl
    · rfl
  -- a field stays restored
  have hfk : ∀ (t : PropType) (i : Nat) (j : Idx), FieldOk d t i j →
      FieldOk ⟨{ d.b with base := ⟨d.b.base.kind, objs', cons, S', (createAll d.b.base.channels []).1⟩ },
        m, refs, d.objects.insert o p⟩ t i j := by
    rintro t i j ⟨sts, v, x, e1, e2, e3, e4⟩
    refine ⟨sts, v, x, e1, e2, hcr.frame t j x e3, ?_⟩
    rcases e4 with ⟨r, a1, a2, a3⟩ | e4
    · exact .inl ⟨r, a1, a2, (hm3 i j).2 (.inl a3)⟩
    · exact .inr e4
  refine ⟨hoinv, modify_inv hI.kInv hm, hcr.inv, hI.cmap, hm2, BiMap.insert_inv hI.omap _ _, hkeep _ _ hI.nullObj,
    ?_, ?_, ?_, ?_, ?_, ?_, ?_, ?_, ?_, ?_, ?_, ?_⟩
  · show cons.get d.b.nullContract = _
    rw [hgetc, if_neg hknn.symm]; exact hI.nullCon
  · intro k' cd' hg' hne
    have hg' : cons.get k' = some cd' := hg'
    rw [hgetc] at hg'
    split at hg'
    · rename_i e; subst e
      injection hg' with hg'; subst hg'
      obtain ⟨a1, a2, a3⟩ := hI.cons _ cdk hcdk hknn
      refine ⟨a1, a2, fun o' => ?_⟩
      simp only [addObj, List.mem_insert_iff, a3]
      constructor
      · rintro (rfl | ⟨x, hx, e⟩)
        · exact ⟨⟨p, o', C, k'⟩, by simp, rfl, rfl⟩
        · exact ⟨x, by simp [hx], e⟩
      · rintro ⟨x, hx, e1, e2⟩
        rcases List.mem_append.1 hx with hx | hx
        · exact .inr ⟨x, hx, e1, e2⟩
        · simp at hx; subst hx; exact .inl e1.symm
    · rename_i e
      obtain ⟨a1, a2, a3⟩ := hI.cons k' cd' hg' hne
      refine ⟨a1, a2, fun o' => ?_⟩
      rw [a3]
      constructor
      · rintro ⟨x, hx, e1⟩; exact ⟨x, by simp [hx], e1⟩
      · rintro ⟨x, hx, e1, e2⟩
        rcases List.mem_append.1 hx with hx | hx
        · exact ⟨x, hx, e1, e2⟩
        · simp at hx; subst hx; exact absurd e2.symm e
  · intro i k' hmem
    obtain ⟨a1, cd, C', a2, a3, a4⟩ := hI.reg i k' hmem
    refine ⟨a1, ?_⟩
    by_cases e : k' = hh
    · subst e
      refine ⟨addObj o cdk, C', ?_, ?_, a4⟩
      · show cons.get k' = _
        rw [hgetc, if_pos rfl]
      · rw [hcdk] at a2; injection a2 with a2; subst a2; exact a3
    · refine ⟨cd, C', ?_, a3, a4⟩
      show cons.get k' = _
      rw [hgetc, if_neg e, a2]
  · intro o' ob' hg'
    have hg' : objs'.get o' = some ob' := hg'
    rw [hget] at hg'
    split at hg'
    · rename_i e; subst e; exact .inr ⟨_, List.mem_append_right _ (List.mem_singleton.2 rfl), rfl⟩
    · rcases hI.live o' ob' hg' with h | ⟨x, hx, h⟩
      · exact .inl h
      · exact .inr ⟨x, by simp [hx], h⟩
  · intro x hx
    rcases List.mem_append.1 hx with hx | hx
    · obtain ⟨⟨ob', k', obj', a1, a2, a3, a4, a5, a6, a7, a8⟩, a9⟩ := hI.fields x hx
      exact ⟨⟨ob', k', obj', hkeep _ _ a1, a2, a3, a4, a5, a6, a7,
        fun n i t j b1 b2 b3 => hfk t i j (a8 n i t j b1 b2 b3)⟩, a9⟩
    · simp at hx; subst hx
      refine ⟨⟨ob, k, obj, hself, hobc, hobch, hobw, hk, hv, hlen', ?_⟩, ?_⟩
      · intro n i t j b1 b2 b3
        obtain ⟨prop, x, e1, e2, e3, e4, sts, v, e5, e6, e7⟩ := hfield n i t j b1 b2 b3
        refine ⟨sts, v, x, e5, e6, e2, ?_⟩
        rcases e7 with ⟨r, c1, c2, c3, c4, c5, c6⟩ | ⟨c1, c2⟩
        · simp only at c2 c4
          subst c2
          exact .inl ⟨r, c1, rfl, (hm3 i j).2 (.inr ⟨_, c4, by simp [f, b3]⟩)⟩
        · exact .inr ⟨c1, by rw [← e3]; exact c2⟩
      · simpa [ContractTy.channelTypes] using hcs
  · intro o' p'
    show (o', p') ∈ (d.objects.insert o p).pairs ↔ _
    rw [BiMap.mem_insert_fresh hcl, hI.objs]
    constructor
    · rintro (⟨rfl, rfl⟩ | ⟨x, hx, e⟩)
      · exact ⟨_, List.mem_append_right _ (List.mem_singleton.2 rfl), rfl, rfl⟩
      · exact ⟨x, by simp [hx], e⟩
    · rintro ⟨x, hx, e1, e2⟩
      rcases List.mem_append.1 hx with hx | hx
      · exact .inr ⟨x, hx, e1, e2⟩
      · simp at hx; subst hx; exact .inl ⟨e1.symm, e2.symm⟩
  · rw [List.map_append, List.nodup_append]
    refine ⟨hI.onodup, by simp, ?_⟩
    intro a ha b hb
    obtain ⟨x, hx, rfl⟩ := List.mem_map.1 ha
    simp at hb; subst hb
    intro e
    obtain ⟨⟨ob', _, _, a1, _⟩, _⟩ := hI.fields x hx
    rw [e, hfresh] at a1; cases a1
  · rw [List.map_append, List.nodup_append]
    refine ⟨hI.pnodup, by simp, ?_⟩
    intro a ha b hb
    obtain ⟨x, hx, rfl⟩ := List.mem_map.1 ha
    simp at hb; subst hb
    intro e
    exact hcl2 x.o ((hI.objs _ _).2 ⟨x, hx, rfl, e⟩)
  · intro x hx
    rcases List.mem_append.1 hx with hx | hx
    · exact hI.nullNot x hx
    · simp at hx; subst hx
      intro e
      have e : o = d.b.nullObj := e
      rw [e, hI.nullObj] at hfresh; cases hfresh
  · intro i j hmem
    rcases (hm3 i j).1 hmem with hmem | ⟨pid, hmem, hfp⟩
    · obtain ⟨⟨sts, r, a, b, c⟩, e⟩ := hI.states i j hmem
      exact ⟨⟨sts, r, a, b, hg.old _ _ c⟩, hcr.frame _ _ _ e⟩
    · obtain ⟨_, n, j', sts, r, rfl, a1, a2, a3, a4, a5, a6⟩ := hnull' pid i hmem
      have : j' = j := by simpa [f, a3] using hfp
      subst this
      refine ⟨⟨sts, r, a4, a5, a6⟩, ?_⟩
      obtain ⟨prop, x, e1, e2, e3, e4, sts', v, e5, e6, e7⟩ := hfield n i objT j' a1 a2 a3
      rcases e7 with ⟨r, c1, c2, c3, _⟩ | ⟨c1, _⟩
      · rw [e3] at c3
        have : x = d.b.nullObj := DynProp.ofTyped_inj (t := objT) c3
        rw [← this]; exact e2
      · rw [a4] at e5; injection e5 with e5; subst e5
        rw [a5] at e6; injection e6 with e6; subst e6
        cases c1
  · intro j v hg'
    have hg' : S'.get objT j = some v := hg'
    rcases hcr.only objT j with ⟨n, x, h1, h2⟩ | h
    · have hp : ∃ prop, props[n]? = some prop ∧ prop.typed = ⟨objT, x⟩ := by
        rw [List.getElem?_map] at h1
        cases hpn : props[n]? with
        | none => rw [hpn] at h1; cases h1
        | some prop => rw [hpn] at h1; injection h1 with h1; exact ⟨prop, rfl, h1⟩
      obtain ⟨prop, hpn, hpt⟩ := hp
      have ht : C.stateTypes[n]? = some objT := by
        rw [← hs, List.getElem?_map, hpn, Option.map_some, ← DynProp.typed_fst, hpt]
      have hlt : n < obj.idxs.length := by
        rw [hv.len]; exact (List.getElem?_eq_some_iff.1 ht).1
      have hi := List.getElem?_eq_getElem hlt
      obtain ⟨prop', x', e1, e2, e3, e4, sts', v', e5, e6, e7⟩ := hfield n _ objT j ht hi h2
      rcases e7 with ⟨r, c1, c2, c3, c4, _⟩ | ⟨c1, c2⟩
      · exact ⟨_, (hm3 _ j).2 (.inr ⟨_, c4, by simp [f, h2]⟩)⟩
      · -- a value of that type that is not an object reference cannot have been decoded
        exfalso
        subst e3
        cases v' <;> simp only [Des.decodeVal, FbVal.isObj, reduceCtorEq] at c1 c2 <;>
          first | cases c1 | skip
        all_goals first
          | (injection c2 with c2; exact absurd (congrArg DynProp.propType c2)
              (by rw [DynProp.propType_ofTyped]; simp [DynProp.propType, DynPrim.propType]))
          | skip
        · rename_i s; cases s
          · cases c2
          · injection c2 with c2; exact absurd (congrArg DynProp.propType c2)
              (by rw [DynProp.propType_ofTyped]; simp [DynProp.propType, DynPrim.propType])
        · split at c2
          · cases c2
          · injection c2 with c2; exact absurd (congrArg DynProp.propType c2)
              (by rw [DynProp.propType_ofTyped]; simp [DynProp.propType, DynPrim.propType])
    · rw [h] at hg'
      obtain ⟨i, hi⟩ := hI.store j v hg'
      exact ⟨i, (hm3 i j).2 (.inl hi)⟩
  · intro i j hmem
    rcases (hm3 i j).1 hmem with hmem | ⟨pid, hmem, hfp⟩
    · obtain ⟨x, hx, e⟩ := hI.owner i j hmem
      exact ⟨x, by simp [hx], e⟩
    · obtain ⟨_, n, j', sts, r, rfl, a1, a2, a3, a4, a5, a6⟩ := hnull' pid i hmem
      obtain ⟨objs, e1, e2⟩ := hv.here
      exact ⟨_, List.mem_append_right _ (List.mem_singleton.2 rfl), objs, obj, e1, e2, List.mem_of_getElem? a2⟩

end Verif
