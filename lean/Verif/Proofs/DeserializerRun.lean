import Verif.Proofs.DeserializerStep
/-! # The deserializer: runs of calls -/
namespace Verif
open Arena Baseline Store

/-! ## When restoring panics -/

/-- A value whose decoding panics although its tag passed validation. -/
def FbVal.noString : FbVal → Bool
  | .fbString none => true
  | _ => false

theorem decodeVal_panic {m : BiMap Nat Idx} {v : FbVal} {tag : FbTag} {t : PropType} {e : String}
    (ht : v.tag = some tag) (hq : tag.eqProp t = true) (ho : v.isObj = false)
    (h : Des.decodeVal m v = .panic e) : v.noString = true := by
  cases v <;> simp only [Des.decodeVal, reduceCtorEq] at h
  case none_ => simp only [FbVal.tag] at ht; injection ht with ht; subst ht; cases t <;> simp [FbTag.eqProp] at hq
  case unknown => cases ht
  case fbString s => cases s <;> simp_all [Des.decodeVal, FbVal.noString]
  case objectHandle => cases ho
  case contractDataHandle => split at h <;> cases h

theorem objTag {t : PropType} {r : BitVec 32} {tag : FbTag} (ht : (FbVal.objectHandle r).tag = some tag)
    (hq : tag.eqProp t = true) : t = objT := by
  simp only [FbVal.tag] at ht; injection ht with ht; subst ht
  cases t with
  | prim p => cases p <;> first | rfl | (simp [FbTag.eqProp] at hq)
  | vec _ => simp [FbTag.eqProp] at hq

theorem Des.restoreProps_panic (L : List (DynId × Nat)) (d d' : Des) (e : String)
    (hv : ∀ id i, (id, i) ∈ L → ∃ sts v tag, d.b.buf.states = some sts ∧ sts[i]? = some v ∧
      v.tag = some tag ∧ tag.eqProp id.ty = true)
    (h : d.restoreProps L = (d', .panic e)) :
    ∃ sts v, ∃ i ∈ L.map Prod.snd, d.b.buf.states = some sts ∧ sts[i]? = some v ∧ v.noString = true := by
  induction L generalizing d with
  | nil => simp [restoreProps] at h
  | cons x L ih =>
    obtain ⟨id, i⟩ := x
    obtain ⟨sts0, v0, tag, e1, e2, e3, e4⟩ := hv id i (by simp)
    unfold restoreProps at h
    rw [e1] at h
    simp only [e2] at h
    split at h
    · rename_i hn; cases hn
    · rename_i r hr
      injection hr with hr; subst hr
      split at h
      · cases h
      · split at h
        · rename_i hty; exact absurd (objTag e3 e4) hty
        · split at h
          · cases h
          · rename_i heq
            obtain ⟨s', v', i', g1, g2⟩ := ih { d with objRefs := (i, r.toNat) :: d.objRefs } (fun id' i' hm => hv id' i' (by simp [hm])) (by rw [heq]; simpa using h)
            exact ⟨s', v', i', List.mem_cons_of_mem _ g1, g2⟩
          · cases h
    · rename_i v hno hvv
      injection hvv with hvv; subst hvv
      have hno : v0.isObj = false := by
        cases v0 <;> first | rfl | exact absurd rfl (hno _)
      split at h
      · cases h
      · rename_i m hm
        exact ⟨sts0, v0, i, by simp, e1, e2, decodeVal_panic e3 e4 hno hm⟩
      · split at h
        · cases h
        · rename_i heq
          obtain ⟨s', v', i', g1, g2⟩ := ih d (fun id' i' hm => hv id' i' (by simp [hm])) (by rw [heq]; simpa using h)
          exact ⟨s', v', i', List.mem_cons_of_mem _ g1, g2⟩
        · cases h

/-! ## One object -/

theorem deserializeObj_unf (d : Des) (C : ContractTy) (hh : Idx) (p : Nat) (obj : FbObject) :
    d.deserializeObj C hh p obj =
      (match d.restoreProps ((C.stateIds hh).zip obj.idxs) with
      | (d1, .err m) => (d1, .err m)
      | (d1, .panic m) => (d1, .panic m)
      | (d1, .ok (props, nulls)) =>
        match d1.b.base.objectCreate C hh props [] with
        | (b1, .err m) => ({ d1 with b := { d1.b with base := b1 } }, .err m)
        | (b1, .panic m) => ({ d1 with b := { d1.b with base := b1 } }, .panic m)
        | (b1, .ok o) =>
          match Des.trackNulls o nulls { d1 with b := { d1.b with base := b1 } } with
          | (d2, .err m) => (d2, .err m)
          | (d2, .panic m) => (d2, .panic m)
          | (d2, .ok ()) =>
            let d3 := { d2 with objects := d2.objects.insert o p }
            if d2.objects.clashes o p then (d3, .panic "the object was already added!") else (d3, .ok ())) := by
  unfold Des.deserializeObj FbObject.idxs
  cases obj.states <;> rfl

/-- What restoring one validated object does. -/
theorem deserializeObj_spec {d : Des} {done : List DoneObj} (hI : DInv d done) {C : ContractTy} {hh : Idx}
    {k p : Nat} {obj : FbObject} (hk : (k, hh) ∈ d.b.contracts.pairs) (hv : ValidObj C k d.b.buf p obj) :
    ((d.deserializeObj C hh p obj).2 = .ok () ∧ SameCtx d (d.deserializeObj C hh p obj).1 ∧
      p ∉ done.map DoneObj.p ∧ ∃ o, DInv (d.deserializeObj C hh p obj).1 (done ++ [⟨p, o, C, hh⟩])) ∨
    ((d.deserializeObj C hh p obj).2.isErr = true ∧ SameCtx d (d.deserializeObj C hh p obj).1 ∧
      (d.deserializeObj C hh p obj).1.b.base = d.b.base ∧
      (d.deserializeObj C hh p obj).1.objects = d.objects ∧
      DInv (d.deserializeObj C hh p obj).1 done) ∨
    ((d.deserializeObj C hh p obj).2.isPanic = true ∧
      (p ∈ done.map DoneObj.p ∨ ∃ sts v, ∃ i ∈ obj.idxs, d.b.buf.states = some sts ∧ sts[i]? = some v ∧ v.noString = true)) := by
  rw [deserializeObj_unf]
  have hg := Des.restoreProps_grow ((C.stateIds hh).zip obj.idxs) d
  cases hrp : d.restoreProps ((C.stateIds hh).zip obj.idxs) with
  | mk d1 r =>
    rw [hrp] at hg
    obtain ⟨refs, hd1⟩ := hg.same
    simp only at hd1
    have hd1' : d1.b = d.b := by rw [hd1]
    cases r with
    | err m =>
      right; left
      exact ⟨rfl, hg.ctx, by rw [hd1'], by rw [hd1], hI.grow hg⟩
    | panic m =>
      right; right
      have hp := Des.restoreProps_panic _ _ _ _ ?_ hrp
      · refine ⟨rfl, .inr ?_⟩
        obtain ⟨sts, v, i, g1, g2⟩ := hp
        obtain ⟨x, g3, rfl⟩ := List.mem_map.1 g1
        exact ⟨sts, v, _, (List.of_mem_zip (b := x.2) g3).2, g2⟩
      intro id i hm
      obtain ⟨n, hn⟩ := List.getElem?_of_mem hm
      obtain ⟨t, a1, a2, a3⟩ := stateIds_zip hn
      simp only at a2 a3
      subst a3
      exact hv.types n i t a2 a1
    | ok pn =>
      obtain ⟨props, nulls⟩ := pn
      simp only
      subst hd1
      simp only at hd1' ⊢
      rcases objectCreate_cases d.b.base C hh props [] with ⟨⟨cd, hcd⟩, hs, hcs⟩ | ⟨h1, h2, _⟩
      · obtain ⟨cons, hm, hoc⟩ := objectCreate_ok (cs := []) hcd hs hcs
        rw [hoc]
        simp only
        obtain ⟨m, ht, hadd⟩ := hI.addObject hk hv hrp hs (by simpa using hcs.symm) hm
        have ht' : Des.trackNulls (d.b.base.objects.insert (createdObj d.b.base hh props [])).2 nulls
            { ({ d with objRefs := refs } : Des) with b := { d.b with base := ⟨d.b.base.kind, (d.b.base.objects.insert (createdObj d.b.base hh props [])).1, cons,
            (createAll d.b.base.states (props.map DynProp.typed)).1, (createAll d.b.base.channels []).1⟩ } } = _ := ht
        rw [ht']
        simp only
        cases hcl : d.objects.clashes (d.b.base.objects.insert (createdObj d.b.base hh props [])).2 p with
        | false =>
          left
          refine ⟨rfl, ⟨rfl, rfl, rfl, rfl⟩, ?_, _, hadd hcl⟩
          intro hmem
          obtain ⟨x, hx, e⟩ := List.mem_map.1 hmem
          exact (BiMap.clashes_false.1 hcl).2 x.o ((hI.objs _ _).2 ⟨x, hx, rfl, e⟩)
        | true =>
          right; right
          refine ⟨rfl, .inl ?_⟩
          apply Classical.byContradiction
          intro hno
          have : d.objects.clashes (d.b.base.objects.insert (createdObj d.b.base hh props [])).2 p = false := by
            refine BiMap.clashes_false.2 ⟨?_, ?_⟩
            · intro q hq
              obtain ⟨x, hx, e1, e2⟩ := (hI.objs _ _).1 hq
              obtain ⟨⟨ob, _, _, a1, _⟩, _⟩ := hI.fields x hx
              rw [e1, insert_fresh hI.oInv] at a1; cases a1
            · intro o ho
              obtain ⟨x, hx, e1, e2⟩ := (hI.objs _ _).1 ho
              exact hno (List.mem_map.2 ⟨x, hx, e2⟩)
          rw [this] at hcl; cases hcl
      · right; left
        cases hoc : d.b.base.objectCreate C hh props [] with
        | mk b1 r =>
          rw [hoc] at h1 h2
          simp only at h1 h2
          subst h1
          cases r with
          | ok o => cases h2
          | panic m => cases h2
          | err m => exact ⟨rfl, ⟨rfl, rfl, rfl, rfl⟩, rfl, rfl, hI.grow hg⟩

/-! ## When validation panics -/

theorem checkStates_panic {sts : List FbVal} {is : List (BitVec 32)} {ts : List PropType} {e : String}
    (h : checkStates sts is ts = .panic e) :
    (∃ i ∈ is, sts.length ≤ i.toNat) ∨ ∃ i ∈ is, ∃ v, sts[i.toNat]? = some v ∧ v.tag = none := by
  induction is generalizing ts with
  | nil => simp [checkStates] at h
  | cons i is ih =>
    cases ts with
    | nil => simp [checkStates] at h
    | cons t ts =>
      simp only [checkStates] at h
      cases hs : sts[i.toNat]? with
      | none => exact .inl ⟨i, by simp, List.getElem?_eq_none_iff.1 hs⟩
      | some v =>
        rw [hs] at h; simp only at h
        cases ht : v.tag with
        | none => exact .inr ⟨i, by simp, v, hs, ht⟩
        | some tag =>
          rw [ht] at h; simp only at h
          split at h
          · rcases ih h with ⟨j, hj, hl⟩ | h
            · exact .inl ⟨j, by simp [hj], hl⟩
            · obtain ⟨j, hj, h⟩ := h
              exact .inr ⟨j, by simp [hj], h⟩
          · cases h

/-- An object table without the defects that make the deserializer crash: a state index out of range, an unknown discriminant, a
string table without a string. -/
def Sane (buf : FbBaseline) (obj : FbObject) : Prop :=
  ∀ sts, buf.states = some sts → ∀ i ∈ obj.idxs, ∃ v, sts[i]? = some v ∧ v.tag ≠ none ∧ v.noString = false

theorem validateObj_panic {C : ContractTy} {k : Nat} {buf : FbBaseline} {p : Nat} {e : String}
    {objs : List FbObject} (ho : buf.objects = some objs) (hp : p < objs.length) (hs : Sane buf objs[p]) :
    validateObj C k buf p ≠ .panic e := by
  intro h
  unfold validateObj at h
  rw [ho] at h
  simp only [List.getElem?_eq_getElem hp] at h
  split at h
  · cases h
  · split at h
    · cases h
    · split at h
      · cases h
      · split at h
        · cases h
        · rename_i is his
          split at h
          · cases h
          · rename_i sts hsts
            split at h
            · cases h
            · cases h
            · rename_i hck
              have hmem : ∀ i ∈ is, i.toNat ∈ objs[p].idxs := by
                intro i hi
                simp only [FbObject.idxs, his, List.mem_map]
                exact ⟨i, hi, rfl⟩
              rcases checkStates_panic hck with ⟨i, hi, hl⟩ | ⟨i, hi, v, hv, ht⟩
              · obtain ⟨v, e1, _⟩ := hs sts hsts i.toNat (hmem i hi)
                have := (List.getElem?_eq_some_iff.1 e1).1
                omega
              · obtain ⟨v', e1, e2, _⟩ := hs sts hsts i.toNat (hmem i hi)
                rw [hv] at e1; injection e1 with e1; subst e1
                exact e2 ht

/-! ## One call -/

theorem mem_objectsWithContract {k : Nat} {objs : List FbObject} {p : Nat} :
    p ∈ objectsWithContract k objs ↔ ∃ obj c, objs[p]? = some obj ∧ obj.contract = some c ∧ c.toNat = k := by
  unfold objectsWithContract
  simp only [List.mem_map, List.mem_filter]
  constructor
  · rintro ⟨⟨obj, q⟩, ⟨h1, h2⟩, rfl⟩
    rw [List.mem_zipIdx_iff_getElem?] at h1
    simp only at h1 h2 ⊢
    cases hc : obj.contract with
    | none => rw [hc] at h2; cases h2
    | some c => rw [hc] at h2; exact ⟨obj, c, h1, hc, by simpa using h2⟩
  · rintro ⟨obj, c, h1, h2, h3⟩
    refine ⟨(obj, p), ⟨?_, ?_⟩, rfl⟩
    · rw [List.mem_zipIdx_iff_getElem?]; exact h1
    · simp [h2, h3]

theorem nodup_objectsWithContract (k : Nat) (objs : List FbObject) : (objectsWithContract k objs).Nodup := by
  unfold objectsWithContract
  have h : (objs.zipIdx.map Prod.snd).Nodup := by
    rw [List.zipIdx_map_snd]; exact List.nodup_range'
  exact h.sublist (List.filter_sublist.map _)

theorem objectLoop_spec {C : ContractTy} {hh : Idx} {k : Nat} (ps : List Nat) (d : Des) (done : List DoneObj)
    (hI : DInv d done) (hk : (k, hh) ∈ d.b.contracts.pairs) :
    (Des.objectLoop C hh k ps d).2.isPanic = true ∨
    ∃ new, DInv (Des.objectLoop C hh k ps d).1 (done ++ new) ∧ SameCtx d (Des.objectLoop C hh k ps d).1 ∧
      (∀ x ∈ new, x.C = C ∧ x.h = hh ∧ x.p ∈ ps) ∧ new.map DoneObj.p <+: ps ∧
      ((Des.objectLoop C hh k ps d).2 = .ok () → new.map DoneObj.p = ps) := by
  induction ps generalizing d done with
  | nil =>
    right
    exact ⟨[], by simpa [Des.objectLoop] using hI, SameCtx.refl d, by simp, by simp, by simp⟩
  | cons p ps ih =>
    unfold Des.objectLoop
    cases hval : validateObj C k d.b.buf p with
    | err m => right; exact ⟨[], by simpa using hI, SameCtx.refl d, by simp, by simp, by simp⟩
    | panic m => left; rfl
    | ok obj =>
      have hv := validateObj_ok hval
      simp only
      rcases hdo : d.deserializeObj C hh p obj with ⟨d1, r⟩
      have hsp := deserializeObj_spec hI hk hv
      rw [hdo] at hsp
      simp only at hsp ⊢
      rcases hsp with ⟨h1, h2, h3, o, h4⟩ | ⟨h1, h2, h3, h4, h5⟩ | ⟨h1, _⟩
      · subst h1
        simp only
        rcases ih d1 _ h4 (by rw [h2.contracts]; exact hk) with h | ⟨new, a1, a2, a3, a4, a5⟩
        · exact .inl h
        · right
          refine ⟨⟨p, o, C, hh⟩ :: new, by simpa using a1, h2.trans a2, ?_, ?_, ?_⟩
          · intro x hx
            rcases List.mem_cons.1 hx with rfl | hx
            · exact ⟨rfl, rfl, by simp⟩
            · obtain ⟨b1, b2, b3⟩ := a3 x hx; exact ⟨b1, b2, by simp [b3]⟩
          · simpa using a4
          · intro h; simp [a5 h]
      · cases r with
        | ok _ => cases h1
        | panic _ => cases h1
        | err m => right; exact ⟨[], by simpa using h5, h2, by simp, by simp, by simp⟩
      · cases r with
        | ok _ => cases h1
        | panic _ => left; rfl
        | err m => cases h1

theorem objectLoop_noPanic {C : ContractTy} {hh : Idx} {k : Nat} (ps : List Nat) (d : Des) (done : List DoneObj)
    (hI : DInv d done) (hk : (k, hh) ∈ d.b.contracts.pairs) (hnd : ps.Nodup)
    (hin : ∀ p ∈ ps, ∃ objs, d.b.buf.objects = some objs ∧ ∃ hp : p < objs.length, Sane d.b.buf objs[p])
    (hnew : ∀ p ∈ ps, p ∉ done.map DoneObj.p) :
    (Des.objectLoop C hh k ps d).2.isPanic = false := by
  induction ps generalizing d done with
  | nil => rfl
  | cons p ps ih =>
    unfold Des.objectLoop
    obtain ⟨hnp, hnd⟩ := List.nodup_cons.1 hnd
    cases hval : validateObj C k d.b.buf p with
    | err m => rfl
    | panic m =>
      obtain ⟨objs, e1, e2, e3⟩ := hin p (by simp)
      exact absurd hval (validateObj_panic e1 e2 e3)
    | ok obj =>
      have hv := validateObj_ok hval
      simp only
      rcases hdo : d.deserializeObj C hh p obj with ⟨d1, r⟩
      have hsp := deserializeObj_spec hI hk hv
      rw [hdo] at hsp
      simp only at hsp ⊢
      rcases hsp with ⟨h1, h2, h3, o, h4⟩ | ⟨h1, h2, h3, h4, h5⟩ | ⟨h1, h⟩
      · subst h1
        simp only
        refine ih d1 _ h4 (by rw [h2.contracts]; exact hk) hnd
          (fun q hq => by rw [h2.buf]; exact hin q (by simp [hq])) ?_
        intro q hq
        simp only [List.map_append, List.map_cons, List.map_nil, List.mem_append, List.mem_singleton, not_or]
        refine ⟨hnew q (by simp [hq]), ?_⟩
        rintro rfl; exact hnp hq
      · cases r with
        | ok _ => cases h1
        | panic _ => cases h1
        | err m => rfl
      · rcases h with h | ⟨sts, v, i, hi, e1, e2, e3⟩
        · exact absurd h (hnew p (by simp))
        · obtain ⟨objs, g1, g2, g3⟩ := hin p (by simp)
          obtain ⟨objs', g4, g5⟩ := hv.here
          rw [g1] at g4; injection g4 with g4; subst g4
          rw [List.getElem?_eq_getElem g2] at g5; injection g5 with g5
          rw [g5] at g3
          obtain ⟨v', f1, _, f3⟩ := g3 sts e1 i hi
          rw [e2] at f1; injection f1 with f1; subst f1
          rw [f3] at e3; cases e3

end Verif
