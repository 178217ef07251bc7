import Verif.Proofs.DesResult
/-! # The deserializer: when it succeeds -/
namespace Verif
open Arena Baseline Store Spec

theorem Des.restoreProps_refs (L : List (DynId × Nat)) (d : Des) (i : Nat)
    (h : ((d.restoreProps L).1.objRef i).isSome = true) : (d.objRef i).isSome = true ∨ ∃ id, (id, i) ∈ L := by
  induction L generalizing d with
  | nil => exact .inl h
  | cons e L ih =>
    obtain ⟨id, j⟩ := e
    unfold restoreProps at h
    split at h
    · exact .inl h
    · split at h
      · exact .inl h
      · rename_i r hr
        split at h
        · exact .inl h
        · have key : ∀ d' : Des, (d'.objRef i).isSome = true → ((d'.objRef i).isSome = true →
              (({ d with objRefs := (j, r.toNat) :: d.objRefs } : Des).objRef i).isSome = true ∨ ∃ id, (id, i) ∈ L) →
              (d.objRef i).isSome = true ∨ ∃ id', (id', i) ∈ (id, j) :: L := by
            intro d' h1 h2
            rcases h2 h1 with h3 | ⟨id', h3⟩
            · rw [objRef_cons] at h3
              split at h3
              · rename_i e; subst e; exact .inr ⟨id, by simp⟩
              · exact .inl h3
            · exact .inr ⟨id', by simp [h3]⟩
          simp only [] at h
          have ih' := ih { d with objRefs := (j, r.toNat) :: d.objRefs }
          split at h
          · exact key _ h (fun hh => .inl hh)
          · split at h <;> (rename_i heq; rw [heq] at ih'; exact key _ h ih')
      · split at h
        · exact .inl h
        · exact .inl h
        · have ih' := ih d
          split at h <;> (rename_i heq; rw [heq] at ih'; exact (ih' h).imp_right fun ⟨id', h⟩ => ⟨id', by simp [h]⟩)

/-- A field the property loop can restore. -/
def Restores (d : Des) (id : DynId) (i : Nat) : Prop :=
  ∃ sts v, d.b.buf.states = some sts ∧ sts[i]? = some v ∧
    ((∃ r, v = .objectHandle r ∧ id.ty = objT ∧ d.objRef i = none) ∨
     (v.isObj = false ∧ ∃ p, Des.decodeVal d.b.contracts v = .ok p ∧ p.propType = id.ty))

theorem Des.restoreProps_succeeds (L : List (DynId × Nat)) (d : Des)
    (hnd : ∀ (n n' i : Nat) (r : BitVec 32), (L.map Prod.snd)[n]? = some i → (L.map Prod.snd)[n']? = some i →
      StateAt d.b.buf i (.objectHandle r) → n = n')
    (h : ∀ id i, (id, i) ∈ L → Restores d id i) :
    ∃ d' ps ns, d.restoreProps L = (d', .ok (ps, ns)) ∧ ps.map DynProp.propType = L.map fun e => e.1.ty := by
  induction L generalizing d with
  | nil => exact ⟨d, [], [], rfl, rfl⟩
  | cons e L ih =>
    obtain ⟨id, i⟩ := e
    have hnd2 : ∀ (n n' i : Nat) (r : BitVec 32), (L.map Prod.snd)[n]? = some i → (L.map Prod.snd)[n']? = some i →
        StateAt d.b.buf i (.objectHandle r) → n = n' := fun n n' i r a b c => by
      have := hnd (n + 1) (n' + 1) i r (by simpa using a) (by simpa using b) c
      omega
    obtain ⟨sts, v, h1, h2, h3⟩ := h id i (by simp)
    unfold restoreProps
    simp only [h1, h2]
    rcases h3 with ⟨r, rfl, hty, hn⟩ | ⟨hno, p, hp, hpt⟩
    · have hni : ∀ id' : DynId, (id', i) ∉ L := fun id' hm => by
        obtain ⟨n, hn⟩ := List.getElem?_of_mem hm
        have := hnd 0 (n + 1) i r rfl (by simp [hn]) ⟨sts, h1, h2⟩
        omega
      simp only [hn, Option.isSome_none, Bool.false_eq_true, if_false, hty, ne_eq, not_true]
      obtain ⟨d', ps, ns, e1, e2⟩ := ih { d with objRefs := (i, r.toNat) :: d.objRefs } hnd2 (by
        intro id' i' hm
        obtain ⟨sts', v', g1, g2, g3⟩ := h id' i' (by simp [hm])
        refine ⟨sts', v', g1, g2, ?_⟩
        rcases g3 with ⟨r', a1, a2, a3⟩ | g3
        · refine .inl ⟨r', a1, a2, ?_⟩
          rw [objRef_cons, if_neg, a3]
          rintro rfl; exact hni id' hm
        · exact .inr g3)
      refine ⟨d', _, _, by rw [e1], ?_⟩
      simp only [List.map_cons, e2, hty]; rfl
    · obtain ⟨d', ps, ns, e1, e2⟩ := ih d hnd2 (fun id' i' hm => h id' i' (by simp [hm]))
      refine ⟨d', p :: ps, ns, ?_, by simp only [List.map_cons, e2, hpt]⟩
      split
      · rename_i heq; cases heq
      · rename_i heq; injection heq with heq; subst heq; cases hno
      · rename_i heq; injection heq with heq; subst heq
        rw [hp]; simp only [e1]

theorem deserializeObj_succeeds {d : Des} {done : List DoneObj} (hI : DInv d done) {C : ContractTy} {hh : Idx}
    {k p : Nat} {obj : FbObject} (hk : (k, hh) ∈ d.b.contracts.pairs) (hv : ValidObj C k d.b.buf p obj)
    (hch : C.channels = []) (hp : p ∉ done.map DoneObj.p)
    (hnd : ∀ (n n' i : Nat) (r : BitVec 32), obj.idxs[n]? = some i → obj.idxs[n']? = some i →
      StateAt d.b.buf i (.objectHandle r) → n = n')
    (hr : ∀ (n i : Nat) (f : Field), C.states[n]? = some f → obj.idxs[n]? = some i →
      Restores d ⟨f.ty, ⟨n, hh⟩⟩ i) :
    (d.deserializeObj C hh p obj).2 = .ok () ∧
    ∀ i : Nat, ((d.deserializeObj C hh p obj).1.objRef i).isSome = true → (d.objRef i).isSome = true ∨ i ∈ obj.idxs := by
  have hzip : ∀ id i, (id, i) ∈ (C.stateIds hh).zip obj.idxs → Restores d id i := by
    intro id i hm
    obtain ⟨n, hn⟩ := List.getElem?_of_mem hm
    obtain ⟨t, a1, a2, a3⟩ := stateIds_zip hn
    simp only at a2 a3
    subst a3
    simp only [ContractTy.stateTypes, List.getElem?_map, Option.map_eq_some_iff] at a1
    obtain ⟨f, hf, rfl⟩ := a1
    exact hr n i f hf a2
  have hlen : (C.stateIds hh).length = obj.idxs.length := by
    rw [hv.len, ContractTy.stateIds_eq]; simp
  obtain ⟨d1, ps, ns, e1, e2⟩ := Des.restoreProps_succeeds _ d (by
    rw [List.map_snd_zip (by omega)]; exact hnd) hzip
  have hty : ps.map DynProp.propType = C.stateTypes := by
    rw [e2]
    have : ((C.stateIds hh).zip obj.idxs).map (fun e => e.1.ty) = (C.stateIds hh).map DynId.ty := by
      have h0 := List.map_fst_zip (l₁ := C.stateIds hh) (l₂ := obj.idxs) (by omega)
      rw [show ((C.stateIds hh).zip obj.idxs).map (fun e => e.1.ty) =
        (((C.stateIds hh).zip obj.idxs).map Prod.fst).map DynId.ty from by simp [List.map_map, Function.comp_def], h0]
    rw [this, ContractTy.stateIds_eq]
    apply List.ext_getElem
    · simp
    · intro n h1 h2; simp [DynId.new]
  have hg := Des.restoreProps_grow ((C.stateIds hh).zip obj.idxs) d
  have hrefs := Des.restoreProps_refs ((C.stateIds hh).zip obj.idxs) d
  rw [e1] at hg hrefs
  obtain ⟨refs, hd1⟩ := hg.same
  simp only at hd1
  subst hd1
  obtain ⟨_, cd, _, hcd, _⟩ := hI.reg k hh hk
  have hcs : ([] : List DynChannel).map Sigma.fst = C.channelTypes := by simp [ContractTy.channelTypes, hch]
  obtain ⟨cons, hm, hoc⟩ := objectCreate_ok (C := C) (ss := ps) (cs := []) hcd hty hcs
  obtain ⟨m, ht, hadd⟩ := hI.addObject hk hv e1 hty (by simpa using hcs.symm) hm
  have ht' : Des.trackNulls (d.b.base.objects.insert (createdObj d.b.base hh ps [])).2 ns
      { ({ d with objRefs := refs } : Des) with b := { d.b with base := ⟨d.b.base.kind, (d.b.base.objects.insert (createdObj d.b.base hh ps [])).1, cons,
      (createAll d.b.base.states (ps.map DynProp.typed)).1, (createAll d.b.base.channels []).1⟩ } } = _ := ht
  have hcl : d.objects.clashes (d.b.base.objects.insert (createdObj d.b.base hh ps [])).2 p = false := by
    refine BiMap.clashes_false.2 ⟨?_, ?_⟩
    · intro q hq
      obtain ⟨x, hx, e1, e2⟩ := (hI.objs _ _).1 hq
      obtain ⟨⟨ob, _, _, a1, _⟩, _⟩ := hI.fields x hx
      rw [e1, insert_fresh hI.oInv] at a1; cases a1
    · intro o ho
      obtain ⟨x, hx, e1, e2⟩ := (hI.objs _ _).1 ho
      exact hp (List.mem_map.2 ⟨x, hx, e2⟩)
  rw [deserializeObj_unf, e1]
  simp only
  rw [hoc]
  simp only
  rw [ht']
  simp only [hcl, Bool.false_eq_true, if_false, true_and]
  intro i hi
  refine (hrefs i hi).imp_right ?_
  rintro ⟨id, hm⟩
  exact (List.of_mem_zip hm).2

/-- Every tracked reference belongs to a restored object (true as long as no call failed). -/
def RefsOwned (d : Des) (done : List DoneObj) : Prop :=
  ∀ i : Nat, (d.objRef i).isSome = true → ∃ x ∈ done, ∃ obj, ObjectAt d.b.buf x.p obj ∧ i ∈ obj.idxs

theorem checkStates_of {sts : List FbVal} {is : List (BitVec 32)} {ts : List PropType}
    (h : ∀ (n : Nat) (i : BitVec 32) (t : PropType), is[n]? = some i → ts[n]? = some t →
      ∃ v tag, sts[i.toNat]? = some v ∧ v.tag = some tag ∧ tag.eqProp t = true) : checkStates sts is ts = .ok () := by
  induction is generalizing ts with
  | nil => simp [checkStates]
  | cons i is ih =>
    cases ts with
    | nil => simp [checkStates]
    | cons t ts =>
      obtain ⟨v, tag, h1, h2, h3⟩ := h 0 i t rfl rfl
      simp only [checkStates, h1, h2, h3, if_true]
      exact ih fun n i' t' a b => h (n + 1) i' t' (by simpa using a) (by simpa using b)

theorem wellFormed_valid {C : ContractTy} {k p : Nat} {buf : FbBaseline} {obj : FbObject}
    (hs : obj.states ≠ none → ∃ sts, buf.states = some sts) (ho : ObjectAt buf p obj) (hw : WellFormedObj buf C k obj) :
    validateObj C k buf p = .ok obj := by
  obtain ⟨objs, h1, h2⟩ := ho
  obtain ⟨⟨c, h3, h4⟩, h5, h6⟩ := hw
  unfold validateObj
  have hn : obj.numStates = C.stateTypes.length := by
    unfold stateIdxs at h5
    unfold FbObject.numStates
    simp only [ContractTy.stateTypes, List.length_map, ← h5]
    cases obj.states <;> rfl
  simp only [h1, h2, h3, h4, hn, ne_eq, not_true, if_false]
  cases hst : obj.states with
  | none => rfl
  | some is =>
    obtain ⟨sts, hs⟩ := hs (by rw [hst]; simp)
    simp only [hs]
    rw [checkStates_of]
    intro n i t a b
    simp only [ContractTy.stateTypes, List.getElem?_map, Option.map_eq_some_iff] at b
    obtain ⟨f, hf, rfl⟩ := b
    obtain ⟨v, q, ⟨sts', e1, e2⟩, e3, e4⟩ := h6 n i.toNat f (by simp [stateIdxs, hst, a]) hf
    rw [hs] at e1; injection e1 with e1; subst e1
    obtain ⟨tag, e5, e6⟩ := tag_valPrim.2 ⟨q, e3, e4⟩
    exact ⟨v, tag, e2, e5, e6⟩

/-- What the objects `ps` need so that the loop restores them. -/
structure LoopOk (d : Des) (P : Nat → Prop) (C : ContractTy) (k : Nat) (ps : List Nat) : Prop where
  here : ∀ p ∈ ps, P p
  hasStates : ∀ p ∈ ps, ∀ obj : FbObject, ObjectAt d.b.buf p obj → obj.states ≠ none → ∃ sts, d.b.buf.states = some sts
  wf : ∀ p ∈ ps, ∃ obj, ObjectAt d.b.buf p obj ∧ WellFormedObj d.b.buf C k obj
  own : ∀ (p p' n n' i : Nat) (obj obj' : FbObject) (r : BitVec 32), P p → P p' → ObjectAt d.b.buf p obj →
    ObjectAt d.b.buf p' obj' → obj.idxs[n]? = some i → obj'.idxs[n']? = some i → StateAt d.b.buf i (.objectHandle r) →
    p = p' ∧ n = n'
  strings : ∀ p ∈ ps, ∀ (i : Nat) (obj : FbObject), ObjectAt d.b.buf p obj → i ∈ obj.idxs →
    ¬ StateAt d.b.buf i (.fbString none)
  cons : ∀ p ∈ ps, ∀ (i : Nat) (obj : FbObject) (c : BitVec 16), ObjectAt d.b.buf p obj → i ∈ obj.idxs →
    StateAt d.b.buf i (.contractDataHandle c) → ∃ h, (c.toNat, h) ∈ d.b.contracts.pairs

theorem decodeVal_succeeds {m : BiMap Nat Idx} {v : FbVal} {q : PrimType} (hv : valPrim v = some q)
    (hno : v.isObj = false) (hs : v ≠ .fbString none)
    (hc : ∀ c, v = .contractDataHandle c → ∃ h, m.getL c.toNat = some h) :
    ∃ p, Des.decodeVal m v = .ok p ∧ p.propType = .prim q := by
  cases v <;> simp only [valPrim, reduceCtorEq, Option.some.injEq] at hv <;> (try subst hv)
  case fbString s =>
    cases s with
    | none => exact absurd rfl hs
    | some s => exact ⟨_, rfl, rfl⟩
  case contractDataHandle c =>
    obtain ⟨h, e⟩ := hc c rfl
    exact ⟨.primitive (.contractDataHandle h), by simp only [Des.decodeVal, e], rfl⟩
  case objectHandle => cases hno
  all_goals exact ⟨_, rfl, rfl⟩

theorem nodup_of_getElem? {α : Type} {l : List α}
    (h : ∀ (n n' : Nat) (x : α), l[n]? = some x → l[n']? = some x → n = n') : l.Nodup := by
  refine List.pairwise_iff_getElem.2 fun i j hi hj hij e => ?_
  have := h i j l[i] (List.getElem?_eq_getElem hi) (by rw [e]; exact List.getElem?_eq_getElem hj)
  omega

theorem objectLoop_succeeds {C : ContractTy} {hh : Idx} {k : Nat} (ps : List Nat) (hch : ∀ p ∈ ps, C.channels = []) (d : Des)
    (done : List DoneObj) (hI : DInv d done) (hR : RefsOwned d done) (hk : (k, hh) ∈ d.b.contracts.pairs)
    {P : Nat → Prop} (hP : ∀ x ∈ done, P x.p) (hL : LoopOk d P C k ps) (hnd : ps.Nodup) (hnew : ∀ p ∈ ps, p ∉ done.map DoneObj.p) :
    (Des.objectLoop C hh k ps d).2 = .ok () ∧
    ∃ new, DInv (Des.objectLoop C hh k ps d).1 (done ++ new) ∧ SameCtx d (Des.objectLoop C hh k ps d).1 ∧
      RefsOwned (Des.objectLoop C hh k ps d).1 (done ++ new) ∧ (∀ x ∈ new, x.C = C ∧ x.h = hh) ∧
      new.map DoneObj.p = ps := by
  induction ps generalizing d done with
  | nil => exact ⟨rfl, [], by simpa [Des.objectLoop] using hI, SameCtx.refl d, by simpa [Des.objectLoop] using hR, by simp, rfl⟩
  | cons p ps ih =>
    obtain ⟨hnp, hnd⟩ := List.nodup_cons.1 hnd
    obtain ⟨obj, ho, hw⟩ := hL.wf p (by simp)
    have hval := wellFormed_valid (hL.hasStates p (by simp) obj ho) ho hw
    have hv := validateObj_ok hval
    have hsuc := deserializeObj_succeeds hI hk hv (hch p (by simp)) (hnew p (by simp))
      (fun n n' i r h1 h2 h3 =>
        (hL.own p p n n' i obj obj r (hL.here p (by simp)) (hL.here p (by simp)) ho ho h1 h2 h3).2)
      (by
        intro n i f hf hi
        obtain ⟨v, q, ⟨sts, a1, a2⟩, a3, a4⟩ := hw.2.2 n i f (by rw [stateIdxs_eq]; exact hi) hf
        refine ⟨sts, v, a1, a2, ?_⟩
        by_cases hob : v.isObj = true
        · left
          cases v <;> simp only [FbVal.isObj, Bool.false_eq_true] at hob
          rename_i r
          simp only [valPrim, Option.some.injEq] at a3; subst a3
          refine ⟨r, rfl, a4, ?_⟩
          cases hr : d.objRef i with
          | none => rfl
          | some r' =>
            obtain ⟨x, hx, obj', e1, e2⟩ := hR i (by rw [hr]; rfl)
            obtain ⟨n', hn'⟩ := List.getElem?_of_mem e2
            have := (hL.own p x.p n n' i obj obj' r (hL.here p (by simp)) (hP x hx) ho e1 hi hn' ⟨sts, a1, a2⟩).1
            exact absurd (List.mem_map.2 ⟨x, hx, this.symm⟩) (hnew p (by simp))
        · right
          have hob : v.isObj = false := by simpa using hob
          have him : i ∈ obj.idxs := List.mem_of_getElem? hi
          refine ⟨hob, ?_⟩
          have := decodeVal_succeeds (m := d.b.contracts) a3 hob
            (fun e => hL.strings p (by simp) i obj ho him ⟨sts, a1, e ▸ a2⟩)
            (fun c e => by
              obtain ⟨h, hm⟩ := hL.cons p (by simp) i obj c ho him ⟨sts, a1, e ▸ a2⟩
              exact ⟨h, (BiMap.getL_iff hI.cmap).2 hm⟩)
          rw [← a4] at this; exact this)
    have hsp := deserializeObj_spec hI hk hv
    unfold Des.objectLoop
    rw [hval]
    simp only
    rcases hdo : d.deserializeObj C hh p obj with ⟨d1, r⟩
    rw [hdo] at hsuc hsp
    obtain ⟨hok, hrefs⟩ := hsuc
    simp only at hok hrefs hsp ⊢
    subst hok
    rcases hsp with ⟨_, h2, h3, o, h4⟩ | ⟨h1, _⟩ | ⟨h1, _⟩
    · simp only
      have hR1 : RefsOwned d1 (done ++ [⟨p, o, C, hh⟩]) := by
        intro i hi
        rcases hrefs i hi with h | h
        · obtain ⟨x, hx, obj', e1, e2⟩ := hR i h
          exact ⟨x, by simp [hx], obj', by rw [h2.buf]; exact e1, e2⟩
        · exact ⟨⟨p, o, C, hh⟩, by simp, obj, by rw [h2.buf]; exact ho, h⟩
      obtain ⟨a1, new, a2, a3, a4, a5, a6⟩ := ih (fun p hp => hch p (by simp [hp])) d1 _ h4 hR1 (by rw [h2.contracts]; exact hk)
        (by
          intro x hx
          rcases List.mem_append.1 hx with hx | hx
          · exact hP x hx
          · rw [List.mem_singleton.1 hx]; exact hL.here p (by simp))
        ⟨fun q hq => hL.here q (by simp [hq]), by rw [h2.buf]; exact fun q hq => hL.hasStates q (by simp [hq]), by rw [h2.buf]; exact fun q hq => hL.wf q (by simp [hq]),
         by rw [h2.buf]; exact hL.own, by rw [h2.buf]; exact fun q hq => hL.strings q (by simp [hq]),
         by rw [h2.buf, h2.contracts]; exact fun q hq => hL.cons q (by simp [hq])⟩ hnd (by
          intro q hq
          simp only [List.map_append, List.map_cons, List.map_nil, List.mem_append, List.mem_singleton, not_or]
          refine ⟨hnew q (by simp [hq]), ?_⟩
          rintro rfl; exact hnp hq)
      refine ⟨a1, ⟨p, o, C, hh⟩ :: new, by simpa using a2, h2.trans a3, by simpa using a4, ?_, by simp [a6]⟩
      intro x hx
      rcases List.mem_cons.1 hx with rfl | hx
      · exact ⟨rfl, rfl⟩
      · exact a5 x hx
    · cases h1
    · cases h1

/-- In a run so far without failures, the next call succeeds. -/
theorem desRun_refsOwned {buf : FbBaseline} {kind : Kind} {regs : List (ContractTy × Outcome Idx)}
    {Cs : List ContractTy} (hB : Restorable buf Cs)
    (hregs : ∀ (C : ContractTy), C ∈ Cs → ∃ h, (C, Outcome.ok h) ∈ regs)
    (honly : ∀ (C : ContractTy) (h : Idx), (C, Outcome.ok h) ∈ regs → C ∈ Cs)
    {calls : List ((ContractTy × Idx) × Outcome Unit)} {d : Des} {done : List DoneObj}
    (hR : RunOk buf kind regs calls d done) (hO : RefsOwned d done)
    {C : ContractTy} {h : Idx} (hC : C ∈ Cs) (hch : C.channels ≠ [] → ∀ p : Nat, ¬ ObjectOf buf [C] p) (hreg : (C, Outcome.ok h) ∈ regs)
    (hnew : ∀ (C' : ContractTy) (r : Outcome Unit), ((C', h), r) ∉ calls) :
    (d.deserializeObjects C h).2 = .ok () ∧ ∃ done', RunOk buf kind regs
      (calls ++ [((C, h), Outcome.ok ())]) (d.deserializeObjects C h).1 done' ∧
      RefsOwned (d.deserializeObjects C h).1 done' := by
  obtain ⟨k, hk⟩ := (hR.live C h hreg).2
  have hno := findSerialized_iff.1 hk
  have hmem := (hR.pairs k h).2 ⟨C, hreg, hk⟩
  have hgr := (BiMap.getR_iff hR.inv.cmap).2 hmem
  have hre : ∀ P : ContractTy → Idx → Prop, Reach kind P d.b.base → P C h →
      Reach kind P (d.deserializeObjects C h).1.b.base := fun P hr hP => reach_desObjects hr C h hP
  revert hre
  unfold Des.deserializeObjects
  rw [hgr]
  simp only
  cases ho : d.b.buf.objects with
  | none =>
    simp only
    intro hre
    refine ⟨trivial, done ++ [], ?_, by simpa using hO⟩
    exact hR.step (by simpa using hR.inv) (SameCtx.refl d) hre (by simp) (by simp [ho])
  | some objs =>
    simp only
    intro hre
    have hob : ∀ p ∈ objectsWithContract k objs, ∃ obj, ObjectAt buf p obj ∧ ∃ c, obj.contract = some c ∧ c.toNat = k := by
      intro p hp
      obtain ⟨obj, c, g1, g2, g3⟩ := mem_objectsWithContract.1 hp
      exact ⟨obj, ⟨objs, by rw [← hR.bufEq, ho], g1⟩, c, g2, g3⟩
    have hof : ∀ p ∈ objectsWithContract k objs, ObjectOf buf Cs p := by
      intro p hp
      obtain ⟨obj, g1, c, g2, g3⟩ := hob p hp
      exact ⟨C, hC, k, obj, c, hno, g1, g2, g3⟩
    have hch' : ∀ p ∈ objectsWithContract k objs, C.channels = [] := by
      intro p hp
      obtain ⟨obj, g1, c, g2, g3⟩ := hob p hp
      by_cases h0 : C.channels = []
      · exact h0
      · exact absurd ⟨C, by simp, k, obj, c, hno, g1, g2, g3⟩ (hch h0 p)
    have hdone : ∀ x ∈ done, ObjectOf buf Cs x.p := by
      intro x hx
      obtain ⟨⟨ob, k', obj', a1, a2, a3, a4, a5, a6, a7, a8⟩, a9⟩ := hR.inv.fields x hx
      obtain ⟨C0, e1, e2⟩ := (hR.pairs _ _).1 a5
      obtain ⟨c', e3, e4⟩ := a6.contract
      have := a6.here
      rw [hR.bufEq] at this
      exact ⟨C0, honly C0 x.h e1, k', obj', c', findSerialized_iff.1 e2, this, e3, e4⟩
    have hL : LoopOk d (ObjectOf buf Cs) C k (objectsWithContract k objs) := by
      refine ⟨hof, ?_, ?_, ?_, ?_, ?_⟩ <;> rw [hR.bufEq]
      · intro p hp obj h1 h2
        exact hB.hasStates p obj (hof p hp) h1 h2
      · intro p hp
        obtain ⟨obj, g1, c, g2, g3⟩ := hob p hp
        exact ⟨obj, g1, hB.wellFormed C k p obj c hC hno g1 g2 g3⟩
      · intro p p' n n' i obj obj' r q1 q2 h1 h2 h3 h4 h5
        rw [← stateIdxs_eq] at h3 h4
        exact hB.ownStates p p' n n' i obj obj' r q1 q2 h1 h2 h3 h4 h5
      · intro p hp i obj h1 h2
        rw [← stateIdxs_eq] at h2
        exact hB.strings p i obj (hof p hp) h1 h2
      · intro p hp i obj c h1 h2 h3
        rw [← stateIdxs_eq] at h2
        obtain ⟨C', hC', hn'⟩ := hB.contractRefs p i obj c (hof p hp) h1 h2 h3
        obtain ⟨h', hh'⟩ := hregs C' hC'
        exact ⟨h', (hR.pairs _ _).2 ⟨C', hh', findSerialized_iff.2 hn'⟩⟩
    obtain ⟨b1, new, b2, b3, b4, b5, b6⟩ := objectLoop_succeeds (objectsWithContract k objs) hch' d done hR.inv hO hmem hdone hL
      (nodup_objectsWithContract _ _) (by
        intro p hp hm
        obtain ⟨x, hx, rfl⟩ := List.mem_map.1 hm
        obtain ⟨obj, c, g1, g2, g3⟩ := mem_objectsWithContract.1 hp
        obtain ⟨⟨ob, k', obj', a1, a2, a3, a4, a5, a6, a7, a8⟩, a9⟩ := hR.inv.fields x hx
        obtain ⟨objs', e1, e2⟩ := a6.here
        rw [ho] at e1; injection e1 with e1; subst e1
        rw [g1] at e2; injection e2 with e2; subst e2
        obtain ⟨c', e3, e4⟩ := a6.contract
        rw [g2] at e3; injection e3 with e3; subst e3
        have : k' = k := by rw [← e4, g3]
        subst this
        have : x.h = h := BiMap.pair_left hR.inv.cmap a5 hmem
        obtain ⟨r, hr⟩ := hR.called x hx
        rw [this] at hr
        exact hnew x.C r hr)
    refine ⟨b1, done ++ new, hR.step b2 b3 hre b5 ?_, b4⟩
    intro k' p objs' obj c _ h1 h2 h3 h4 h5
    rw [ho] at h2; injection h2 with h2; subst h2
    have e : k' = k := BiMap.pair_right hR.inv.cmap h1 hmem
    subst e
    have hm : p ∈ objectsWithContract k' objs := mem_objectsWithContract.2 ⟨obj, c, h3, h4, h5⟩
    rw [← b6] at hm
    obtain ⟨x, hx, e⟩ := List.mem_map.1 hm
    exact ⟨x, hx, e, b5 x hx⟩

end Verif
