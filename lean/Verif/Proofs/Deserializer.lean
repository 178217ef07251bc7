import Verif.Model.Deserializer
import Verif.Proofs.BiMap
import Verif.Proofs.BaselineApi
import Verif.Proofs.Contract
import Verif.Proofs.Types
/-! # The deserializer: invariant over arbitrary buffers and call sequences -/
namespace Verif
open Arena Baseline Store

/-- Abbreviation: the type of states holding an object handle. -/
abbrev objT : PropType := .prim .objectHandle

/-- The state indices of a serialized object. -/
def FbObject.idxs (obj : FbObject) : List Nat :=
  match obj.states with
  | none => []
  | some is => is.map BitVec.toNat

/-- Is the union value an object reference? -/
def FbVal.isObj : FbVal → Bool
  | .objectHandle _ => true
  | _ => false

/-! ## Validation -/

theorem checkStates_ok {sts : List FbVal} {is : List (BitVec 32)} {ts : List PropType}
    (h : checkStates sts is ts = .ok ()) :
    ∀ (n : Nat) (i : BitVec 32) (t : PropType), is[n]? = some i → ts[n]? = some t →
      ∃ v tag, sts[i.toNat]? = some v ∧ v.tag = some tag ∧ tag.eqProp t = true := by
  induction is generalizing ts with
  | nil => simp
  | cons i is ih =>
    cases ts with
    | nil => simp
    | cons t ts =>
      simp only [checkStates] at h
      cases hs : sts[i.toNat]? with
      | none => rw [hs] at h; cases h
      | some v =>
        rw [hs] at h; simp only at h
        cases ht : v.tag with
        | none => rw [ht] at h; cases h
        | some tag =>
          rw [ht] at h; simp only at h
          split at h
          · rename_i heq
            intro n i' t' h1 h2
            cases n with
            | zero => simp at h1 h2; subst h1 h2; exact ⟨v, tag, hs, ht, heq⟩
            | succ n => simp at h1 h2; exact ih h n i' t' h1 h2
          · cases h

/-- What a validated object satisfies. -/
structure ValidObj (C : ContractTy) (k : Nat) (buf : FbBaseline) (p : Nat) (obj : FbObject) : Prop where
  here : ∃ objs, buf.objects = some objs ∧ objs[p]? = some obj
  contract : ∃ c, obj.contract = some c ∧ c.toNat = k
  len : obj.idxs.length = C.stateTypes.length
  types : ∀ (n i : Nat) (t : PropType), obj.idxs[n]? = some i → C.stateTypes[n]? = some t →
    ∃ sts v tag, buf.states = some sts ∧ sts[i]? = some v ∧ v.tag = some tag ∧ tag.eqProp t = true
  hasStates : obj.states ≠ none → ∃ sts, buf.states = some sts

theorem validateObj_ok {C : ContractTy} {k : Nat} {buf : FbBaseline} {p : Nat} {obj : FbObject}
    (h : validateObj C k buf p = .ok obj) : ValidObj C k buf p obj := by
  unfold validateObj at h
  split at h
  · cases h
  · rename_i objs ho
    split at h
    · cases h
    · rename_i obj' hp
      split at h
      · cases h
      · rename_i c hc
        split at h
        · cases h
        · rename_i hk
          split at h
          · cases h
          · rename_i hl
            have hk : c.toNat = k := Classical.not_not.1 hk
            have hl := Classical.not_not.1 hl
            split at h
            · rename_i hs
              injection h with h; subst h
              refine ⟨⟨objs, ho, hp⟩, ⟨c, hc, hk⟩, ?_, ?_, fun h => absurd hs h⟩
              · simp only [FbObject.numStates, hs] at hl
                simp [FbObject.idxs, hs, ← hl]
              · simp [FbObject.idxs, hs]
            · rename_i is hs
              split at h
              · cases h
              · rename_i sts hsts
                split at h
                · rename_i hck
                  injection h with h; subst h
                  simp only [FbObject.numStates, hs] at hl
                  refine ⟨⟨objs, ho, hp⟩, ⟨c, hc, hk⟩, by simp [FbObject.idxs, hs, hl], ?_, fun _ => ⟨sts, hsts⟩⟩
                  intro n i t h1 h2
                  simp only [FbObject.idxs, hs, List.getElem?_map, Option.map_eq_some_iff] at h1
                  obtain ⟨i', h1, rfl⟩ := h1
                  obtain ⟨v, tag, e1, e2, e3⟩ := checkStates_ok hck n i' t h1 h2
                  exact ⟨sts, v, tag, hsts, e1, e2, e3⟩
                · cases h
                · cases h

/-! ## Restoring the properties of one object -/

namespace Des

/-- The deserializer with other tracked references. -/
def withRefs (d : Des) (refs : List (Nat × Nat)) : Des := { d with objRefs := refs }

theorem objRef_cons (d : Des) (i r j : Nat) :
    ({ d with objRefs := (i, r) :: d.objRefs } : Des).objRef j = if i = j then some r else d.objRef j := by
  unfold objRef
  simp only [List.find?_cons]
  split
  · rename_i h; simp only [decide_eq_true_eq] at h; simp [h]
  · rename_i h; simp only [decide_eq_false_iff_not] at h; simp [h]

/-- How the references tracked may grow: old ones stay, new ones come from the buffer. -/
structure RefsGrow (d d' : Des) : Prop where
  same : ∃ refs, d' = { d with objRefs := refs }
  old : ∀ (i r : Nat), d.objRef i = some r → d'.objRef i = some r
  new : ∀ (i r : Nat), d'.objRef i = some r → d.objRef i = some r ∨
    ∃ sts w, d.b.buf.states = some sts ∧ sts[i]? = some (.objectHandle w) ∧ w.toNat = r

theorem RefsGrow.refl (d : Des) : RefsGrow d d :=
  ⟨⟨d.objRefs, rfl⟩, fun _ _ h => h, fun _ _ h => .inl h⟩

theorem RefsGrow.trans {d1 d2 d3 : Des} (h1 : RefsGrow d1 d2) (h2 : RefsGrow d2 d3) : RefsGrow d1 d3 := by
  obtain ⟨r1, e1⟩ := h1.same
  obtain ⟨r2, e2⟩ := h2.same
  refine ⟨⟨r2, by rw [e2, e1]⟩, fun i r h => h2.old i r (h1.old i r h), fun i r h => ?_⟩
  rcases h2.new i r h with h | ⟨sts, w, a, b, c⟩
  · exact h1.new i r h
  · rw [e1] at a; exact .inr ⟨sts, w, a, b, c⟩

theorem RefsGrow.cons {d : Des} {i : Nat} {sts : List FbVal} {w : BitVec 32} (hn : d.objRef i = none)
    (h1 : d.b.buf.states = some sts) (h2 : sts[i]? = some (.objectHandle w)) :
    RefsGrow d { d with objRefs := (i, w.toNat) :: d.objRefs } := by
  refine ⟨⟨_, rfl⟩, fun j r h => ?_, fun j r h => ?_⟩
  · rw [objRef_cons, if_neg, h]; rintro rfl; rw [hn] at h; cases h
  · rw [objRef_cons] at h
    split at h
    · rename_i e; subst e; injection h with h; exact .inr ⟨sts, w, h1, h2, h⟩
    · exact .inl h

/-- The entry of one field after the property loop. -/
def PropOk (d d' : Des) (ns : List (PropId × Nat)) (id : DynId) (i : Nat) (prop : DynProp) : Prop :=
  ∃ sts v, d.b.buf.states = some sts ∧ sts[i]? = some v ∧
    ((∃ r, v = .objectHandle r ∧ id.ty = objT ∧ prop = .primitive (.objectHandle d.b.nullObj) ∧
        (id.id, i) ∈ ns ∧ d.objRef i = none ∧ d'.objRef i = some r.toNat) ∨
     (v.isObj = false ∧ decodeVal d.b.contracts v = .ok prop))

theorem restoreProps_grow (L : List (DynId × Nat)) (d : Des) : RefsGrow d (d.restoreProps L).1 := by
  induction L generalizing d with
  | nil => exact RefsGrow.refl d
  | cons e L ih =>
    obtain ⟨id, i⟩ := e
    unfold restoreProps
    split
    · exact RefsGrow.refl d
    · rename_i sts hsts
      split
      · exact RefsGrow.refl d
      · rename_i r hr
        split
        · exact RefsGrow.refl d
        · rename_i hn
          have hn : d.objRef i = none := by simpa using hn
          have hc := RefsGrow.cons hn hsts hr
          simp only []
          split
          · exact hc
          · have := ih { d with objRefs := (i, r.toNat) :: d.objRefs }
            split <;> (rename_i heq; rw [heq] at this; exact hc.trans this)
      · split
        · exact RefsGrow.refl d
        · exact RefsGrow.refl d
        · have := ih d
          split <;> (rename_i heq; rw [heq] at this; exact this)

theorem restoreProps_ok (L : List (DynId × Nat)) (d d' : Des) (ps : List DynProp) (ns : List (PropId × Nat))
    (h : d.restoreProps L = (d', .ok (ps, ns))) :
    ps.length = L.length ∧ (ns.map Prod.snd).Nodup ∧
    (∀ (n : Nat) (id : DynId) (i : Nat), L[n]? = some (id, i) → ∃ prop, ps[n]? = some prop ∧
      PropOk d d' ns id i prop) ∧
    (∀ (pid : PropId) (i : Nat), (pid, i) ∈ ns → d.objRef i = none ∧
      ∃ (n : Nat) (id : DynId) (sts : List FbVal) (r : BitVec 32), L[n]? = some (id, i) ∧ id.id = pid ∧ id.ty = objT ∧
        d.b.buf.states = some sts ∧ sts[i]? = some (.objectHandle r) ∧ d'.objRef i = some r.toNat) := by
  induction L generalizing d ps ns with
  | nil =>
    simp only [restoreProps, Prod.mk.injEq, Outcome.ok.injEq] at h
    obtain ⟨rfl, rfl, rfl⟩ := h
    simp
  | cons e L ih =>
    obtain ⟨id, i⟩ := e
    unfold restoreProps at h
    split at h
    · cases h
    · rename_i sts hsts
      split at h
      · cases h
      · rename_i r hr
        split at h
        · cases h
        · rename_i hn
          have hn : d.objRef i = none := by simpa using hn
          have hc := RefsGrow.cons hn hsts hr
          simp only [] at h
          split at h
          · cases h
          · rename_i hty
            have hty : id.ty = objT := Classical.not_not.1 hty
            split at h
            · cases h
            · cases h
            · rename_i d2 ps2 ns2 heq
              simp only [Prod.mk.injEq, Outcome.ok.injEq] at h
              obtain ⟨rfl, rfl, rfl⟩ := h
              have hg2 := restoreProps_grow L { d with objRefs := (i, r.toNat) :: d.objRefs }
              rw [heq] at hg2
              have hi' : d2.objRef i = some r.toNat := hg2.old _ _ (by rw [objRef_cons, if_pos rfl])
              obtain ⟨h1, h2, h3, h4⟩ := ih _ _ _ heq
              have hnone : ∀ j : Nat, ({ d with objRefs := (i, r.toNat) :: d.objRefs } : Des).objRef j = none →
                  d.objRef j = none ∧ i ≠ j := by
                intro j hj
                rw [objRef_cons] at hj
                split at hj
                · cases hj
                · rename_i hne; exact ⟨hj, hne⟩
              refine ⟨by simp [h1], ?_, ?_, ?_⟩
              · simp only [List.map_cons, List.nodup_cons]
                refine ⟨?_, h2⟩
                intro hm
                obtain ⟨⟨pid, j⟩, hm', e⟩ := List.mem_map.1 hm
                exact (hnone _ (h4 pid j hm').1).2 e.symm
              · intro n id' i' hL
                cases n with
                | zero =>
                  simp at hL; obtain ⟨rfl, rfl⟩ := hL
                  exact ⟨_, rfl, sts, _, hsts, hr, .inl ⟨r, rfl, hty, rfl, by simp, hn, hi'⟩⟩
                | succ n =>
                  simp at hL
                  obtain ⟨prop, e1, sts', v, e2, e3, e4⟩ := h3 n id' i' hL
                  refine ⟨prop, by simpa using e1, sts', v, e2, e3, ?_⟩
                  rcases e4 with ⟨r', a1, a2, a3, a4, a5, a6⟩ | a
                  · exact .inl ⟨r', a1, a2, a3, by simp [a4], (hnone _ a5).1, a6⟩
                  · exact .inr a
              · intro pid j hm
                rcases List.mem_cons.1 hm with hm | hm
                · injection hm with e1 e2; subst e1 e2
                  exact ⟨hn, 0, id, sts, r, by simp, rfl, hty, hsts, hr, hi'⟩
                · obtain ⟨a1, n, id', sts', r', a2, a3, a4, a5, a6, a7⟩ := h4 pid j hm
                  exact ⟨(hnone _ a1).1, n + 1, id', sts', r', by simpa using a2, a3, a4, a5, a6, a7⟩
      · rename_i v hno hv
        have hno : v.isObj = false := by
          cases v <;> first | rfl | exact absurd rfl (hno _)
        split at h
        · cases h
        · cases h
        · rename_i p hp
          split at h
          · cases h
          · cases h
          · rename_i d2 ps2 ns2 heq
            simp only [Prod.mk.injEq, Outcome.ok.injEq] at h
            obtain ⟨rfl, rfl, rfl⟩ := h
            obtain ⟨h1, h2, h3, h4⟩ := ih _ _ _ heq
            refine ⟨by simp [h1], h2, ?_, ?_⟩
            · intro n id' i' hL
              cases n with
              | zero =>
                simp at hL; obtain ⟨rfl, rfl⟩ := hL
                exact ⟨p, rfl, sts, v, hsts, hv, .inr ⟨hno, hp⟩⟩
              | succ n =>
                simp at hL
                obtain ⟨prop, e1, e2⟩ := h3 n id' i' hL
                exact ⟨prop, by simpa using e1, e2⟩
            · intro pid j hm
              obtain ⟨a1, n, id', sts', r', a2, a3⟩ := h4 pid j hm
              exact ⟨a1, n + 1, id', sts', r', by simpa using a2, a3⟩

theorem trackNulls_ok (o : Idx) (f : PropId → Idx) (ns : List (PropId × Nat)) (d : Des)
    (hinv : d.states.Inv)
    (hb : ∀ (pid : PropId) (i : Nat), (pid, i) ∈ ns → d.b.base.bindState pid o = .ok (f pid))
    (hi : (ns.map Prod.snd).Nodup) (hj : (ns.map fun e => f e.1).Nodup)
    (hfi : ∀ (pid : PropId) (i : Nat), (pid, i) ∈ ns → ∀ y : Idx, (i, y) ∉ d.states.pairs)
    (hfj : ∀ (pid : PropId) (i : Nat), (pid, i) ∈ ns → ∀ x : Nat, (x, f pid) ∉ d.states.pairs) :
    ∃ m, trackNulls o ns d = ({ d with states := m }, .ok ()) ∧ m.Inv ∧
      ∀ (i : Nat) (j : Idx), (i, j) ∈ m.pairs ↔ (i, j) ∈ d.states.pairs ∨ ∃ pid, (pid, i) ∈ ns ∧ f pid = j := by
  induction ns generalizing d with
  | nil => exact ⟨d.states, rfl, hinv, by simp⟩
  | cons e ns ih =>
    obtain ⟨pid, i⟩ := e
    simp only [List.map_cons, List.nodup_cons] at hi hj
    have hcl : d.states.clashes i (f pid) = false :=
      BiMap.clashes_false.2 ⟨hfi pid i (by simp), hfj pid i (by simp)⟩
    obtain ⟨m, h1, h2, h3⟩ := ih { d with states := d.states.insert i (f pid) } (BiMap.insert_inv hinv _ _)
      (fun pid' i' hm => hb pid' i' (by simp [hm])) hi.2 hj.2
      (fun pid' i' hm y hy => by
        rcases (BiMap.mem_insert_fresh hcl).1 hy with ⟨e, _⟩ | hy
        · exact hi.1 (List.mem_map.2 ⟨_, hm, e⟩)
        · exact hfi pid' i' (by simp [hm]) y hy)
      (fun pid' i' hm x hx => by
        rcases (BiMap.mem_insert_fresh hcl).1 hx with ⟨_, e⟩ | hx
        · exact hj.1 (List.mem_map.2 ⟨_, hm, e⟩)
        · exact hfj pid' i' (by simp [hm]) x hx)
    refine ⟨m, ?_, h2, ?_⟩
    · simp only [trackNulls, hb pid i (by simp), hcl]
      exact h1
    · intro i' j'
      rw [h3, BiMap.mem_insert_fresh hcl]
      constructor
      · rintro ((⟨rfl, rfl⟩ | h) | ⟨pid', h, e⟩)
        · exact .inr ⟨pid, by simp, rfl⟩
        · exact .inl h
        · exact .inr ⟨pid', by simp [h], e⟩
      · rintro (h | ⟨pid', h, e⟩)
        · exact .inl (.inr h)
        · rcases List.mem_cons.1 h with h | h
          · injection h with h1 h2; subst h1 h2; exact .inl (.inl ⟨rfl, e.symm⟩)
          · exact .inr ⟨pid', h, e⟩

end Des

/-! ## The invariant -/

/-- A restored object: number `p` of the buffer is object `o`, created for the contract instance `(C, h)`. -/
structure DoneObj where
  p : Nat
  o : Idx
  C : ContractTy
  h : Idx

/-- Field `n` of a restored object, of type `t`, stored under `j`: the serialized union value `v` at
index `i` has been restored, object references as the null object and noted. -/
def FieldOk (d : Des) (t : PropType) (i : Nat) (j : Idx) : Prop :=
  ∃ sts v x, d.b.buf.states = some sts ∧ sts[i]? = some v ∧ d.b.base.states.get t j = some x ∧
    ((∃ r, v = .objectHandle r ∧ t = objT ∧ (i, j) ∈ d.states.pairs) ∨
     (v.isObj = false ∧ Des.decodeVal d.b.contracts v = .ok (DynProp.ofTyped t x)))

/-- A restored object is in the baseline and its fields are restored. -/
structure DoneOk (d : Des) (x : DoneObj) : Prop where
  here : ∃ ob k obj, d.b.base.objects.get x.o = some ob ∧ ob.contract = x.h ∧ ob.channels = [] ∧
    ob.warp = TimeWarp.default ∧ (k, x.h) ∈ d.b.contracts.pairs ∧ ValidObj x.C k d.b.buf x.p obj ∧
    ob.states.length = x.C.stateTypes.length ∧
    ∀ (n i : Nat) (t : PropType) (j : Idx), x.C.stateTypes[n]? = some t → obj.idxs[n]? = some i →
      ob.states[n]? = some j → FieldOk d t i j
  noChan : x.C.channels = []

/-- The invariant of a deserializer. -/
structure DInv (d : Des) (done : List DoneObj) : Prop where
  oInv : Arena.Inv d.b.base.objects
  kInv : Arena.Inv d.b.base.contracts
  sInv : d.b.base.states.Inv
  cmap : d.b.contracts.Inv
  smap : d.states.Inv
  omap : d.objects.Inv
  nullObj : d.b.base.objects.get d.b.nullObj = some ⟨[], [], d.b.nullContract, TimeWarp.default⟩
  nullCon : d.b.base.contracts.get d.b.nullContract = some ⟨nullContractTy.id, [d.b.nullObj]⟩
  cons : ∀ (k : Idx) (cd : ContractData), d.b.base.contracts.get k = some cd → k ≠ d.b.nullContract →
    (∃ i, (i, k) ∈ d.b.contracts.pairs) ∧ cd.id ≠ nullContractTy.id ∧
    ∀ o : Idx, o ∈ cd.objects ↔ ∃ x ∈ done, x.o = o ∧ x.h = k
  reg : ∀ (i : Nat) (k : Idx), (i, k) ∈ d.b.contracts.pairs → k ≠ d.b.nullContract ∧
    ∃ cd C, d.b.base.contracts.get k = some cd ∧ cd.id = C.id ∧ findSerialized C d.b.buf = .ok i
  live : ∀ (o : Idx) (ob : ObjectD), d.b.base.objects.get o = some ob → o = d.b.nullObj ∨ ∃ x ∈ done, x.o = o
  fields : ∀ x ∈ done, DoneOk d x
  objs : ∀ (o : Idx) (p : Nat), (o, p) ∈ d.objects.pairs ↔ ∃ x ∈ done, x.o = o ∧ x.p = p
  onodup : (done.map DoneObj.o).Nodup
  pnodup : (done.map DoneObj.p).Nodup
  nullNot : ∀ x ∈ done, x.o ≠ d.b.nullObj
  states : ∀ (i : Nat) (j : Idx), (i, j) ∈ d.states.pairs →
    (∃ sts r, d.b.buf.states = some sts ∧ sts[i]? = some (.objectHandle r) ∧ d.objRef i = some r.toNat) ∧
    d.b.base.states.get objT j = some d.b.nullObj
  store : ∀ (j v : Idx), d.b.base.states.get objT j = some v → ∃ i, (i, j) ∈ d.states.pairs
  owner : ∀ (i : Nat) (j : Idx), (i, j) ∈ d.states.pairs → ∃ x ∈ done, ∃ objs obj, d.b.buf.objects = some objs ∧
    objs[x.p]? = some obj ∧ i ∈ obj.idxs

theorem DInv.grow {d d' : Des} {done : List DoneObj} (h : DInv d done) (hg : Des.RefsGrow d d') :
    DInv d' done := by
  obtain ⟨refs, rfl⟩ := hg.same
  refine ⟨h.oInv, h.kInv, h.sInv, h.cmap, h.smap, h.omap, h.nullObj, h.nullCon, h.cons, h.reg, h.live,
    ?_, h.objs, h.onodup, h.pnodup, h.nullNot, ?_, h.store, h.owner⟩
  · intro x hx
    exact ⟨(h.fields x hx).here, (h.fields x hx).noChan⟩
  · intro i j hm
    obtain ⟨⟨sts, r, a, b, c⟩, e⟩ := h.states i j hm
    exact ⟨⟨sts, r, a, b, hg.old _ _ c⟩, e⟩

theorem stateIds_zip {C : ContractTy} {h : Idx} {is : List Nat} {n : Nat} {e : DynId × Nat}
    (hz : ((C.stateIds h).zip is)[n]? = some e) :
    ∃ t, C.stateTypes[n]? = some t ∧ is[n]? = some e.2 ∧ e.1 = ⟨t, ⟨n, h⟩⟩ := by
  obtain ⟨id, i⟩ := e
  rw [List.getElem?_zip_eq_some, ContractTy.stateIds_eq, List.getElem?_mapIdx] at hz
  obtain ⟨h1, h2⟩ := hz
  cases ht : C.stateTypes[n]? with
  | none => rw [ht] at h1; cases h1
  | some t => rw [ht] at h1; injection h1 with h1; exact ⟨t, rfl, h2, h1.symm⟩

theorem stateIds_zip_mk {C : ContractTy} {h : Idx} {is : List Nat} {n i : Nat} {t : PropType}
    (h1 : C.stateTypes[n]? = some t) (h2 : is[n]? = some i) :
    ((C.stateIds h).zip is)[n]? = some (⟨t, ⟨n, h⟩⟩, i) := by
  rw [List.getElem?_zip_eq_some, ContractTy.stateIds_eq, List.getElem?_mapIdx, h1]
  exact ⟨rfl, h2⟩

end Verif
