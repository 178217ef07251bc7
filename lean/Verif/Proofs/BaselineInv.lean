import Verif.Proofs.Baseline
/-! # The invariant of reachable baselines -/
namespace Verif
open Arena Store Baseline

/-- The event "creating an object of contract type `C` through handle `h` returned `o`". -/
def DidCreate (evs : List Event) (C : ContractTy) (h o : Idx) : Prop :=
  ∃ ss cs, (BOp.create C h ss cs, Outcome.ok (some o)) ∈ evs

/-- The event "registering `C` returned the handle `h`". -/
def DidRegister (evs : List Event) (C : ContractTy) (h : Idx) : Prop :=
  (BOp.register C, Outcome.ok (some h)) ∈ evs

/-- Every declared field has a stored value of the declared type. -/
def FieldsOk {F : PropType → Type} (s : Store F) (types : List PropType) (is : List Idx) : Prop :=
  is.length = types.length ∧
    ∀ (i : Nat) (t : PropType) (j : Idx), types[i]? = some t → is[i]? = some j → ∃ v, s.get t j = some v

/-- Field `i` of live object `o`, of type `t`, is stored under handle `j`. -/
def Owns (evs : List Event) (objs : Arena ObjectD) (types : ContractTy → List PropType)
    (proj : ObjectD → List Idx) (o : Idx) (i : Nat) (t : PropType) (j : Idx) : Prop :=
  ∃ C h ob, DidCreate evs C h o ∧ objs.get o = some ob ∧ (types C)[i]? = some t ∧ (proj ob)[i]? = some j

def NoAlias (evs : List Event) (objs : Arena ObjectD) (types : ContractTy → List PropType)
    (proj : ObjectD → List Idx) : Prop :=
  ∀ (o1 o2 : Idx) (i1 i2 : Nat) (t : PropType) (j : Idx), Owns evs objs types proj o1 i1 t j →
    Owns evs objs types proj o2 i2 t j → o1 = o2 ∧ i1 = i2

/-- Object part of the invariant. -/
structure OInv (evs : List Event) (objs : Arena ObjectD) (ss : Store PropType.Carrier)
    (cs : Store PropType.Chan) : Prop where
  inv : Arena.Inv objs
  sInv : ss.Inv
  cInv : cs.Inv
  created : ∀ (C : ContractTy) (h o : Idx), DidCreate evs C h o →
    (∃ ob, objs.get o = some ob ∧ ob.contract = h ∧ FieldsOk ss C.stateTypes ob.states ∧
      FieldsOk cs C.channelTypes ob.channels) ∨ Dead objs o
  origin : ∀ (o : Idx) (ob : ObjectD), objs.get o = some ob → ∃ C, DidCreate evs C ob.contract o
  aliasS : NoAlias evs objs ContractTy.stateTypes ObjectD.states
  aliasC : NoAlias evs objs ContractTy.channelTypes ObjectD.channels

/-- Contract part of the invariant. -/
structure CInv (evs : List Event) (objs : Arena ObjectD) (cons : Arena ContractData) : Prop where
  inv : Arena.Inv cons
  registered : ∀ (C : ContractTy) (h : Idx), DidRegister evs C h →
    (∃ cd, cons.get h = some cd ∧ cd.id = C.id) ∨ Dead cons h
  origin : ∀ (h : Idx) (cd : ContractData), cons.get h = some cd → ∃ C, C.id = cd.id ∧ DidRegister evs C h
  idUnique : ∀ (h1 h2 : Idx) (c1 c2 : ContractData), cons.get h1 = some c1 → cons.get h2 = some c2 →
    c1.id = c2.id → h1 = h2
  listed : ∀ (h o : Idx) (cd : ContractData), cons.get h = some cd → o ∈ cd.objects →
    (∃ ob, objs.get o = some ob ∧ ob.contract = h) ∨ Dead objs o
  nodup : ∀ (h : Idx) (cd : ContractData), cons.get h = some cd → cd.objects.Nodup

/-- The invariant of reachable baselines. -/
structure BInv (evs : List Event) (b : Baseline) : Prop where
  o : OInv evs b.objects b.states b.channels
  c : CInv evs b.objects b.contracts

/-! ## Benign changes of the object arena -/

/-- Same contract and same field handles. -/
def SameShape (ob ob' : ObjectD) : Prop :=
  ob'.states = ob.states ∧ ob'.channels = ob.channels ∧ ob'.contract = ob.contract

/-- Objects may disappear for good and may change their warp, nothing else. -/
structure ObjMono (a a' : Arena ObjectD) : Prop where
  inv : Arena.Inv a'
  back : ∀ (o : Idx) (ob' : ObjectD), a'.get o = some ob' → ∃ ob, a.get o = some ob ∧ SameShape ob ob'
  fwd : ∀ (o : Idx) (ob : ObjectD), a.get o = some ob →
    (∃ ob', a'.get o = some ob' ∧ SameShape ob ob') ∨ Dead a' o
  dead : ∀ (o : Idx), Dead a o → Dead a' o

theorem ObjMono.refl {a : Arena ObjectD} (h : Arena.Inv a) : ObjMono a a :=
  ⟨h, fun _ ob h => ⟨ob, h, rfl, rfl, rfl⟩, fun _ ob h => .inl ⟨ob, h, rfl, rfl, rfl⟩, fun _ h => h⟩

theorem ObjMono.removeList {a : Arena ObjectD} (h : Arena.Inv a) (os : List Idx) :
    ObjMono a (removeList a os) := by
  refine ⟨removeList_inv h os, ?_, ?_, fun _ hd => removeList_dead hd os⟩
  · intro o ob' hg
    rw [get_removeList] at hg
    split at hg
    · cases hg
    · exact ⟨ob', hg, rfl, rfl, rfl⟩
  · intro o ob hg
    by_cases ho : o ∈ os
    · exact .inr (removeList_dead_of_live h hg ho)
    · exact .inl ⟨ob, by rw [get_removeList, if_neg ho, hg], rfl, rfl, rfl⟩

theorem ObjMono.warp {a a' : Arena ObjectD} (h : Arena.Inv a) {o : Idx} {w : TimeWarp}
    (hm : a.modify o (fun ob => { ob with warp := w }) = some a') : ObjMono a a' := by
  refine ⟨modify_inv h hm, ?_, ?_, fun _ hd => modify_dead hd hm⟩
  · intro o' ob' hg
    rw [get_modify hm] at hg
    split at hg
    · rename_i e; subst e
      cases hx : a.get o' with
      | none => rw [hx] at hg; cases hg
      | some ob => rw [hx] at hg; cases hg; exact ⟨ob, rfl, rfl, rfl, rfl⟩
    · exact ⟨ob', hg, rfl, rfl, rfl⟩
  · intro o' ob hg
    left
    rw [get_modify hm]
    split
    · rename_i e; subst e; rw [hg]; exact ⟨_, rfl, rfl, rfl, rfl⟩
    · exact ⟨ob, hg, rfl, rfl, rfl⟩

/-- Live entries stay live. -/
def StoreMono {F : PropType → Type} (s s' : Store F) : Prop :=
  ∀ (t : PropType) (i : Idx), (∃ v, s.get t i = some v) → ∃ v, s'.get t i = some v

theorem FieldsOk.mono {F : PropType → Type} {s s' : Store F} {types : List PropType} {is : List Idx}
    (h : FieldsOk s types is) (hm : StoreMono s s') : FieldsOk s' types is :=
  ⟨h.1, fun i t j h1 h2 => hm t j (h.2 i t j h1 h2)⟩

/-- A list of events followed by one that is not a successful creation. -/
def SameCreates (evs evs' : List Event) : Prop := ∀ (C : ContractTy) (h o : Idx), DidCreate evs' C h o ↔ DidCreate evs C h o

theorem sameCreates_snoc {evs : List Event} {e : Event}
    (he : ∀ (C : ContractTy) (h : Idx) (ss : List DynProp) (cs : List DynChannel) (o : Idx),
      e ≠ (BOp.create C h ss cs, .ok (some o))) : SameCreates evs (evs ++ [e]) := by
  intro C h o
  constructor
  · rintro ⟨ss, cs, hm⟩
    rcases List.mem_append.1 hm with hm | hm
    · exact ⟨ss, cs, hm⟩
    · simp at hm; exact absurd hm.symm (he C h ss cs o)
  · rintro ⟨ss, cs, hm⟩
    exact ⟨ss, cs, by simp [hm]⟩

theorem OInv.mono {evs evs' : List Event} {objs objs' : Arena ObjectD} {ss ss' : Store PropType.Carrier}
    {cs cs' : Store PropType.Chan} (h : OInv evs objs ss cs) (he : SameCreates evs evs')
    (ho : ObjMono objs objs') (hs : StoreMono ss ss') (hsi : ss'.Inv) (hc : StoreMono cs cs')
    (hci : cs'.Inv) : OInv evs' objs' ss' cs' := by
  have halias : ∀ (types : ContractTy → List PropType) (proj : ObjectD → List Idx)
      (hp : ∀ (ob ob' : ObjectD), SameShape ob ob' → proj ob' = proj ob)
      (o : Idx) (i : Nat) (t : PropType) (j : Idx), Owns evs' objs' types proj o i t j →
      Owns evs objs types proj o i t j := by
    rintro types proj hp o i t j ⟨C, k, ob', h1, h2, h3, h4⟩
    obtain ⟨ob, h5, h6⟩ := ho.back o ob' h2
    exact ⟨C, k, ob, (he C k o).1 h1, h5, h3, by rw [← hp ob ob' h6]; exact h4⟩
  refine ⟨ho.inv, hsi, hci, ?_, ?_, ?_, ?_⟩
  · intro C k o hd
    rcases h.created C k o ((he C k o).1 hd) with ⟨ob, h1, h2, h3, h4⟩ | hd
    · rcases ho.fwd o ob h1 with ⟨ob', h5, h6, h7, h8⟩ | hd
      · exact .inl ⟨ob', h5, by rw [h8, h2], by rw [h6]; exact h3.mono hs, by rw [h7]; exact h4.mono hc⟩
      · exact .inr hd
    · exact .inr (ho.dead o hd)
  · intro o ob' hg
    obtain ⟨ob, h1, _, _, h2⟩ := ho.back o ob' hg
    obtain ⟨C, hC⟩ := h.origin o ob h1
    exact ⟨C, by rw [h2]; exact (he _ _ _).2 hC⟩
  · intro o1 o2 i1 i2 t j h1 h2
    exact h.aliasS o1 o2 i1 i2 t j (halias _ _ (fun _ _ h => h.1) _ _ _ _ h1)
      (halias _ _ (fun _ _ h => h.1) _ _ _ _ h2)
  · intro o1 o2 i1 i2 t j h1 h2
    exact h.aliasC o1 o2 i1 i2 t j (halias _ _ (fun _ _ h => h.2.1) _ _ _ _ h1)
      (halias _ _ (fun _ _ h => h.2.1) _ _ _ _ h2)

/-- No alias after adding one object whose fields are fresh. -/
theorem noAlias_create {F : PropType → Type} {evs : List Event} {objs : Arena ObjectD}
    {types : ContractTy → List PropType} {proj : ObjectD → List Idx} {s s' : Store F}
    (hal : NoAlias evs objs types proj) (hinv : Arena.Inv objs)
    (hlive : ∀ (o : Idx) (i : Nat) (t : PropType) (j : Idx), Owns evs objs types proj o i t j →
      ∃ v, s.get t j = some v)
    {C : ContractTy} {h : Idx} {ss : List DynProp} {cs : List DynChannel} {ob : ObjectD}
    {ps : List ((t : PropType) × F t)} (hps : ps.map Sigma.fst = types C)
    (hcr : Created s ps s' (proj ob))
    (hnew : ∀ (C : ContractTy) (h : Idx), ¬ DidCreate evs C h (objs.insert ob).2) :
    NoAlias (evs ++ [(BOp.create C h ss cs, .ok (some (objs.insert ob).2))]) (objs.insert ob).1 types proj := by
  have split : ∀ (o : Idx) (i : Nat) (t : PropType) (j : Idx),
      Owns (evs ++ [(BOp.create C h ss cs, .ok (some (objs.insert ob).2))]) (objs.insert ob).1 types proj o i t j →
      (o ≠ (objs.insert ob).2 ∧ Owns evs objs types proj o i t j) ∨
      (o = (objs.insert ob).2 ∧ (∃ p, ps[i]? = some p ∧ p.1 = t) ∧ (proj ob)[i]? = some j) := by
    rintro o i t j ⟨C', h', ob', h1, h2, h3, h4⟩
    by_cases e : o = (objs.insert ob).2
    · right
      subst e
      rw [get_insert_self hinv] at h2
      cases h2
      refine ⟨rfl, ?_, h4⟩
      obtain ⟨ss', cs', hm⟩ := h1
      rcases List.mem_append.1 hm with hm | hm
      · exact absurd ⟨ss', cs', hm⟩ (hnew C' h')
      · simp at hm
        obtain ⟨rfl, _⟩ := hm
        rw [← hps] at h3
        rw [List.getElem?_map] at h3
        cases hp : ps[i]? with
        | none => rw [hp] at h3; cases h3
        | some p => rw [hp] at h3; exact ⟨p, rfl, by simpa using h3⟩
    · left
      refine ⟨e, ?_⟩
      rw [get_insert_ne hinv _ e] at h2
      obtain ⟨ss', cs', hm⟩ := h1
      rcases List.mem_append.1 hm with hm | hm
      · exact ⟨C', h', ob', ⟨ss', cs', hm⟩, h2, h3, h4⟩
      · simp at hm
        exact absurd hm.2 e
  intro o1 o2 i1 i2 t j h1 h2
  rcases split o1 i1 t j h1 with ⟨e1, w1⟩ | ⟨e1, ⟨p1, p1g, p1t⟩, j1⟩
  · rcases split o2 i2 t j h2 with ⟨e2, w2⟩ | ⟨e2, ⟨p2, p2g, p2t⟩, j2⟩
    · exact hal o1 o2 i1 i2 t j w1 w2
    · obtain ⟨v, hv⟩ := hlive _ _ _ _ w1
      have := hcr.fresh i2 p2 j p2g j2
      rw [p2t, hv] at this; cases this
  · rcases split o2 i2 t j h2 with ⟨e2, w2⟩ | ⟨e2, ⟨p2, p2g, p2t⟩, j2⟩
    · obtain ⟨v, hv⟩ := hlive _ _ _ _ w2
      have := hcr.fresh i1 p1 j p1g j1
      rw [p1t, hv] at this; cases this
    · exact ⟨by rw [e1, e2], hcr.distinct i1 i2 p1 p2 j p1g j1 p2g j2 (by rw [p1t, p2t])⟩

theorem fieldsOk_created {F : PropType → Type} {s s' : Store F} {ps : List ((t : PropType) × F t)}
    {is : List Idx} {types : List PropType} (hps : ps.map Sigma.fst = types)
    (hcr : Created s ps s' is) : FieldsOk s' types is := by
  refine ⟨by rw [hcr.len, ← hps]; simp, ?_⟩
  intro i t j h1 h2
  rw [← hps, List.getElem?_map] at h1
  cases hp : ps[i]? with
  | none => rw [hp] at h1; cases h1
  | some p =>
    rw [hp] at h1; simp at h1; subst h1
    exact ⟨p.2, hcr.val i p j hp h2⟩

theorem Created.mono {F : PropType → Type} {s s' : Store F} {ps : List ((t : PropType) × F t)}
    {is : List Idx} (hcr : Created s ps s' is) : StoreMono s s' := by
  rintro t i ⟨v, hv⟩; exact ⟨v, hcr.frame t i v hv⟩

theorem owns_live {F : PropType → Type} {evs : List Event} {objs : Arena ObjectD} {s : Store F}
    {types : ContractTy → List PropType} {proj : ObjectD → List Idx}
    (hf : ∀ (C : ContractTy) (h o : Idx) (ob : ObjectD), DidCreate evs C h o → objs.get o = some ob →
      FieldsOk s (types C) (proj ob))
    (o : Idx) (i : Nat) (t : PropType) (j : Idx) (h : Owns evs objs types proj o i t j) :
    ∃ v, s.get t j = some v := by
  obtain ⟨C, k, ob, h1, h2, h3, h4⟩ := h
  exact (hf C k o ob h1 h2).2 i t j h3 h4

theorem OInv.live {evs : List Event} {objs : Arena ObjectD} {ss : Store PropType.Carrier}
    {cs : Store PropType.Chan} (h : OInv evs objs ss cs) {C : ContractTy} {k o : Idx} {ob : ObjectD}
    (hd : DidCreate evs C k o) (hg : objs.get o = some ob) :
    ob.contract = k ∧ FieldsOk ss C.stateTypes ob.states ∧ FieldsOk cs C.channelTypes ob.channels := by
  rcases h.created C k o hd with ⟨ob', h1, h2⟩ | hd
  · rw [hg] at h1; cases h1; exact h2
  · rw [hd.1] at hg; cases hg

theorem OInv.not_created {evs : List Event} {objs : Arena ObjectD} {ss : Store PropType.Carrier}
    {cs : Store PropType.Chan} (h : OInv evs objs ss cs) (ob : ObjectD) (C : ContractTy) (k : Idx) :
    ¬ DidCreate evs C k (objs.insert ob).2 := by
  intro hd
  have hs := insert_spec h.inv ob
  rcases h.created C k _ hd with ⟨ob', h1, _⟩ | hdead
  · rw [hs.dead] at h1; cases h1
  · have := hdead.2; have := hs.gen; omega

theorem typed_map_fst (ss : List DynProp) : (ss.map DynProp.typed).map Sigma.fst = ss.map DynProp.propType := by
  simp [List.map_map, Function.comp_def, DynProp.typed_fst]

/-- The object part of the invariant after a successful creation. -/
theorem OInv.create {evs : List Event} {b : Baseline} (h : OInv evs b.objects b.states b.channels)
    {C : ContractTy} {k : Idx} {ss : List DynProp} {cs : List DynChannel}
    (hs : ss.map DynProp.propType = C.stateTypes) (hcs : cs.map Sigma.fst = C.channelTypes) :
    OInv (evs ++ [(BOp.create C k ss cs, .ok (some (b.objects.insert (createdObj b k ss cs)).2))])
      (b.objects.insert (createdObj b k ss cs)).1
      (createAll b.states (ss.map DynProp.typed)).1 (createAll b.channels cs).1 := by
  have hS := createAll_created h.sInv (ss.map DynProp.typed)
  have hC := createAll_created h.cInv cs
  have hS' : Created b.states (ss.map DynProp.typed) (createAll b.states (ss.map DynProp.typed)).1
      (createdObj b k ss cs).states := hS
  have hC' : Created b.channels cs (createAll b.channels cs).1 (createdObj b k ss cs).channels := hC
  have hst : (ss.map DynProp.typed).map Sigma.fst = C.stateTypes := by rw [typed_map_fst, hs]
  have hself := get_insert_self h.inv (createdObj b k ss cs)
  refine ⟨insert_inv h.inv _, hS.inv, hC.inv, ?_, ?_, ?_, ?_⟩
  · rintro C' k' o ⟨ss', cs', hm⟩
    rcases List.mem_append.1 hm with hm | hm
    · rcases h.created C' k' o ⟨ss', cs', hm⟩ with ⟨ob, h1, h2, h3, h4⟩ | hd
      · exact .inl ⟨ob, get_insert_of_some h.inv _ _ h1, h2, h3.mono hS.mono, h4.mono hC.mono⟩
      · exact .inr (insert_dead h.inv hd _)
    · simp at hm
      obtain ⟨⟨rfl, rfl, _⟩, rfl⟩ := hm
      exact .inl ⟨_, hself, rfl, fieldsOk_created hst hS, fieldsOk_created hcs hC⟩
  · intro o ob hg
    rw [get_insert h.inv] at hg
    split at hg
    · rename_i e; subst e
      cases hg
      exact ⟨C, ss, cs, by simp [createdObj]⟩
    · obtain ⟨C', ss', cs', hm⟩ := h.origin o ob hg
      exact ⟨C', ss', cs', by simp [hm]⟩
  · exact noAlias_create h.aliasS h.inv
      (owns_live (fun C h' o ob h1 h2 => (h.live h1 h2).2.1)) hst hS' (h.not_created _)
  · exact noAlias_create h.aliasC h.inv
      (owns_live (fun C h' o ob h1 h2 => (h.live h1 h2).2.2)) hcs hC' (h.not_created _)

/-! ## Contracts -/

def SameRegs (evs evs' : List Event) : Prop := ∀ (C : ContractTy) (h : Idx), DidRegister evs' C h ↔ DidRegister evs C h

theorem sameRegs_snoc {evs : List Event} {e : Event}
    (he : ∀ (C : ContractTy) (h : Idx), e ≠ (BOp.register C, .ok (some h))) :
    SameRegs evs (evs ++ [e]) := by
  intro C h
  unfold DidRegister
  constructor
  · intro hm
    rcases List.mem_append.1 hm with hm | hm
    · exact hm
    · simp at hm; exact absurd hm.symm (he C h)
  · intro hm; simp [hm]

/-- Contracts unchanged, objects changed benignly. -/
theorem CInv.mono {evs evs' : List Event} {objs objs' : Arena ObjectD} {cons : Arena ContractData}
    (h : CInv evs objs cons) (he : SameRegs evs evs') (ho : ObjMono objs objs') : CInv evs' objs' cons := by
  refine ⟨h.inv, fun C k hr => h.registered C k ((he C k).1 hr), ?_, h.idUnique, ?_, h.nodup⟩
  · intro k cd hg
    obtain ⟨C, h1, h2⟩ := h.origin k cd hg
    exact ⟨C, h1, (he _ _).2 h2⟩
  · intro k o cd hg hm
    rcases h.listed k o cd hg hm with ⟨ob, h1, h2⟩ | hd
    · rcases ho.fwd o ob h1 with ⟨ob', h3, _, _, h4⟩ | hd
      · exact .inl ⟨ob', h3, by rw [h4, h2]⟩
      · exact .inr hd
    · exact .inr (ho.dead o hd)

/-- A modification of one contract's object set, keeping the id. -/
theorem CInv.modify {evs : List Event} {objs : Arena ObjectD} {cons cons' : Arena ContractData} {k : Idx}
    {f : ContractData → ContractData} (h : CInv evs objs cons) (hm : cons.modify k f = some cons')
    (hid : ∀ cd : ContractData, (f cd).id = cd.id)
    (hls : ∀ (cd : ContractData) (o : Idx), cons.get k = some cd → o ∈ (f cd).objects →
      (∃ ob, objs.get o = some ob ∧ ob.contract = k) ∨ Dead objs o)
    (hnd : ∀ (cd : ContractData), cd.objects.Nodup → (f cd).objects.Nodup) : CInv evs objs cons' := by
  have back : ∀ (k' : Idx) (cd' : ContractData), cons'.get k' = some cd' →
      ∃ cd, cons.get k' = some cd ∧ cd'.id = cd.id ∧ ((k' = k ∧ cd' = f cd) ∨ cd' = cd) := by
    intro k' cd' hg
    rw [get_modify hm] at hg
    split at hg
    · rename_i e; subst e
      cases hx : cons.get k' with
      | none => rw [hx] at hg; cases hg
      | some cd => rw [hx] at hg; cases hg; exact ⟨cd, rfl, hid cd, .inl ⟨rfl, rfl⟩⟩
    · exact ⟨cd', hg, rfl, .inr rfl⟩
  refine ⟨modify_inv h.inv hm, ?_, ?_, ?_, ?_, ?_⟩
  · intro C k' hr
    rcases h.registered C k' hr with ⟨cd, h1, h2⟩ | hd
    · left
      rw [get_modify hm]
      split
      · rename_i e; subst e; rw [h1]; exact ⟨_, rfl, by rw [hid, h2]⟩
      · exact ⟨cd, h1, h2⟩
    · exact .inr (modify_dead hd hm)
  · intro k' cd' hg
    obtain ⟨cd, h1, h2, _⟩ := back k' cd' hg
    obtain ⟨C, h3, h4⟩ := h.origin k' cd h1
    exact ⟨C, by rw [h3, h2], h4⟩
  · intro k1 k2 c1 c2 g1 g2 e
    obtain ⟨d1, h1, e1, _⟩ := back k1 c1 g1
    obtain ⟨d2, h2, e2, _⟩ := back k2 c2 g2
    exact h.idUnique k1 k2 d1 d2 h1 h2 (by rw [← e1, ← e2, e])
  · intro k' o cd' hg ho
    obtain ⟨cd, h1, _, (⟨rfl, rfl⟩ | rfl)⟩ := back k' cd' hg
    · exact hls cd o h1 ho
    · exact h.listed k' o cd' h1 ho
  · intro k' cd' hg
    obtain ⟨cd, h1, _, (⟨rfl, rfl⟩ | rfl)⟩ := back k' cd' hg
    · exact hnd cd (h.nodup _ cd h1)
    · exact h.nodup k' cd' h1

theorem CInv.remove {evs : List Event} {objs : Arena ObjectD} {cons : Arena ContractData} (k : Idx)
    (h : CInv evs objs cons) : CInv evs objs (cons.remove k).1 := by
  have back : ∀ (k' : Idx) (cd : ContractData), (cons.remove k).1.get k' = some cd → cons.get k' = some cd := by
    intro k' cd hg
    rw [get_remove] at hg
    split at hg
    · cases hg
    · exact hg
  refine ⟨remove_inv h.inv k, ?_, fun k' cd hg => h.origin k' cd (back _ _ hg),
    fun k1 k2 c1 c2 g1 g2 e => h.idUnique k1 k2 c1 c2 (back _ _ g1) (back _ _ g2) e,
    fun k' o cd hg => h.listed k' o cd (back _ _ hg), fun k' cd hg => h.nodup k' cd (back _ _ hg)⟩
  intro C k' hr
  rcases h.registered C k' hr with ⟨cd, h1, h2⟩ | hd
  · by_cases e : k' = k
    · subst e; exact .inr (remove_dead h.inv h1)
    · exact .inl ⟨cd, by rw [get_remove, if_neg e, h1], h2⟩
  · exact .inr (remove_dead_of_dead hd k)

theorem CInv.register {evs : List Event} {objs : Arena ObjectD} {cons : Arena ContractData}
    (h : CInv evs objs cons) {C : ContractTy}
    (hnew : ∀ (k : Idx) (cd : ContractData), cons.get k = some cd → cd.id ≠ C.id) :
    CInv (evs ++ [(BOp.register C, .ok (some (cons.insert ⟨C.id, []⟩).2))]) objs (cons.insert ⟨C.id, []⟩).1 := by
  have hself := get_insert_self h.inv (⟨C.id, []⟩ : ContractData)
  have back : ∀ (k : Idx) (cd : ContractData), (cons.insert ⟨C.id, []⟩).1.get k = some cd →
      (k = (cons.insert ⟨C.id, []⟩).2 ∧ cd = ⟨C.id, []⟩) ∨ cons.get k = some cd := by
    intro k cd hg
    rw [get_insert h.inv] at hg
    split at hg
    · rename_i e; cases hg; exact .inl ⟨e, rfl⟩
    · exact .inr hg
  refine ⟨insert_inv h.inv _, ?_, ?_, ?_, ?_, ?_⟩
  · intro C' k hr
    unfold DidRegister at hr
    rcases List.mem_append.1 hr with hr | hr
    · rcases h.registered C' k hr with ⟨cd, h1, h2⟩ | hd
      · exact .inl ⟨cd, get_insert_of_some h.inv _ _ h1, h2⟩
      · exact .inr (insert_dead h.inv hd _)
    · simp at hr
      obtain ⟨rfl, rfl⟩ := hr
      exact .inl ⟨_, hself, rfl⟩
  · intro k cd hg
    rcases back k cd hg with ⟨rfl, rfl⟩ | hg
    · exact ⟨C, rfl, by simp [DidRegister]⟩
    · obtain ⟨C', h1, h2⟩ := h.origin k cd hg
      exact ⟨C', h1, by unfold DidRegister at *; simp [h2]⟩
  · intro k1 k2 c1 c2 g1 g2 e
    rcases back k1 c1 g1 with ⟨rfl, rfl⟩ | g1
    · rcases back k2 c2 g2 with ⟨rfl, rfl⟩ | g2
      · rfl
      · exact absurd e.symm (hnew k2 c2 g2)
    · rcases back k2 c2 g2 with ⟨rfl, rfl⟩ | g2
      · exact absurd e (hnew k1 c1 g1)
      · exact h.idUnique k1 k2 c1 c2 g1 g2 e
  · intro k o cd hg ho
    rcases back k cd hg with ⟨rfl, rfl⟩ | hg
    · cases ho
    · exact h.listed k o cd hg ho
  · intro k cd hg
    rcases back k cd hg with ⟨rfl, rfl⟩ | hg
    · exact List.nodup_nil
    · exact h.nodup k cd hg

/-! ## Every step preserves the invariant -/

theorem new_binv (kind : Kind) : BInv [] (Baseline.new kind) := by
  have hg : ∀ (h : Idx), (Baseline.new kind).objects.get h = none := fun h => get_new h
  have hg' : ∀ (h : Idx), (Baseline.new kind).contracts.get h = none := fun h => get_new h
  refine ⟨⟨new_inv, empty_inv, empty_inv, ?_, ?_, ?_, ?_⟩, ⟨new_inv, ?_, ?_, ?_, ?_, ?_⟩⟩
  · rintro C h o ⟨_, _, hm⟩; cases hm
  · intro o ob h; rw [hg] at h; cases h
  · rintro o1 o2 i1 i2 t j ⟨C, h, ob, ⟨_, _, hm⟩, _⟩; cases hm
  · rintro o1 o2 i1 i2 t j ⟨C, h, ob, ⟨_, _, hm⟩, _⟩; cases hm
  · intro C h hm; cases hm
  · intro o ob h; rw [hg'] at h; cases h
  · intro h1 h2 c1 c2 h; rw [hg'] at h; cases h
  · intro h o cd h1; rw [hg'] at h1; cases h1
  · intro h cd h1; rw [hg'] at h1; cases h1

theorem storeMono_refl {F : PropType → Type} (s : Store F) : StoreMono s s := fun _ _ h => h

/-- Same baseline, one more event that created and registered nothing. -/
theorem BInv.snoc {evs : List Event} {b : Baseline} (h : BInv evs b) {e : Event}
    (he : ∀ i : Idx, e.2 ≠ .ok (some i)) : BInv (evs ++ [e]) b :=
  ⟨h.o.mono (sameCreates_snoc (fun _ _ _ _ o e' => he o (by rw [e']))) (ObjMono.refl h.o.inv)
      (storeMono_refl _) h.o.sInv (storeMono_refl _) h.o.cInv,
    h.c.mono (sameRegs_snoc (fun _ k e' => he k (by rw [e']))) (ObjMono.refl h.o.inv)⟩

/-- Objects changed benignly, one more event that created and registered nothing. -/
theorem BInv.objs {evs : List Event} {b : Baseline} (h : BInv evs b) {e : Event}
    (he : ∀ i : Idx, e.2 ≠ .ok (some i)) {objs : Arena ObjectD} (ho : ObjMono b.objects objs) :
    BInv (evs ++ [e]) { b with objects := objs } :=
  ⟨h.o.mono (sameCreates_snoc (fun _ _ _ _ o e' => he o (by rw [e']))) ho
      (storeMono_refl _) h.o.sInv (storeMono_refl _) h.o.cInv,
    h.c.mono (sameRegs_snoc (fun _ k e' => he k (by rw [e']))) ho⟩

theorem map_none_ne {α : Type} (r : Outcome α) (i : Idx) :
    (r.map fun _ => (none : Option Idx)) ≠ .ok (some i) := by
  cases r <;> simp [Outcome.map, Outcome.bind]

theorem objectRemove_fst (b : Baseline) (C : ContractTy) (o : Idx) :
    (b.objectRemove C o).1 = { b with objects := removeList b.objects [o] } := by
  cases hg : b.objects.get o with
  | none =>
    rw [objectRemove_none hg]
    simp [removeList, remove_of_none hg]
  | some ob => rw [objectRemove_some hg]; rfl

theorem registerContract_cases (b : Baseline) (C : ContractTy) :
    ((∃ h cd, b.contracts.get h = some cd ∧ cd.id = C.id) ∧
      b.registerContract C = (b, .err "contract already added")) ∨
    ((∀ (k : Idx) (cd : ContractData), b.contracts.get k = some cd → cd.id ≠ C.id) ∧
      b.registerContract C = ({ b with contracts := (b.contracts.insert ⟨C.id, []⟩).1 },
        .ok (b.contracts.insert ⟨C.id, []⟩).2)) := by
  unfold registerContract
  by_cases h : ∃ h cd, b.contracts.get h = some cd ∧ cd.id = C.id
  · left; refine ⟨h, ?_⟩; rw [if_pos (any_id_iff.2 h)]
  · right
    refine ⟨fun k cd hg e => h ⟨k, cd, hg, e⟩, ?_⟩
    rw [if_neg (fun e => h (any_id_iff.1 e))]

/-- Empty the object set of a contract. -/
def clearObjs (cd : ContractData) : ContractData := { cd with objects := [] }

/-- What `unregister_contract` does. -/
theorem unregister_cases (b : Baseline) (C : ContractTy) (h : Idx) (ord : HashOrder) :
    ((b.unregisterContract C h ord).1 = b ∧ (b.unregisterContract C h ord).2.isErr = true ∧
      ¬ ∃ cd, b.contracts.get h = some cd ∧ cd.id = C.id) ∨
    (∃ cd cons done, b.contracts.get h = some cd ∧ cd.id = C.id ∧
      b.contracts.modify h clearObjs = some cons ∧ done <+: ord.order cd.objects ∧
      ((done = ord.order cd.objects ∧
        b.unregisterContract C h ord =
          ({ b with objects := removeList b.objects done, contracts := (cons.remove h).1 }, .ok ())) ∨
       ((b.unregisterContract C h ord).1 =
          { b with objects := removeList b.objects done, contracts := cons } ∧
        (b.unregisterContract C h ord).2.isPanic = true))) := by
  cases hg : b.contracts.get h with
  | none => left; simp [unregisterContract, hg, Outcome.isErr]
  | some cd =>
    by_cases hid : cd.id = C.id
    · right
      obtain ⟨cons, hm⟩ := modify_isSome hg clearObjs
      obtain ⟨done, h1, h2, h3⟩ := removeObjects_spec C (ord.order cd.objects) { b with contracts := cons }
      refine ⟨cd, cons, done, rfl, hid, hm, h1, ?_⟩
      have hm' : b.contracts.modify h (fun cd => { cd with objects := [] }) = some cons := hm
      have hu : b.unregisterContract C h ord =
          (match removeObjects C (ord.order cd.objects) { b with contracts := cons } with
            | (b1, .err m) => (b1, .err m)
            | (b1, .panic m) => (b1, .panic m)
            | (b1, .ok ()) => ({ b1 with contracts := (b1.contracts.remove h).1 }, .ok ())) := by
        simp only [unregisterContract, hg, hid, ne_eq, not_true, if_false, hm'] <;> rfl
      rw [hu]
      rcases hr : removeObjects C (ord.order cd.objects) { b with contracts := cons } with ⟨b1, r⟩
      rw [hr] at h2 h3
      simp only at h2 h3
      subst h2
      rcases h3 with ⟨rfl, hd⟩ | h3
      · exact .inl ⟨hd, rfl⟩
      · cases r with
        | ok _ => cases h3
        | err m => cases h3
        | panic m => exact .inr ⟨rfl, rfl⟩
    · left
      simp [unregisterContract, hg, hid, Outcome.isErr]

theorem nodup_addObj {cd : ContractData} {o : Idx} (h : cd.objects.Nodup) : (addObj o cd).objects.Nodup := by
  simp only [addObj]
  by_cases hx : o ∈ cd.objects
  · rwa [List.insert_of_mem hx]
  · rw [List.insert_of_not_mem hx]; exact List.nodup_cons.2 ⟨hx, h⟩

theorem step_binv {evs : List Event} {b : Baseline} (h : BInv evs b) (op : BOp) :
    BInv (evs ++ [(op, (b.step op).2)]) (b.step op).1 := by
  cases op with
  | register C =>
    rcases registerContract_cases b C with ⟨_, hr⟩ | ⟨hn, hr⟩
    · simp only [Baseline.step, hr]
      exact h.snoc (by simp [Outcome.map, Outcome.bind])
    · simp only [Baseline.step, hr, Outcome.map, Outcome.bind]
      exact ⟨h.o.mono (sameCreates_snoc (by simp)) (ObjMono.refl h.o.inv)
        (storeMono_refl _) h.o.sInv (storeMono_refl _) h.o.cInv, h.c.register hn⟩
  | unregister C k ord =>
    rcases unregister_cases b C k ord with ⟨h1, h2, _⟩ | ⟨cd, cons, done, h1, h2, h3, h4, h5⟩
    · simp only [Baseline.step]
      rw [h1]
      exact h.snoc (fun i => map_none_ne _ i)
    · have hmod : CInv evs b.objects cons := h.c.modify h3 (fun _ => rfl)
        (fun _ _ _ ho => by cases ho) (fun _ _ => List.nodup_nil)
      have hobj := (h.objs (e := (BOp.unregister C k ord, (b.step (.unregister C k ord)).2))
        (fun i => map_none_ne _ i) (ObjMono.removeList h.o.inv done)).o
      have hmod' : CInv (evs ++ [(BOp.unregister C k ord, (b.step (.unregister C k ord)).2)])
          (removeList b.objects done) cons := hmod.mono
            (sameRegs_snoc (fun _ _ e => map_none_ne _ _ (congrArg Prod.snd e)))
            (ObjMono.removeList h.o.inv done)
      have hfst : (b.step (.unregister C k ord)).1 = (b.unregisterContract C k ord).1 := rfl
      rw [hfst]
      rcases h5 with ⟨_, h5⟩ | ⟨h5, _⟩
      · rw [h5]; exact ⟨hobj, hmod'.remove k⟩
      · rw [h5]; exact ⟨hobj, hmod'⟩
  | create C k ss cs =>
    rcases objectCreate_cases b C k ss cs with ⟨⟨cd, hc⟩, hs, hcs⟩ | ⟨h1, h2, _⟩
    · obtain ⟨cons, hm, hr⟩ := objectCreate_ok hc hs hcs
      simp only [Baseline.step, hr, Outcome.map, Outcome.bind]
      have hO := h.o.create (k := k) hs hcs
      have hself := get_insert_self h.o.inv (createdObj b k ss cs)
      refine ⟨hO, ?_⟩
      have hmono : CInv (evs ++ [(BOp.create C k ss cs,
          .ok (some (b.objects.insert (createdObj b k ss cs)).2))])
          (b.objects.insert (createdObj b k ss cs)).1 b.contracts := by
        have hr' : SameRegs evs (evs ++ [(BOp.create C k ss cs,
          .ok (some (b.objects.insert (createdObj b k ss cs)).2))]) := sameRegs_snoc (by simp)
        refine ⟨h.c.inv, fun C k hr => h.c.registered C k ((hr' C k).1 hr), ?_, h.c.idUnique, ?_, h.c.nodup⟩
        · intro k cd hg
          obtain ⟨C, h1, h2⟩ := h.c.origin k cd hg
          exact ⟨C, h1, (hr' _ _).2 h2⟩
        · intro k o cd hg hm
          rcases h.c.listed k o cd hg hm with ⟨ob, h1, h2⟩ | hd
          · exact .inl ⟨ob, get_insert_of_some h.o.inv _ _ h1, h2⟩
          · exact .inr (insert_dead h.o.inv hd _)
      refine hmono.modify hm (fun _ => rfl) ?_ ?_
      · intro cd' o hg ho
        simp only [addObj] at ho
        rcases List.mem_insert_iff.1 ho with rfl | ho
        · exact .inl ⟨_, hself, rfl⟩
        · exact hmono.listed k o cd' hg ho
      · intro cd' hn
        exact nodup_addObj hn
    · simp only [Baseline.step]
      rw [h1]
      refine h.snoc (fun i => ?_)
      cases hr : (b.objectCreate C k ss cs).2 with
      | ok _ => rw [hr] at h2; cases h2
      | err m => simp [Outcome.map, Outcome.bind]
      | panic m => simp [Outcome.map, Outcome.bind]
  | remove C o =>
    simp only [Baseline.step]
    rw [objectRemove_fst]
    exact h.objs (fun i => map_none_ne _ i) (ObjMono.removeList h.o.inv [o])
  | writeState t k v =>
    have hne : ∀ i : Idx, (b.step (.writeState t k v)).2 ≠ .ok (some i) := fun i => map_none_ne _ i
    generalize (b.step (.writeState t k v)).2 = out at hne
    simp only [Baseline.step, stateWrite]
    split
    · exact h.snoc (by simpa using hne)
    · rename_i s hw
      refine ⟨h.o.mono (sameCreates_snoc ?_) (ObjMono.refl h.o.inv)
        (fun _ _ => get_write_live hw) (write_inv h.o.sInv hw) (storeMono_refl _) h.o.cInv,
        h.c.mono (sameRegs_snoc ?_) (ObjMono.refl h.o.inv)⟩ <;> simp
  | writeChannel t k v =>
    have hne : ∀ i : Idx, (b.step (.writeChannel t k v)).2 ≠ .ok (some i) := fun i => map_none_ne _ i
    generalize (b.step (.writeChannel t k v)).2 = out at hne
    simp only [Baseline.step, channelWrite]
    split
    · exact h.snoc (by simpa using hne)
    · rename_i s hw
      refine ⟨h.o.mono (sameCreates_snoc ?_) (ObjMono.refl h.o.inv)
        (storeMono_refl _) h.o.sInv (fun _ _ => get_write_live hw) (write_inv h.o.cInv hw),
        h.c.mono (sameRegs_snoc ?_) (ObjMono.refl h.o.inv)⟩ <;> simp
  | setWarp o w =>
    have hne : ∀ i : Idx, (b.step (.setWarp o w)).2 ≠ .ok (some i) := fun i => map_none_ne _ i
    generalize (b.step (.setWarp o w)).2 = out at hne
    simp only [Baseline.step, setWarp]
    split
    · exact h.snoc (by simpa using hne)
    · rename_i objs hm
      exact h.objs (by simpa using hne) (ObjMono.warp h.o.inv hm)

theorem trace_binv {P evs : List Event} {b b' : Baseline} (h : BInv P b) (ht : Trace b evs b') :
    BInv (P ++ evs) b' := by
  induction ht generalizing P with
  | nil b => simpa using h
  | cons b op evs b' _ ih =>
    have := ih (step_binv h op)
    simpa using this

theorem history_binv {kind : Kind} {evs : List Event} {b : Baseline} (h : History kind evs b) :
    BInv evs b := by simpa using trace_binv (new_binv kind) h

end Verif
