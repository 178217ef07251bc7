import Mathlib.Data.List.Perm.Basic
import Verif.Spec.SameFile
import Verif.Props.Bytes
import Verif.Props.Separate
import Verif.Props.SaveRestore
/-!
# Saving two baselines with the same contents, with corresponding orders
-/
namespace Verif.Fb.Twin
open Verif Verif.Spec Verif.Props Arena Baseline

/-- Two maps with corresponding keys and the same numbers. -/
def MapRel (R : Idx → Idx → Prop) (m m' : BiMap Idx Nat) : Prop := List.Forall₂ (fun p q => R p.1 q.1 ∧ p.2 = q.2) m.pairs m'.pairs

/-- One key for one key. -/
def OneOne (R : Idx → Idx → Prop) : Prop := ∀ a a' b b' : Idx, R a a' → R b b' → (a = b ↔ a' = b')

theorem MapRel.insert {R : Idx → Idx → Prop} (h1 : OneOne R) {m m' : BiMap Idx Nat} (h : MapRel R m m') {a a' : Idx} (hr : R a a') (i : Nat) :
    MapRel R (m.insert a i) (m'.insert a' i) := by
  refine .cons ⟨hr, rfl⟩ ?_
  unfold MapRel at h
  generalize m.pairs = l at h
  generalize m'.pairs = l' at h
  induction h with
  | nil => exact .nil
  | cons hp _ ih =>
    have e1 := h1 _ _ _ _ hp.1 hr
    have e2 := hp.2
    simp only [List.filter_cons]
    simp only [ne_eq, e1, e2]
    split
    · exact .cons hp ih
    · exact ih

theorem MapRel.getL {R : Idx → Idx → Prop} (h1 : OneOne R) {m m' : BiMap Idx Nat} (h : MapRel R m m') {a a' : Idx} (hr : R a a') :
    m.getL a = m'.getL a' := by
  unfold MapRel at h
  unfold BiMap.getL
  generalize m.pairs = l at h
  generalize m'.pairs = l' at h
  induction h with
  | nil => rfl
  | cons hp _ ih =>
    have e1 := h1 _ _ _ _ hp.1 hr
    simp only [List.find?_cons, e1]
    split
    · simp [hp.2]
    · exact ih

/-- What is written for a value does not depend on what its handle is, nor on the sign of a zero. -/
theorem createValue_restored (f : Fbb) (φ ψ : Idx → Idx) (p : DynProp) : f.createValue (asRestored φ ψ p) = f.createValue p := by
  cases p with
  | vec q => rfl
  | primitive q =>
    cases q <;> try rfl
    case f32 v =>
      simp only [asRestored, Fbb.createValue, unsigned32]
      split
      · subst_vars; rfl
      · rfl
    case f64 v =>
      simp only [asRestored, Fbb.createValue, unsigned64]
      split
      · subst_vars; rfl
      · rfl

variable {kind1 kind2 : Kind} {evs1 evs2 : List Event} {b1 b2 : Baseline} {cs1 cs2 : List (ContractTy × Idx)} {φ ψ : Idx → Idx}

/-- The places where one state is stored. -/
def SlotRel (b1 : Baseline) (cs1 : List (ContractTy × Idx)) (b2 : Baseline) (φ ψ : Idx → Idx) (t : PropType) (j1 j2 : Idx) : Prop :=
  ∃ C h o n f, (C, h) ∈ cs1 ∧ o ∈ objectsOf b1 h ∧ C.states[n]? = some f ∧ f.ty = t ∧
    b1.bindState ⟨n, h⟩ o = .ok j1 ∧ b2.bindState ⟨n, ψ h⟩ (φ o) = .ok j2

theorem slot_owner {kind : Kind} {evs : List Event} {b : Baseline} {cs : List (ContractTy × Idx)} (hS : Savable kind evs b cs)
    {C C' : ContractTy} {h h' o o' : Idx} {n n' : Nat} {f f' : Field} {j : Idx} (m : (C, h) ∈ cs) (m' : (C', h') ∈ cs)
    (hf : C.states[n]? = some f) (hf' : C'.states[n']? = some f') (ht : f.ty = f'.ty)
    (e : b.bindState ⟨n, h⟩ o = .ok j) (e' : b.bindState ⟨n', h'⟩ o' = .ok j) : h = h' ∧ o = o' ∧ n = n' := by
  have hB := history_binv hS.history
  obtain ⟨ob, g, hc, hj⟩ := bindState_live e
  obtain ⟨ob', g', hc', hj'⟩ := bindState_live e'
  have own : ∀ {D : ContractTy} {k x : Idx} {i : Nat} {fd : Field} {ox : ObjectD}, (D, k) ∈ cs → b.objects.get x = some ox → k = ox.contract →
      D.states[i]? = some fd → ox.states[i]? = some j → Owns evs b.objects ContractTy.stateTypes ObjectD.states x i fd.ty j := by
    intro D k x i fd ox md gx hk hfd hjx
    obtain ⟨D', hD⟩ := hB.o.origin x ox gx
    have : D' = D := hS.serializable.typed D D' k x md (by rw [hk]; exact hD)
    subst this
    exact ⟨D', _, ox, hD, gx, by simp [ContractTy.stateTypes, hfd], hjx⟩
  have h1 := own m g hc hf hj
  have h2 := own m' g' hc' hf' hj'
  rw [ht] at h1
  obtain ⟨rfl, rfl⟩ := hB.o.aliasS _ _ _ _ _ _ h1 h2
  rw [g] at g'; cases g'
  exact ⟨hc.trans hc'.symm, rfl, rfl⟩

theorem slot_oneOne (hS1 : Savable kind1 evs1 b1 cs1) (hS2 : Savable kind2 evs2 b2 cs2) (hs : SameSaved b1 cs1 b2 cs2 φ ψ) (t : PropType) :
    OneOne (SlotRel b1 cs1 b2 φ ψ t) := by
  rintro j j2 k k2 ⟨C, h, o, n, f, m, l, hf, ht, e1, e2⟩ ⟨D, g, p, n', f', m', l', hf', ht', e1', e2'⟩
  constructor
  · rintro rfl
    obtain ⟨rfl, rfl, rfl⟩ := slot_owner hS1 m m' hf hf' (ht.trans ht'.symm) e1 e1'
    rw [e2] at e2'; injection e2'
  · rintro rfl
    have m2 := (hs.instances C _).2 ⟨h, m, rfl⟩
    have m2' := (hs.instances D _).2 ⟨g, m', rfl⟩
    obtain ⟨x, y, rfl⟩ := slot_owner hS2 m2 m2' hf hf' (ht.trans ht'.symm) e2 e2'
    have := hs.conInj _ _ _ _ m m' x
    subst this
    have := hs.objInj _ _ _ _ _ _ m m' l l' y
    subst this
    rw [e1] at e1'; injection e1'

def ORel (b1 : Baseline) (cs1 : List (ContractTy × Idx)) (φ : Idx → Idx) (o o' : Idx) : Prop :=
  o' = φ o ∧ ∃ C h, (C, h) ∈ cs1 ∧ o ∈ objectsOf b1 h

def KRel (cs1 : List (ContractTy × Idx)) (ψ : Idx → Idx) (h h' : Idx) : Prop := h' = ψ h ∧ ∃ C, (C, h) ∈ cs1

theorem o_oneOne (hs : SameSaved b1 cs1 b2 cs2 φ ψ) : OneOne (ORel b1 cs1 φ) := by
  rintro a a' b b' ⟨rfl, C, h, m, l⟩ ⟨rfl, C', h', m', l'⟩
  exact ⟨fun e => by rw [e], hs.objInj _ _ _ _ _ _ m m' l l'⟩

theorem k_oneOne (hs : SameSaved b1 cs1 b2 cs2 φ ψ) : OneOne (KRel cs1 ψ) := by
  rintro a a' b b' ⟨rfl, C, m⟩ ⟨rfl, C', m'⟩
  exact ⟨fun e => by rw [e], hs.conInj _ _ _ _ m m'⟩

/-- The two serializers have written the same and noted corresponding handles. -/
structure SerSim (b1 : Baseline) (cs1 : List (ContractTy × Idx)) (b2 : Baseline) (φ ψ : Idx → Idx) (s1 s2 : SerB) : Prop where
  base1 : s1.base = b1
  base2 : s2.base = b2
  fbb : s2.fbb = s1.fbb
  contracts : s2.contracts = s1.contracts
  states : s2.states = s1.states
  objects : s2.objects = s1.objects
  hObjects : MapRel (ORel b1 cs1 φ) s1.hObjects s2.hObjects
  hContracts : MapRel (KRel cs1 ψ) s1.hContracts s2.hContracts
  hContractStates : MapRel (SlotRel b1 cs1 b2 φ ψ (.prim .contractDataHandle)) s1.hContractStates s2.hContractStates
  hObjectStates : MapRel (SlotRel b1 cs1 b2 φ ψ (.prim .objectHandle)) s1.hObjectStates s2.hObjectStates

theorem note_sim (hS1 : Savable kind1 evs1 b1 cs1) (hS2 : Savable kind2 evs2 b2 cs2) (hs : SameSaved b1 cs1 b2 cs2 φ ψ) {s1 s2 : SerB}
    (h : SerSim b1 cs1 b2 φ ψ s1 s2) (t : PropType) {j j' : Idx} (hr : SlotRel b1 cs1 b2 φ ψ t j j') (i : Nat) :
    SerSim b1 cs1 b2 φ ψ (s1.noteHandle t j i) (s2.noteHandle t j' i) := by
  unfold SerB.noteHandle
  split
  · exact { h with hObjectStates := h.hObjectStates.insert (slot_oneOne hS1 hS2 hs _) hr i }
  · exact { h with hContractStates := h.hContractStates.insert (slot_oneOne hS1 hS2 hs _) hr i }
  · exact h

theorem pushState_sim (hS1 : Savable kind1 evs1 b1 cs1) (hS2 : Savable kind2 evs2 b2 cs2) (hs : SameSaved b1 cs1 b2 cs2 φ ψ) {s1 s2 : SerB}
    (h : SerSim b1 cs1 b2 φ ψ s1 s2) {C : ContractTy} {k o : Idx} {n : Nat} {f : Field} (m : (C, k) ∈ cs1) (l : o ∈ objectsOf b1 k)
    (hf : C.states[n]? = some f) :
    SerSim b1 cs1 b2 φ ψ (s1.pushState o ⟨f.ty, ⟨n, k⟩⟩).1 (s2.pushState (φ o) ⟨f.ty, ⟨n, ψ k⟩⟩).1 ∧
      (s2.pushState (φ o) ⟨f.ty, ⟨n, ψ k⟩⟩).2 = (s1.pushState o ⟨f.ty, ⟨n, k⟩⟩).2 := by
  obtain ⟨v1, v2, ⟨j1, a1, a2⟩, ⟨j2, c1, c2⟩, hv⟩ := hs.values C k o n f m l hf
  have hr : SlotRel b1 cs1 b2 φ ψ f.ty j1 j2 := ⟨C, k, o, n, f, m, l, hf, rfl, a1, c1⟩
  have hval : s2.fbb.createValue (DynProp.ofTyped f.ty v2) = s1.fbb.createValue (DynProp.ofTyped f.ty v1) := by
    rw [h.fbb, ← createValue_restored _ id id, ← hv, createValue_restored]
  unfold SerB.pushState
  simp only [h.base1, h.base2, a1, a2, c1, c2, hval]
  split
  · exact ⟨h, rfl⟩
  · exact ⟨h, rfl⟩
  · rename_i g off _
    have hn := note_sim hS1 hS2 hs (s1 := { s1 with fbb := g, states := s1.states ++ [off] })
      (s2 := { s2 with fbb := g, states := s2.states ++ [off] })
      { h with fbb := rfl, states := by simp [h.states] } f.ty hr s1.states.length
    rw [h.states] at hn ⊢
    simp only [h.base1, h.base2] at hn ⊢
    rw [hn.fbb]
    split
    · exact ⟨hn, rfl⟩
    · exact ⟨{ hn with fbb := rfl }, rfl⟩

/-- The ids of one field. -/
def IdRel (C : ContractTy) (k k' : Idx) (d d' : DynId) : Prop := ∃ n f, C.states[n]? = some f ∧ d = ⟨f.ty, ⟨n, k⟩⟩ ∧ d' = ⟨f.ty, ⟨n, k'⟩⟩

theorem ids_rel (C : ContractTy) (k k' : Idx) : List.Forall₂ (IdRel C k k') (C.stateIds k) (C.stateIds k') := by
  rw [List.forall₂_iff_get]
  refine ⟨by rw [stateIds_length, stateIds_length], fun i h1 h2 => ?_⟩
  have hi : i < C.states.length := by rw [← stateIds_length C k]; exact h1
  have hf : C.states[i]? = some C.states[i] := List.getElem?_eq_getElem hi
  have e1 := stateIds_get (h := k) hf
  have e2 := stateIds_get (h := k') hf
  rw [List.getElem?_eq_getElem h1] at e1
  rw [List.getElem?_eq_getElem h2] at e2
  exact ⟨i, _, hf, Option.some.inj e1, Option.some.inj e2⟩

theorem pushStates_sim (hS1 : Savable kind1 evs1 b1 cs1) (hS2 : Savable kind2 evs2 b2 cs2) (hs : SameSaved b1 cs1 b2 cs2 φ ψ)
    {C : ContractTy} {k o : Idx} (m : (C, k) ∈ cs1) (l : o ∈ objectsOf b1 k) {ds ds' : List DynId} (hd : List.Forall₂ (IdRel C k (ψ k)) ds ds')
    {s1 s2 : SerB} (h : SerSim b1 cs1 b2 φ ψ s1 s2) :
    SerSim b1 cs1 b2 φ ψ (s1.pushStates o ds).1 (s2.pushStates (φ o) ds').1 ∧ (s2.pushStates (φ o) ds').2 = (s1.pushStates o ds).2 := by
  induction hd generalizing s1 s2 with
  | nil => exact ⟨h, rfl⟩
  | cons hx _ ih =>
    obtain ⟨n, f, hf, rfl, rfl⟩ := hx
    obtain ⟨g1, g2⟩ := pushState_sim hS1 hS2 hs h m l hf
    unfold SerB.pushStates
    revert g1 g2
    generalize s1.pushState o ⟨f.ty, ⟨n, k⟩⟩ = r1
    generalize s2.pushState (φ o) ⟨f.ty, ⟨n, ψ k⟩⟩ = r2
    obtain ⟨t1, q1⟩ := r1
    obtain ⟨t2, q2⟩ := r2
    rintro g1 g2
    simp only at g1 g2
    subst g2
    cases q2 with
    | err _ => exact ⟨g1, rfl⟩
    | panic _ => exact ⟨g1, rfl⟩
    | ok i =>
      obtain ⟨k1, k2⟩ := ih g1
      revert k1 k2
      simp only
      generalize t1.pushStates o _ = r1
      generalize t2.pushStates (φ o) _ = r2
      obtain ⟨u1, p1⟩ := r1
      obtain ⟨u2, p2⟩ := r2
      rintro k1 k2
      simp only at k1 k2
      subst k2
      cases p2 <;> exact ⟨k1, rfl⟩

theorem pushObjects_sim (hS1 : Savable kind1 evs1 b1 cs1) (hS2 : Savable kind2 evs2 b2 cs2) (hs : SameSaved b1 cs1 b2 cs2 φ ψ)
    {C : ContractTy} {k : Idx} (m : (C, k) ∈ cs1) (off : Nat) (os : List Idx) (l : ∀ o ∈ os, o ∈ objectsOf b1 k)
    {s1 s2 : SerB} (h : SerSim b1 cs1 b2 φ ψ s1 s2) :
    SerSim b1 cs1 b2 φ ψ (s1.pushObjects C k off os).1 (s2.pushObjects C (ψ k) off (os.map φ)).1 ∧
      (s2.pushObjects C (ψ k) off (os.map φ)).2 = (s1.pushObjects C k off os).2 := by
  induction os generalizing s1 s2 with
  | nil => exact ⟨h, rfl⟩
  | cons o os ih =>
    have lo := l o (by simp)
    obtain ⟨g1, g2⟩ := pushStates_sim hS1 hS2 hs m lo (ids_rel C k (ψ k)) h
    rw [List.map_cons]
    unfold SerB.pushObjects
    revert g1 g2
    generalize s1.pushStates o (C.stateIds k) = r1
    generalize s2.pushStates (φ o) (C.stateIds (ψ k)) = r2
    obtain ⟨t1, q1⟩ := r1
    obtain ⟨t2, q2⟩ := r2
    rintro g1 g2
    simp only at g1 g2
    subst g2
    cases q2 with
    | err _ => exact ⟨g1, rfl⟩
    | panic _ => exact ⟨g1, rfl⟩
    | ok is =>
      simp only [g1.fbb]
      split
      · exact ⟨g1, rfl⟩
      · rename_i f1 v _
        split
        · exact ⟨{ g1 with fbb := rfl }, rfl⟩
        · rename_i f2 r _
          simp only [g1.objects]
          exact ih (fun x hx => l x (by simp [hx])) { g1 with
            fbb := rfl, objects := rfl, hObjects := g1.hObjects.insert (o_oneOne hs) ⟨rfl, C, k, m, lo⟩ _ }

/-- Meeting `b` in the order `a`. -/
noncomputable def thisOrder {α : Type} (a b : List α) : List α → List α := by
  classical exact fun l => if l = b ∧ a.Perm b then a else l

theorem thisOrder_perm {α : Type} (a b l : List α) : (thisOrder a b l).Perm l := by
  unfold thisOrder
  split
  · rename_i h; rw [h.1]; exact h.2
  · exact List.Perm.refl _

theorem thisOrder_eq {α : Type} {a b : List α} (h : a.Perm b) : thisOrder a b b = a := by
  unfold thisOrder; rw [if_pos ⟨rfl, h⟩]

/-- The hash order that meets the objects of `ψ h` as `ord` meets those of `h`. -/
noncomputable def twinOrder (b1 b2 : Baseline) (φ ψ : Idx → Idx) (h : Idx) (ord : HashOrder) : HashOrder :=
  ⟨thisOrder ((ord.order (objectsOf b1 h)).map φ) (objectsOf b2 (ψ h)), fun _ => thisOrder_perm _ _ _⟩

theorem objs_perm (hS1 : Savable kind1 evs1 b1 cs1) (hS2 : Savable kind2 evs2 b2 cs2) (hs : SameSaved b1 cs1 b2 cs2 φ ψ)
    {C : ContractTy} {k : Idx} (m : (C, k) ∈ cs1) : ((objectsOf b1 k).map φ).Perm (objectsOf b2 (ψ k)) := by
  refine (List.perm_ext_iff_of_nodup ?_ (objectsOf_nodup hS2.history _)).2 fun x => ?_
  · exact List.Nodup.map_on (fun x hx y hy e => hs.objInj _ _ _ _ _ _ m m hx hy e) (objectsOf_nodup hS1.history _)
  · rw [hs.objects C k m, List.mem_map]

noncomputable def twinCalls (b1 b2 : Baseline) (φ ψ : Idx → Idx) (calls : List (ContractTy × Idx × HashOrder)) : List (ContractTy × Idx × HashOrder) :=
  calls.map fun e => (e.1, ψ e.2.1, twinOrder b1 b2 φ ψ e.2.1 e.2.2)

theorem serialize_sim (hS1 : Savable kind1 evs1 b1 cs1) (hS2 : Savable kind2 evs2 b2 cs2) (hs : SameSaved b1 cs1 b2 cs2 φ ψ)
    {C : ContractTy} {k : Idx} (m : (C, k) ∈ cs1) (ord : HashOrder) {s1 s2 : SerB} (h : SerSim b1 cs1 b2 φ ψ s1 s2) :
    SerSim b1 cs1 b2 φ ψ (s1.serialize C k ord).1 (s2.serialize C (ψ k) (twinOrder b1 b2 φ ψ k ord)).1 ∧
      (s2.serialize C (ψ k) (twinOrder b1 b2 φ ψ k ord)).2 = (s1.serialize C k ord).2 := by
  obtain ⟨cd1, c1, _⟩ := hS1.serializable.registered C k m
  obtain ⟨cd2, c2, _⟩ := hS2.serializable.registered C (ψ k) ((hs.instances C _).2 ⟨k, m, rfl⟩)
  have ho : (twinOrder b1 b2 φ ψ k ord).order cd2.objects = (ord.order cd1.objects).map φ := by
    have e := objs_perm hS1 hS2 hs m
    rw [← objectsOf_eq c1, ← objectsOf_eq c2]
    exact thisOrder_eq (((ord.perm _).map φ).trans e)
  have hl : ∀ o ∈ ord.order cd1.objects, o ∈ objectsOf b1 k := by
    intro o hm
    rw [objectsOf_eq c1]; exact (ord.perm _).mem_iff.1 hm
  unfold SerB.serialize
  simp only [h.base1, h.base2, c1, c2, h.fbb, ho]
  split
  · exact ⟨{ h with base1 := rfl, base2 := rfl, fbb := rfl }, rfl⟩
  · exact ⟨{ h with base1 := rfl, base2 := rfl, fbb := rfl }, rfl⟩
  · rename_i f1 off _
    simp only [h.contracts]
    have hn : SerSim b1 cs1 b2 φ ψ { s1 with fbb := f1, contracts := s1.contracts ++ [off], hContracts := s1.hContracts.insert k s1.contracts.length }
        { s2 with fbb := f1, contracts := s1.contracts ++ [off], hContracts := s2.hContracts.insert (ψ k) s1.contracts.length } :=
      { h with fbb := rfl, contracts := rfl, hContracts := h.hContracts.insert (k_oneOne hs) ⟨rfl, C, m⟩ _ }
    simp only [h.base1, h.base2] at hn ⊢
    split
    · exact ⟨hn, rfl⟩
    · split
      · exact ⟨hn, rfl⟩
      · exact pushObjects_sim hS1 hS2 hs m _ _ hl { hn with fbb := rfl }

theorem serializeAll_sim (hS1 : Savable kind1 evs1 b1 cs1) (hS2 : Savable kind2 evs2 b2 cs2) (hs : SameSaved b1 cs1 b2 cs2 φ ψ)
    (calls : List (ContractTy × Idx × HashOrder)) (hc : ∀ e ∈ calls, (e.1, e.2.1) ∈ cs1) {s1 s2 : SerB} (h : SerSim b1 cs1 b2 φ ψ s1 s2) :
    SerSim b1 cs1 b2 φ ψ (s1.serializeAll calls).1 (s2.serializeAll (twinCalls b1 b2 φ ψ calls)).1 ∧
      (s2.serializeAll (twinCalls b1 b2 φ ψ calls)).2 = (s1.serializeAll calls).2 := by
  induction calls generalizing s1 s2 with
  | nil => exact ⟨h, rfl⟩
  | cons e calls ih =>
    obtain ⟨C, k, ord⟩ := e
    obtain ⟨g1, g2⟩ := serialize_sim hS1 hS2 hs (hc _ List.mem_cons_self) ord h
    rw [twinCalls, List.map_cons, ← twinCalls]
    unfold SerB.serializeAll
    simp only
    revert g1 g2
    generalize s1.serialize C k ord = r1
    generalize s2.serialize C (ψ k) (twinOrder b1 b2 φ ψ k ord) = r2
    obtain ⟨t1, q1⟩ := r1
    obtain ⟨t2, q2⟩ := r2
    rintro g1 g2
    simp only at g1 g2
    subst g2
    cases q2 with
    | err _ => exact ⟨g1, rfl⟩
    | panic _ => exact ⟨g1, rfl⟩
    | ok _ => exact ih (fun e he => hc e (by simp [he])) g1

/-- Corresponding orders of two maps. -/
theorem twin_pairs {R : Idx → Idx → Prop} {m m' : BiMap Idx Nat} (h : MapRel R m m') (ord : IterOrder (Idx × Nat)) :
    ∃ ord' : IterOrder (Idx × Nat), List.Forall₂ (fun p q => R p.1 q.1 ∧ p.2 = q.2) (ord.order m.pairs) (ord'.order m'.pairs) := by
  obtain ⟨l, h1, h2⟩ := List.perm_comp_forall₂ (ord.perm m.pairs) h
  exact ⟨⟨thisOrder l m'.pairs, fun _ => thisOrder_perm _ _ _⟩, by show List.Forall₂ _ _ (thisOrder l m'.pairs m'.pairs); rw [thisOrder_eq h2]; exact h1⟩

theorem patch_sim {t : PropType} {as : t.Carrier → Idx} {R S : Idx → Idx → Prop} (hS : OneOne S) {m m' : BiMap Idx Nat} (hm : MapRel S m m')
    (hv : ∀ j j' : Idx, R j j' → ∃ v v' : t.Carrier, b1.state t j = .ok v ∧ b2.state t j' = .ok v' ∧ S (as v) (as v'))
    (mk : Fbb → Nat → Option (Fbb × Nat)) (tag : Nat) {l l' : List (Idx × Nat)} (h : List.Forall₂ (fun p q => R p.1 q.1 ∧ p.2 = q.2) l l')
    (f : Fbb) (sts : List Nat) : SerB.patch b2 t as m' mk tag l' f sts = SerB.patch b1 t as m mk tag l f sts := by
  induction h generalizing f sts with
  | nil => rfl
  | @cons a b l l' hx _ ih =>
    obtain ⟨j, i⟩ := a
    obtain ⟨j', i'⟩ := b
    obtain ⟨hr, he⟩ := hx
    simp only at hr he
    subst he
    obtain ⟨v, v', e1, e2, hw⟩ := hv _ _ hr
    unfold SerB.patch
    simp only [e1, e2, hm.getL hS hw, ih]

/-- Two baselines of which the same is saved: every file of the one is a file of the other. -/
theorem twin_save (hS1 : Savable kind1 evs1 b1 cs1) (hS2 : Savable kind2 evs2 b2 cs2) (hs : SameSaved b1 cs1 b2 cs2 φ ψ) (c : Cycle)
    (hc : c.Fits cs1) : ∃ c' : Cycle, c'.Fits cs2 ∧ c'.save b2 = c.save b1 := by
  have hin : ∀ e ∈ c.calls, (e.1, e.2.1) ∈ cs1 := fun e he => hc.1.mem_iff.1 (List.mem_map_of_mem (f := fun e => (e.1, e.2.1)) he)
  have h0 : SerSim b1 cs1 b2 φ ψ (SerB.new b1) (SerB.new b2) := ⟨rfl, rfl, rfl, rfl, rfl, rfl, .nil, .nil, .nil, .nil⟩
  obtain ⟨g1, g2⟩ := serializeAll_sim hS1 hS2 hs c.calls hin h0
  obtain ⟨oC, hC⟩ := twin_pairs g1.hContractStates c.ordC
  obtain ⟨oO, hO⟩ := twin_pairs g1.hObjectStates c.ordO
  have hperm : (cs1.map fun e => (e.1, ψ e.2)).Perm cs2 := by
    have n1 : cs1.Nodup := List.Nodup.of_map _ hS1.different
    have n2 : cs2.Nodup := List.Nodup.of_map _ hS2.different
    refine (List.perm_ext_iff_of_nodup (List.Nodup.map_on ?_ n1) n2).2 ?_
    · rintro ⟨C, h⟩ m ⟨C', h'⟩ m' e
      simp only [Prod.mk.injEq] at e
      rw [e.1, hs.conInj _ _ _ _ m m' e.2]
    · rintro ⟨C, h⟩
      rw [hs.instances, List.mem_map]
      constructor
      · rintro ⟨⟨D, k⟩, m, e⟩
        simp only [Prod.mk.injEq] at e
        obtain ⟨rfl, rfl⟩ := e
        exact ⟨k, m, rfl⟩
      · rintro ⟨k, m, rfl⟩
        exact ⟨(C, k), m, rfl⟩
  have hty : (cs1.map Prod.fst).Perm (cs2.map Prod.fst) := by
    have := hperm.map Prod.fst
    rwa [List.map_map] at this
  refine ⟨⟨twinCalls b1 b2 φ ψ c.calls, oC, oO, c.types, c.kind, c.sched, c.ord, c.hord⟩, ⟨?_, hc.2.trans hty⟩, ?_⟩
  · have := (hc.1.map fun e => (e.1, ψ e.2)).trans hperm
    rw [List.map_map] at this
    simp only [twinCalls, List.map_map]
    exact this
  · unfold Cycle.save
    simp only
    revert g1 g2 hC hO
    generalize (SerB.new b1).serializeAll c.calls = r1
    generalize (SerB.new b2).serializeAll (twinCalls b1 b2 φ ψ c.calls) = r2
    obtain ⟨t1, q1⟩ := r1
    obtain ⟨t2, q2⟩ := r2
    rintro g1 g2 hC hO
    simp only at g1 g2 hC hO
    subst g2
    cases q2 with
    | err _ => rfl
    | panic _ => rfl
    | ok _ =>
      simp only
      unfold SerB.finish SerB.finishWith
      have p1 := patch_sim (b1 := b1) (b2 := b2) (t := .prim .contractDataHandle) (as := fun v => v) (k_oneOne hs) g1.hContracts (by
        rintro j j' ⟨C, h, o, n, f, m, l, hf, ht, e1, e2⟩
        obtain ⟨nm, ty⟩ := f
        simp only at ht; subst ht
        obtain ⟨v1, v2, ⟨i1, a1, a2⟩, ⟨i2, d1, d2⟩, hv⟩ := hs.values C h o n _ m l hf
        rw [e1] at a1; cases a1
        rw [e2] at d1; cases d1
        refine ⟨v1, v2, a2, d2, ?_, hS1.closed.contracts C h o n _ v1 m l hf rfl ⟨_, e1, a2⟩⟩
        simp [DynProp.ofTyped, asRestored] at hv
        exact hv.symm) (fun f r => f.createContractDataHandle (BitVec.ofNat 16 r)) 14 hC t1.fbb t1.states
      have p2 := fun f sts => patch_sim (b1 := b1) (b2 := b2) (t := .prim .objectHandle) (as := fun v => v) (o_oneOne hs) g1.hObjects (by
        rintro j j' ⟨C, h, o, n, f, m, l, hf, ht, e1, e2⟩
        obtain ⟨nm, ty⟩ := f
        simp only at ht; subst ht
        obtain ⟨v1, v2, ⟨i1, a1, a2⟩, ⟨i2, d1, d2⟩, hv⟩ := hs.values C h o n _ m l hf
        rw [e1] at a1; cases a1
        rw [e2] at d1; cases d1
        refine ⟨v1, v2, a2, d2, ?_, hS1.closed.objects C h o n _ v1 m l hf rfl ⟨_, e1, a2⟩⟩
        simp [DynProp.ofTyped, asRestored] at hv
        exact hv.symm) (fun f r => f.createHandle32 (BitVec.ofNat 32 r)) 13 hO f sts
      simp only [g1.base1, g1.base2, g1.fbb, g1.states, g1.contracts, g1.objects, p1, p2]

end Verif.Fb.Twin
