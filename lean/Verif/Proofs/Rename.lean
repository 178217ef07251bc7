import Mathlib.Logic.Equiv.Basic
import Mathlib.Data.List.Nodup
import Verif.Spec.Rename
import Verif.Proofs.MutSwap
/-! # Renaming object handles: lemmas -/
namespace Verif
open Arena Store Baseline Spec

/-! ## Mapping the values of an arena -/

def Slot.mapV {α β : Type} (f : α → β) : Slot α → Slot β
  | .free n => .free n
  | .occ g v => .occ g (f v)

def Arena.mapV {α β : Type} (f : α → β) (a : Arena α) : Arena β :=
  ⟨a.slots.map (Slot.mapV f), a.generation, a.head, a.count⟩

section
variable {α β : Type} (f : α → β)

theorem mapV_get (a : Arena α) (i : Idx) : (a.mapV f).get i = (a.get i).map f := by
  unfold Arena.get Arena.mapV
  simp only [List.getElem?_map]
  cases h : a.slots[i.slot]? with
  | none => rfl
  | some s =>
    cases s with
    | free n => rfl
    | occ g v => simp only [Option.map_some, Slot.mapV]; split <;> rfl

theorem mapV_reserve (a : Arena α) (n : Nat) : (a.reserve n).mapV f = (a.mapV f).reserve n := by
  unfold Arena.reserve Arena.mapV
  simp only [List.map_append, List.map_map, List.length_map]
  congr 2
  apply List.map_congr_left
  intro k _
  simp only [Function.comp]
  split <;> rfl

def TryInsert.mapV : Arena.TryInsert α → Arena.TryInsert β
  | .done a i => .done (a.mapV f) i
  | .full => .full
  | .corrupt => .corrupt

theorem mapV_tryInsert (a : Arena α) (v : α) :
    (a.mapV f).tryInsert (f v) = TryInsert.mapV f (a.tryInsert v) := by
  unfold Arena.tryInsert
  simp only [Arena.mapV, List.getElem?_map]
  cases a.head with
  | none => rfl
  | some i =>
    simp only
    cases h : a.slots[i]? with
    | none => rfl
    | some s =>
      cases s with
      | free n => simp only [Option.map_some, Slot.mapV, TryInsert.mapV, Arena.mapV, List.map_set]
      | occ g v => rfl

theorem mapV_insert? (a : Arena α) (v : α) :
    (a.mapV f).insert? (f v) = (a.insert? v).map (fun r => (r.1.mapV f, r.2)) := by
  unfold Arena.insert?
  rw [mapV_tryInsert f a v]
  cases a.tryInsert v with
  | done a' i => rfl
  | corrupt => rfl
  | full =>
    simp only [TryInsert.mapV]
    have hl : (a.mapV f).slots.length = a.slots.length := by simp [Arena.mapV]
    rw [hl, ← mapV_reserve, mapV_tryInsert f _ v]
    cases (a.reserve a.slots.length).tryInsert v <;> rfl

theorem mapV_insert (a : Arena α) (v : α) :
    (a.mapV f).insert (f v) = ((a.insert v).1.mapV f, (a.insert v).2) := by
  unfold Arena.insert
  rw [mapV_insert? f a v]
  cases a.insert? v with
  | none => simp [Arena.mapV]
  | some r => rfl

theorem mapV_remove (a : Arena α) (i : Idx) : ((a.mapV f).remove i).1 = (a.remove i).1.mapV f := by
  unfold Arena.remove
  simp only [Arena.mapV, List.getElem?_map]
  cases h : a.slots[i.slot]? with
  | none => rfl
  | some s =>
    cases s with
    | free n => rfl
    | occ g v =>
      simp only [Option.map_some, Slot.mapV]
      split
      · simp only [List.map_set, Slot.mapV]
      · rfl

theorem mapV_modify (a : Arena α) (i : Idx) (g : α → α) (g' : β → β) (hc : ∀ v : α, g' (f v) = f (g v)) :
    (a.mapV f).modify i g' = (a.modify i g).map (Arena.mapV f) := by
  unfold Arena.modify
  simp only [Arena.mapV, List.getElem?_map]
  cases h : a.slots[i.slot]? with
  | none => rfl
  | some s =>
    cases s with
    | free n => rfl
    | occ k v =>
      simp only [Option.map_some, Slot.mapV]
      split
      · simp only [Option.map_some, Arena.mapV, List.map_set, Slot.mapV, hc]
      · rfl

theorem mapV_entriesFrom (l : List (Slot α)) (k : Nat) :
    entriesFrom k (l.map (Slot.mapV f)) = (entriesFrom k l).map (fun e => (e.1, f e.2)) := by
  induction l generalizing k with
  | nil => rfl
  | cons s l ih =>
    cases s with
    | free n => simp only [List.map_cons, Slot.mapV, entriesFrom]; exact ih _
    | occ g v => simp only [List.map_cons, Slot.mapV, entriesFrom, ih]

theorem mapV_iter (a : Arena α) : (a.mapV f).iter = a.iter.map (fun e => (e.1, f e.2)) := mapV_entriesFrom f _ _

theorem mapV_contains (a : Arena α) (i : Idx) : (a.mapV f).contains i = a.contains i := by
  unfold Arena.contains; rw [mapV_get]; simp

theorem mapV_new : (Arena.new : Arena α).mapV f = Arena.new := by rfl

end

/-! ## Stores -/

section
variable {F : PropType → Type}

/-- `s'` is `s` with every value mapped. -/
def SMap (f : (t : PropType) → F t → F t) (s s' : Store F) : Prop := ∀ t : PropType, s' t = (s t).map (Arena.mapV (f t))

theorem SMap.get {f : (t : PropType) → F t → F t} {s s' : Store F} (h : SMap f s s') (t : PropType) (i : Idx) :
    s'.get t i = (s.get t i).map (f t) := by
  unfold Store.get
  rw [h t]
  cases s t with
  | none => rfl
  | some a => exact mapV_get (f t) a i

theorem SMap.update {f : (t : PropType) → F t → F t} {s s' : Store F} (h : SMap f s s') (t : PropType) (a : Arena (F t)) :
    SMap f (Function.update s t (some a)) (Function.update s' t (some (a.mapV (f t)))) := by
  intro u
  by_cases e : u = t
  · subst e; simp
  · rw [Function.update_of_ne e, Function.update_of_ne e, h u]

theorem SMap.create {f : (t : PropType) → F t → F t} {s s' : Store F} (h : SMap f s s') (t : PropType) (v : F t) :
    SMap f (s.create t v).1 (s'.create t (f t v)).1 ∧ (s'.create t (f t v)).2 = (s.create t v).2 := by
  unfold Store.create
  rw [h t]
  cases s t with
  | none =>
    simp only [Option.map_none]
    have := mapV_insert (f t) (Arena.new : Arena (F t)) v
    rw [mapV_new] at this
    rw [this]
    exact ⟨h.update t _, rfl⟩
  | some a =>
    simp only [Option.map_some]
    rw [mapV_insert]
    exact ⟨h.update t _, rfl⟩

theorem SMap.createAll {f : (t : PropType) → F t → F t} (l : List ((t : PropType) × F t)) : ∀ {s s' : Store F}, SMap f s s' →
    SMap f (Baseline.createAll s l).1 (Baseline.createAll s' (l.map fun p => ⟨p.1, f p.1 p.2⟩)).1 ∧
    (Baseline.createAll s' (l.map fun p => ⟨p.1, f p.1 p.2⟩)).2 = (Baseline.createAll s l).2 := by
  induction l with
  | nil => intro s s' h; exact ⟨h, rfl⟩
  | cons p l ih =>
    intro s s' h
    obtain ⟨h1, h2⟩ := h.create p.1 p.2
    obtain ⟨h3, h4⟩ := ih h1
    simp only [List.map_cons, Baseline.createAll]
    exact ⟨h3, by rw [h2, h4]⟩

theorem SMap.write {f : (t : PropType) → F t → F t} {s s' : Store F} (h : SMap f s s') (t : PropType) (i : Idx) (v : F t) :
    (s.write t i v = none ∧ s'.write t i (f t v) = none) ∨
    ∃ r r', s.write t i v = some r ∧ s'.write t i (f t v) = some r' ∧ SMap f r r' := by
  unfold Store.write
  rw [h t]
  cases hs : s t with
  | none => exact .inl ⟨rfl, rfl⟩
  | some a =>
    simp only [Option.map_some]
    rw [mapV_modify (f t) a i (fun _ => v) (fun _ => f t v) (fun _ => rfl)]
    cases a.modify i (fun _ => v) with
    | none => exact .inl ⟨rfl, rfl⟩
    | some a' => exact .inr ⟨_, _, rfl, rfl, h.update t a'⟩

end

/-! ## Values -/

theorem renDyn_propType (σ : Idx → Idx) (d : DynProp) : (renDyn σ d).propType = d.propType := by
  rcases d with p | v
  · cases p <;> rfl
  · cases v <;> rfl

theorem map_id_of {α : Type} {f : α → α} (h : ∀ x : α, f x = x) (l : List α) : l.map f = l := by
  have : f = id := funext h
  rw [this, List.map_id]

theorem renDyn_typed (σ : Idx → Idx) (d : DynProp) :
    (renDyn σ d).typed = ⟨d.typed.1, renVal σ d.typed.1 d.typed.2⟩ := by
  rcases d with p | v
  · cases p <;> rfl
  · cases v <;> simp only [renDyn, DynProp.typed, renVal, Sigma.mk.injEq, heq_eq_eq, true_and] <;>
      first | rfl | exact (map_id_of (fun _ => rfl) _).symm

theorem checkTypes_map {α : Type} (ty : α → PropType) (f : α → α) (hf : ∀ x : α, ty (f x) = ty x) (l : List α) (ts : List PropType) :
    checkTypes ty (l.map f) ts = (checkTypes ty l ts).map (List.map f) := by
  induction l generalizing ts with
  | nil => cases ts <;> rfl
  | cons p l ih =>
    cases ts with
    | nil => rfl
    | cons t ts =>
      simp only [List.map_cons, checkTypes, hf]
      split
      · rfl
      · rw [ih]; cases checkTypes ty l ts <;> rfl

theorem map_insert (σ : Equiv.Perm Idx) (l : List Idx) (o : Idx) : (l.insert o).map σ = (l.map σ).insert (σ o) := by
  by_cases h : o ∈ l
  · rw [List.insert_of_mem h, List.insert_of_mem (List.mem_map_of_mem h)]
  · rw [List.insert_of_not_mem h, List.insert_of_not_mem (by
      intro hm
      obtain ⟨x, hx, e⟩ := List.mem_map.1 hm
      exact h (σ.injective e ▸ hx))]
    rfl

/-! ## The relation between the two baselines -/

structure Rel (σ : Equiv.Perm Idx) (b b' : Baseline) : Prop where
  kind : b'.kind = b.kind
  contracts : b'.contracts = b.contracts.mapV (renData σ)
  states : SMap (renVal σ) b.states b'.states
  channels : SMap (renChan σ) b.channels b'.channels
  objects : ∀ o : Idx, b'.objects.get (σ o) = b.objects.get o
  inv : Arena.Inv b.objects
  inv' : Arena.Inv b'.objects

theorem Rel.new (σ : Equiv.Perm Idx) (k : Kind) : Rel σ (Baseline.new k) (Baseline.new k) :=
  ⟨rfl, rfl, fun _ => rfl, fun _ => rfl, fun _ => by show Arena.new.get _ = Arena.new.get _; rw [get_new, get_new], new_inv, new_inv⟩

theorem Rel.get' {σ : Equiv.Perm Idx} {b b' : Baseline} (h : Rel σ b b') (o : Idx) : b'.objects.get o = b.objects.get (σ.symm o) := by
  have := h.objects (σ.symm o)
  rwa [Equiv.apply_symm_apply] at this

theorem Rel.cdata {σ : Equiv.Perm Idx} {b b' : Baseline} (h : Rel σ b b') (k : Idx) :
    b'.contracts.get k = (b.contracts.get k).map (renData σ) := by
  rw [h.contracts]; exact mapV_get _ _ _

theorem Rel.renamed {σ : Equiv.Perm Idx} {b b' : Baseline} (h : Rel σ b b') : Renamed σ b b' := by
  refine ⟨h.kind, ?_, ?_, ?_, ?_, ?_, ?_, ?_⟩
  · intro k
    unfold Baseline.contractData
    rw [h.cdata k]
    cases b.contracts.get k <;> rfl
  · intro o; unfold Baseline.object; rw [h.objects o]
  · unfold Baseline.iterObjects
    have n1 : b'.objects.iter.Nodup := List.Nodup.of_map _ (iter_nodup b'.objects)
    have n2 : (b.objects.iter.map fun e => (σ e.1, e.2)).Nodup := by
      refine (List.Nodup.of_map _ (iter_nodup b.objects)).map ?_
      rintro ⟨i, v⟩ ⟨j, w⟩ e
      simp only [Prod.mk.injEq] at e
      obtain ⟨e1, e2⟩ := e
      rw [σ.injective e1, e2]
    refine (List.perm_ext_iff_of_nodup n1 n2).2 ?_
    rintro ⟨i, v⟩
    rw [mem_iter, h.get' i]
    constructor
    · intro hg
      exact List.mem_map.2 ⟨(σ.symm i, v), mem_iter.2 hg, by simp⟩
    · intro hm
      obtain ⟨⟨j, w⟩, hj, e⟩ := List.mem_map.1 hm
      simp only [Prod.mk.injEq] at e
      obtain ⟨rfl, rfl⟩ := e
      rw [Equiv.symm_apply_apply]; exact mem_iter.1 hj
  · intro t i; unfold Baseline.state; rw [h.states.get]; cases b.states.get t i <;> rfl
  · intro t i; unfold Baseline.channel; rw [h.channels.get]; cases b.channels.get t i <;> rfl
  · intro id o; unfold Baseline.bindState; rw [h.objects o]
  · intro id o; unfold Baseline.bindChannel; rw [h.objects o]

theorem Rel.removeList {σ : Equiv.Perm Idx} {b b' : Baseline} (h : Rel σ b b') {os os' : List Idx}
    (hp : os'.Perm (os.map σ)) :
    Rel σ { b with objects := Verif.removeList b.objects os } { b' with objects := Verif.removeList b'.objects os' } := by
  refine ⟨h.kind, h.contracts, h.states, h.channels, ?_, removeList_inv h.inv os, removeList_inv h.inv' os'⟩
  intro o
  show (Verif.removeList b'.objects os').get (σ o) = (Verif.removeList b.objects os).get o
  rw [get_removeList, get_removeList, h.objects o]
  have : σ o ∈ os' ↔ o ∈ os := by
    rw [hp.mem_iff, List.mem_map]
    exact ⟨fun ⟨x, hx, e⟩ => σ.injective e ▸ hx, fun hx => ⟨o, hx, rfl⟩⟩
  by_cases e : o ∈ os
  · rw [if_pos e, if_pos (this.2 e)]
  · rw [if_neg e, if_neg (fun x => e (this.1 x))]

/-! ## `object_remove` and `unregister_contract` -/

theorem removeList_singleton {α : Type} (a : Arena α) (o : Idx) : removeList a [o] = (a.remove o).1 := rfl

theorem objectRemove_rel {σ : Equiv.Perm Idx} {b b' : Baseline} (h : Rel σ b b') (C : ContractTy) (o : Idx) :
    Rel σ (b.objectRemove C o).1 (b'.objectRemove C (σ o)).1 ∧ (b'.objectRemove C (σ o)).2 = (b.objectRemove C o).2 := by
  constructor
  · rw [objectRemove_fst, objectRemove_fst]
    exact h.removeList (List.Perm.refl _)
  · cases hg : b.objects.get o with
    | none =>
      rw [objectRemove_none hg, objectRemove_none (by rw [h.objects o, hg])]
    | some ob =>
      rw [objectRemove_some hg, objectRemove_some (by rw [h.objects o, hg] : b'.objects.get (σ o) = some ob)]

theorem removeObjects_ok_fst {C : ContractTy} {os : List Idx} {b : Baseline} (h : (removeObjects C os b).2 = .ok ()) :
    (removeObjects C os b).1 = { b with objects := removeList b.objects os } := by
  obtain ⟨done, _, h2, h3⟩ := removeObjects_spec C os b
  rcases h3 with ⟨_, rfl⟩ | h3
  · exact h2
  · rw [h] at h3; cases h3

theorem removeObjects_one (C : ContractTy) (o : Idx) (b : Baseline) :
    (removeObjects C [o] b).1 = { b with objects := removeList b.objects [o] } ∧
    (removeObjects C [o] b).2 = (match (b.objectRemove C o).2 with
      | .ok () => .ok () | .err _ => .panic "failed to remove object" | .panic m => .panic m) := by
  have hf := objectRemove_fst b C o
  rcases hr : b.objectRemove C o with ⟨b1, r⟩
  rw [hr] at hf
  simp only at hf
  simp only [removeObjects, hr]
  cases r <;> exact ⟨hf, rfl⟩

theorem perm_single {l : List Idx} {o : Idx} (h : l.Perm [o]) : l = [o] := List.perm_singleton.1 h

theorem Rel.withContracts {σ : Equiv.Perm Idx} {b b' : Baseline} (h : Rel σ b b') (cons : Arena ContractData) :
    Rel σ { b with contracts := cons } { b' with contracts := cons.mapV (renData σ) } :=
  ⟨h.kind, rfl, h.states, h.channels, h.objects, h.inv, h.inv'⟩

/-- `unregister_contract` once the handle and the type have been accepted. -/
theorem unregister_go {b : Baseline} {C : ContractTy} {k : Idx} {cd : ContractData} {cons : Arena ContractData}
    (hg : b.contracts.get k = some cd) (hid : cd.id = C.id) (hm : b.contracts.modify k clearObjs = some cons) (ord : HashOrder) :
    b.unregisterContract C k ord =
      (match removeObjects C (ord.order cd.objects) { b with contracts := cons } with
        | (b1, .err m) => (b1, .err m)
        | (b1, .panic m) => (b1, .panic m)
        | (b1, .ok ()) => ({ b1 with contracts := (b1.contracts.remove k).1 }, .ok ())) := by
  have hm' : b.contracts.modify k (fun cd => { cd with objects := [] }) = some cons := hm
  simp only [unregisterContract, hg, hid, ne_eq, not_true, if_false, hm'] <;> rfl

theorem unregister_rel {σ : Equiv.Perm Idx} {b b' : Baseline} (h : Rel σ b b')
    (hnd : ∀ (k : Idx) (cd : ContractData), b.contracts.get k = some cd → cd.objects.Nodup)
    (C : ContractTy) (k : Idx) (ord ord' : HashOrder) (calm : Calm b (.unregister C k ord)) :
    Rel σ (b.unregisterContract C k ord).1 (b'.unregisterContract C k ord').1 ∧
    (b'.unregisterContract C k ord').2 = (b.unregisterContract C k ord).2 ∧
    (∀ cd : ContractData, b.contracts.get k = some cd → cd.id = C.id →
      (b'.unregisterContract C k ord').1.objects = removeList b'.objects (ord'.order (cd.objects.map σ))) ∧
    ((¬ ∃ cd : ContractData, b.contracts.get k = some cd ∧ cd.id = C.id) → (b'.unregisterContract C k ord').1 = b') := by
  cases hg : b.contracts.get k with
  | none =>
    have hg' : b'.contracts.get k = none := by rw [h.cdata, hg]; rfl
    have e1 : b.unregisterContract C k ord = (b, .err "there is no contract with that id to unregister") := by
      simp only [unregisterContract, hg]
    have e2 : b'.unregisterContract C k ord' = (b', .err "there is no contract with that id to unregister") := by
      simp only [unregisterContract, hg']
    rw [e1, e2]
    exact ⟨h, rfl, (fun cd e => by cases e), fun _ => rfl⟩
  | some cd =>
    have hg' : b'.contracts.get k = some (renData σ cd) := by rw [h.cdata, hg]; rfl
    by_cases hid : cd.id = C.id
    · obtain ⟨cons, hm⟩ := modify_isSome hg clearObjs
      have hm' : b'.contracts.modify k clearObjs = some (cons.mapV (renData σ)) := by
        rw [h.contracts, mapV_modify (renData σ) b.contracts k clearObjs clearObjs (fun _ => rfl), hm]; rfl
      have u1 := unregister_go hg hid hm ord
      have u2 := unregister_go hg' (by exact hid : (renData σ cd).id = C.id) hm' ord'
      have hr := h.withContracts cons
      have hpL : (ord.order cd.objects).Perm cd.objects := ord.perm _
      have hpL' : (ord'.order (cd.objects.map σ)).Perm (cd.objects.map σ) := ord'.perm _
      have hpp : (ord'.order (cd.objects.map σ)).Perm ((ord.order cd.objects).map σ) := hpL'.trans (hpL.map σ).symm
      have ndL : (ord.order cd.objects).Nodup := hpL.nodup_iff.2 (hnd k cd hg)
      have ndL' : (ord'.order (cd.objects.map σ)).Nodup := hpL'.nodup_iff.2 ((hnd k cd hg).map σ.injective)
      change b'.unregisterContract C k ord' = (match removeObjects C (ord'.order (cd.objects.map σ)) { b' with contracts := cons.mapV (renData σ) } with
        | (b1, .err m) => (b1, .err m)
        | (b1, .panic m) => (b1, .panic m)
        | (b1, .ok ()) => ({ b1 with contracts := (b1.contracts.remove k).1 }, .ok ())) at u2
      have hlast : ∀ P : Prop, (¬ ∃ cd' : ContractData, some cd = some cd' ∧ cd'.id = C.id) → P := fun P hn => absurd ⟨cd, rfl, hid⟩ hn
      by_cases hok : (removeObjects C (ord.order cd.objects) { b with contracts := cons }).2 = .ok ()
      · have hok' : (removeObjects C (ord'.order (cd.objects.map σ)) { b' with contracts := cons.mapV (renData σ) }).2 = .ok () := by
          rw [removeObjects_ok_iff _ _ _ ndL']
          rcases (removeObjects_ok_iff _ _ _ ndL).1 hok with e | ⟨hf, e⟩
          · left
            have := hpp.length_eq
            rw [e] at this
            exact List.eq_nil_of_length_eq_zero (by simpa using this)
          · refine .inr ⟨hf, fun o ho => ?_⟩
            obtain ⟨x, hx, rfl⟩ := List.mem_map.1 (hpp.mem_iff.1 ho)
            obtain ⟨ob, hob⟩ := e x hx
            exact ⟨ob, by rw [← hob]; exact h.objects x⟩
        have f1 := removeObjects_ok_fst hok
        have f2 := removeObjects_ok_fst hok'
        rcases r1 : removeObjects C (ord.order cd.objects) { b with contracts := cons } with ⟨b1, r⟩
        rcases r2 : removeObjects C (ord'.order (cd.objects.map σ)) { b' with contracts := cons.mapV (renData σ) } with ⟨b2, r'⟩
        rw [r1] at hok f1 u1
        rw [r2] at hok' f2 u2
        simp only at hok hok' f1 f2
        subst hok hok' f1 f2
        rw [u1, u2]
        refine ⟨?_, rfl, ?_, hlast _⟩
        · have := (hr.removeList hpp).withContracts ((cons.remove k).1)
          simp only
          rw [mapV_remove]
          exact this
        · intro cd' e _; cases e; rfl
      · have hpan : (b.unregisterContract C k ord).2.isPanic = true := by
          rw [u1]
          obtain ⟨done, _, _, h3⟩ := removeObjects_spec C (ord.order cd.objects) { b with contracts := cons }
          rcases h3 with ⟨h3, _⟩ | h3
          · exact absurd h3 hok
          · rcases r1 : removeObjects C (ord.order cd.objects) { b with contracts := cons } with ⟨b1, r⟩
            rw [r1] at h3
            cases r with
            | ok _ => cases h3
            | err m => cases h3
            | panic m => rfl
        have hlen := calm hpan cd (by unfold Baseline.contractData; rw [hg])
        match hcd : cd.objects, hlen with
        | [], _ =>
          exfalso; apply hok
          rw [removeObjects_ok_iff _ _ _ ndL]
          left; rw [hcd] at hpL ⊢; exact List.perm_nil.1 hpL
        | [o], _ =>
          have eL : ord.order cd.objects = [o] := by rw [hcd] at hpL ⊢; exact perm_single hpL
          have eL' : ord'.order (cd.objects.map σ) = [σ o] := by rw [hcd] at hpL' ⊢; exact perm_single hpL'
          rw [eL] at u1 hok
          rw [eL'] at u2
          obtain ⟨a1, a2⟩ := removeObjects_one C o { b with contracts := cons }
          obtain ⟨a1', a2'⟩ := removeObjects_one C (σ o) { b' with contracts := cons.mapV (renData σ) }
          rw [(objectRemove_rel hr C o).2, ← a2] at a2'
          rcases r1 : removeObjects C [o] { b with contracts := cons } with ⟨b1, r⟩
          rcases r2 : removeObjects C [σ o] { b' with contracts := cons.mapV (renData σ) } with ⟨b2, r'⟩
          rw [r1] at hok a1 a2 u1 a2'
          rw [r2] at a1' u2 a2'
          simp only at hok a1 a1' a2'
          subst a1 a1' a2'
          have hrel := hr.removeList (os := [o]) (os' := [σ o]) (List.Perm.refl _)
          cases r' with
          | ok _ => exact absurd rfl hok
          | err m =>
            rw [u1, u2]
            exact ⟨hrel, rfl, (fun cd' e _ => by cases e; rw [eL']), hlast _⟩
          | panic m =>
            rw [u1, u2]
            exact ⟨hrel, rfl, (fun cd' e _ => by cases e; rw [eL']), hlast _⟩
    · have e1 : b.unregisterContract C k ord = (b, .err "handle did not match the provided contract type") := by
        simp [unregisterContract, hg, hid]
      have e2 : b'.unregisterContract C k ord' = (b', .err "handle did not match the provided contract type") := by
        have : ¬ (renData σ cd).id = C.id := hid
        simp [unregisterContract, hg', this]
      rw [e1, e2]
      exact ⟨h, rfl, (fun cd' e e' => by cases e; exact absurd e' hid), fun _ => rfl⟩

/-! ## `object_create` -/

theorem next_idx {α β : Type} {a : Arena α} {a' : Arena β} (h : a'.shape = a.shape) (v : α) (w : β) : (a'.insert w).2 = (a.insert v).2 := by
  have h1 := shape_insert a v
  have h2 := shape_insert a' w
  rw [h, h1] at h2
  exact (congrArg Prod.snd h2).symm

theorem create_rel {σ : Equiv.Perm Idx} {b b' : Baseline} (h : Rel σ b b') (C : ContractTy) (k : Idx) (ss : List DynProp) (cs : List DynChannel)
    (hn : (∃ o, (b.objectCreate C k ss cs).2 = .ok o) → ∀ x y : ObjectD, (b'.objects.insert y).2 = σ (b.objects.insert x).2) :
    Rel σ (b.objectCreate C k ss cs).1 (b'.objectCreate C k (ss.map (renDyn σ)) (cs.map fun c => ⟨c.1, renChan σ c.1 c.2⟩)).1 ∧
    (b'.objectCreate C k (ss.map (renDyn σ)) (cs.map fun c => ⟨c.1, renChan σ c.1 c.2⟩)).2 = (b.objectCreate C k ss cs).2.map σ ∧
    ((∃ o, (b.objectCreate C k ss cs).2 = .ok o) → ∃ x y : ObjectD, (b.objectCreate C k ss cs).2 = .ok (b.objects.insert x).2 ∧
      (b.objectCreate C k ss cs).1.objects = (b.objects.insert x).1 ∧
      (b'.objectCreate C k (ss.map (renDyn σ)) (cs.map fun c => ⟨c.1, renChan σ c.1 c.2⟩)).1.objects = (b'.objects.insert y).1) ∧
    ((¬ ∃ o, (b.objectCreate C k ss cs).2 = .ok o) → (b.objectCreate C k ss cs).1 = b ∧
      (b'.objectCreate C k (ss.map (renDyn σ)) (cs.map fun c => ⟨c.1, renChan σ c.1 c.2⟩)).1 = b') := by
  have hcon : b'.contracts.contains k = b.contracts.contains k := by rw [h.contracts]; exact mapV_contains _ _ _
  have t1 := checkTypes_map DynProp.propType (renDyn σ) (renDyn_propType σ) ss C.stateTypes
  have t2 := checkTypes_map Sigma.fst (fun c : DynChannel => (⟨c.1, renChan σ c.1 c.2⟩ : DynChannel)) (fun _ => rfl) cs C.channelTypes
  unfold objectCreate at hn ⊢
  rw [hcon, t1, t2]
  cases hk : b.contracts.contains k with
  | false =>
    simp only [Bool.not_false, if_true]
    exact ⟨h, rfl, (fun ⟨o, e⟩ => by cases e), fun _ => by simp⟩
  | true =>
    simp only [hk, Bool.not_true, Bool.false_eq_true, if_false] at hn ⊢
    cases c1 : checkTypes DynProp.propType ss C.stateTypes with
    | err m => exact ⟨h, rfl, (fun ⟨o, e⟩ => by cases e), fun _ => ⟨rfl, rfl⟩⟩
    | panic m => exact ⟨h, rfl, (fun ⟨o, e⟩ => by cases e), fun _ => ⟨rfl, rfl⟩⟩
    | ok ss' =>
      simp only [c1, Outcome.map, Outcome.bind] at hn ⊢
      cases c2 : checkTypes Sigma.fst cs C.channelTypes with
      | err m => exact ⟨h, rfl, (fun ⟨o, e⟩ => by cases e), fun _ => ⟨rfl, rfl⟩⟩
      | panic m => exact ⟨h, rfl, (fun ⟨o, e⟩ => by cases e), fun _ => ⟨rfl, rfl⟩⟩
      | ok cs' =>
        simp only [c2] at hn ⊢
        have m1 := h.states.createAll (ss'.map DynProp.typed)
        have m2 := h.channels.createAll cs'
        have em : (ss'.map (renDyn σ)).map DynProp.typed = (ss'.map DynProp.typed).map fun p => ⟨p.1, renVal σ p.1 p.2⟩ := by
          rw [List.map_map, List.map_map]
          exact List.map_congr_left fun d _ => renDyn_typed σ d
        rw [em]
        obtain ⟨m1a, m1b⟩ := m1
        obtain ⟨m2a, m2b⟩ := m2
        obtain ⟨cd, hcd⟩ := contains_iff.1 hk
        set o := (b.objects.insert ⟨(createAll b.states (ss'.map DynProp.typed)).2, (createAll b.channels cs').2, k, TimeWarp.default⟩).2 with ho
        obtain ⟨cons, hm⟩ := modify_isSome hcd (fun cd => { cd with objects := cd.objects.insert o })
        simp only [hm] at hn ⊢
        have hn' := hn ⟨_, rfl⟩
        rw [m1b, m2b]
        have ho' : (b'.objects.insert ⟨(createAll b.states (ss'.map DynProp.typed)).2, (createAll b.channels cs').2, k, TimeWarp.default⟩).2 = σ o := hn' _ _
        have hm' : b'.contracts.modify k (fun cd => { cd with objects := cd.objects.insert (σ o) }) = some (cons.mapV (renData σ)) := by
          rw [h.contracts, mapV_modify (renData σ) b.contracts k (fun cd => { cd with objects := cd.objects.insert o }) _
            (fun v => by simp only [renData]; rw [map_insert]), hm]; rfl
        rw [ho', hm']
        refine ⟨⟨h.kind, rfl, m1a, m2a, ?_, insert_inv h.inv _, insert_inv h.inv' _⟩, rfl, fun _ => ⟨_, _, rfl, rfl, rfl⟩,
          fun hno => absurd ⟨_, rfl⟩ hno⟩
        intro i
        simp only
        rw [get_insert h.inv', get_insert h.inv, ho', ← ho, h.objects i]
        by_cases e : i = o
        · subst e; simp
        · rw [if_neg (fun e' => e (σ.injective e')), if_neg e]

end Verif
