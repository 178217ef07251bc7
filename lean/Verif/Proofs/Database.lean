import Verif.Spec.Database
import Verif.Proofs.BaselineApi
/-! # Simulation of a baseline by the database of maps -/
namespace Verif
open Store Baseline Spec

/-- An arena is described by a map. -/
structure Sim {α : Type} (a : Arena α) (m : HMap α) : Prop where
  inv : Arena.Inv a
  get : ∀ i : Idx, a.get i = m.find i
  tr : Arena.Tracked a m.issued

theorem Sim.new {α : Type} : Sim (Arena.new : Arena α) HMap.empty :=
  ⟨Arena.new_inv, fun i => Arena.get_new i, fun _ h => by cases h⟩

theorem Sim.insert {α : Type} {a : Arena α} {m : HMap α} (h : Sim a m) (v : α) :
    (a.insert v).2 ∉ m.issued ∧ Sim (a.insert v).1 (m.add (a.insert v).2 v) :=
  ⟨Arena.insert_not_issued h.inv h.tr v, Arena.insert_inv h.inv v,
    fun i => by rw [Arena.get_insert h.inv, h.get]; rfl, Arena.insert_tracked h.inv h.tr v⟩

theorem Sim.removeList {α : Type} {a : Arena α} {m : HMap α} (h : Sim a m) (os : List Idx) :
    Sim (removeList a os) (m.dropAll os) := by
  refine ⟨removeList_inv h.inv os, fun i => by rw [get_removeList, h.get]; rfl, ?_⟩
  intro i hi
  rcases h.tr i hi with ⟨v, hv⟩ | hd
  · by_cases e : i ∈ os
    · exact .inr (removeList_dead_of_live h.inv hv e)
    · exact .inl ⟨v, by rw [get_removeList, if_neg e, hv]⟩
  · exact .inr (removeList_dead hd os)

theorem Sim.modify {α : Type} {a a' : Arena α} {m : HMap α} (h : Sim a m) {i : Idx} {f : α → α} {v : α}
    (hm : a.modify i f = some a') (hv : m.find i = some v) : Sim a' (m.set i (f v)) := by
  refine ⟨Arena.modify_inv h.inv hm, fun j => ?_, ?_⟩
  · rw [Arena.get_modify hm, h.get, h.get, hv]; rfl
  · intro j hj
    rcases h.tr j hj with ⟨w, hw⟩ | hd
    · left; rw [Arena.get_modify hm]
      split
      · rename_i e; rw [← e, hw]; exact ⟨_, rfl⟩
      · exact ⟨w, hw⟩
    · exact .inr (Arena.modify_dead hd hm)

/-- A store is described by a map per type. -/
structure StoreSim {F : PropType → Type} (s : Store F) (M : TMap F) : Prop where
  inv : s.Inv
  sim : ∀ t : PropType, Sim (s.arenaOf t) (M t)

theorem arenaOf_update {F : PropType → Type} (s : Store F) (t t' : PropType) (a : Arena (F t)) :
    Store.arenaOf (Function.update s t (some a) : Store F) t' =
      Function.update (fun t => s.arenaOf t) t a t' := by
  by_cases e : t' = t
  · subst e; simp [arenaOf]
  · simp [arenaOf, Function.update_of_ne e]

theorem StoreSim.update {F : PropType → Type} {s : Store F} {M : TMap F} (h : StoreSim s M) {t : PropType}
    {a : Arena (F t)} {m : HMap (F t)} (ha : Sim a m) :
    StoreSim (Function.update s t (some a)) (Function.update M t m) := by
  refine ⟨update_inv h.inv t ha.inv, fun t' => ?_⟩
  rw [arenaOf_update]
  by_cases e : t' = t
  · subst e; simpa using ha
  · simpa [Function.update_of_ne e] using h.sim t'

theorem StoreSim.get {F : PropType → Type} {s : Store F} {M : TMap F} (h : StoreSim s M) (t : PropType)
    (i : Idx) : s.get t i = (M t).find i := by
  rw [get_eq, (h.sim t).get]

theorem StoreSim.createAll {F : PropType → Type} {s : Store F} {M : TMap F} (h : StoreSim s M)
    (ps : List ((t : PropType) × F t)) :
    ∃ M', Alloc M ps (Baseline.createAll s ps).2 M' ∧ StoreSim (Baseline.createAll s ps).1 M' := by
  induction ps generalizing s M with
  | nil => exact ⟨M, .nil M, h⟩
  | cons p ps ih =>
    obtain ⟨t, v⟩ := p
    obtain ⟨hf, hs⟩ := (h.sim t).insert v
    have h1 := h.update hs
    rw [show (Function.update s t (some ((s.arenaOf t).insert v).1) : Store F) = (s.create t v).1 by
      rw [create_eq]] at h1
    obtain ⟨M', hA, hS⟩ := ih h1
    refine ⟨M', ?_, hS⟩
    have hi : (s.create t v).2 = ((s.arenaOf t).insert v).2 := by rw [create_eq]
    show Alloc M (⟨t, v⟩ :: ps) ((s.create t v).2 :: (Baseline.createAll (s.create t v).1 ps).2) M'
    rw [hi]
    exact .cons M t v _ ps _ M' hf hA

theorem StoreSim.write {F : PropType → Type} {s s' : Store F} {M : TMap F} (h : StoreSim s M)
    {t : PropType} {k : Idx} {v : F t} (hw : s.write t k v = some s') :
    (∃ old, (M t).find k = some old) ∧ StoreSim s' (Function.update M t ((M t).set k v)) := by
  obtain ⟨old, ho⟩ : ∃ old, s.get t k = some old := by
    cases hg : s.get t k with
    | none => rw [write_eq_none.2 hg] at hw; cases hw
    | some old => exact ⟨old, rfl⟩
  have ho' := ho
  rw [h.get] at ho'
  refine ⟨⟨old, ho'⟩, ?_⟩
  unfold Store.write at hw
  cases hs : s t with
  | none => simp [hs] at hw
  | some a =>
    simp only [hs] at hw
    cases hm : a.modify k (fun _ => v) with
    | none => simp [hm] at hw
    | some a' =>
      simp only [hm, Option.some.injEq] at hw
      subst hw
      have ha : s.arenaOf t = a := by simp [arenaOf, hs]
      have hsim := h.sim t
      rw [ha] at hsim
      exact h.update (hsim.modify hm ho')

/-- The whole baseline is described by a database. -/
structure BSim (b : Baseline) (db : DB) : Prop where
  c : Sim b.contracts db.contracts
  o : Sim b.objects db.objects
  s : StoreSim b.states db.states
  k : StoreSim b.channels db.channels

/-- What the removal loop leaves behind when it panics. -/
theorem removeObjects_panic (C : ContractTy) (os : List Idx) (b : Baseline) (hnd : os.Nodup)
    (hp : (removeObjects C os b).2.isPanic = true) :
    ∃ gone, (removeObjects C os b).1 = { b with objects := removeList b.objects gone } ∧
      (∀ o ∈ gone, o ∈ os) ∧ (¬ C.NoFields → ∃ o, gone = [o]) ∧
      (C.NoFields → ∀ o ∈ gone, ∃ ob, b.objects.get o = some ob) := by
  induction os generalizing b with
  | nil => cases hp
  | cons o os ih =>
    obtain ⟨hno, hnd⟩ := List.nodup_cons.1 hnd
    cases hg : b.objects.get o with
    | none =>
      by_cases hn : C.NoFields
      · exact ⟨[], by simp [removeObjects, objectRemove_none hg, removeList], by simp,
          fun h => absurd hn h, by simp⟩
      · exact ⟨[o], by simp [removeObjects, objectRemove_none hg, removeList, Arena.remove_of_none hg],
          by simp, fun _ => ⟨o, rfl⟩, fun h => absurd h hn⟩
    | some ob =>
      by_cases hn : C.NoFields
      · simp only [removeObjects, objectRemove_some hg, hn, if_true] at hp ⊢
        obtain ⟨gone, h1, h2, h3, h4⟩ := ih { b with objects := (b.objects.remove o).1 } hnd hp
        refine ⟨o :: gone, by rw [h1]; rfl, ?_, fun h => absurd trivial h, fun _ => ?_⟩
        · intro x hx
          rcases List.mem_cons.1 hx with rfl | hx
          · simp
          · simp [h2 x hx]
        · intro x hx
          rcases List.mem_cons.1 hx with rfl | hx
          · exact ⟨ob, hg⟩
          · obtain ⟨v, hv⟩ := h4 hn x hx
            have hv' : (b.objects.remove o).1.get x = some v := hv
            rw [Arena.get_remove] at hv'
            split at hv'
            · cases hv'
            · exact ⟨v, hv'⟩
      · exact ⟨[o], by simp [removeObjects, objectRemove_some hg, hn, removeList],
          by simp, fun _ => ⟨o, rfl⟩, fun h => absurd h hn⟩

theorem BSim.hasId {b : Baseline} {db : DB} (h : BSim b db) (id : ContractId) :
    db.HasId id ↔ ∃ k cd, b.contracts.get k = some cd ∧ cd.id = id := by
  unfold DB.HasId
  constructor
  · rintro ⟨k, cd, h1, h2⟩; exact ⟨k, cd, by rw [h.c.get, h1], h2⟩
  · rintro ⟨k, cd, h1, h2⟩; exact ⟨k, cd, by rw [← h.c.get, h1], h2⟩

theorem BSim.canCreate {b : Baseline} {db : DB} (h : BSim b db) (C : ContractTy) (k : Idx)
    (ss : List DynProp) (cs : List DynChannel) :
    db.CanCreate C k ss cs ↔ (∃ cd, b.contracts.get k = some cd) ∧
      ss.map DynProp.propType = C.stateTypes ∧ cs.map Sigma.fst = C.channelTypes := by
  unfold DB.CanCreate; rw [h.c.get]; exact Iff.rfl

theorem BSim.canClear {b : Baseline} {db : DB} (h : BSim b db) (C : ContractTy) (os os' : List Idx)
    (hp : os'.Perm os) :
    db.CanClear C os ↔ os' = [] ∨ (C.NoFields ∧ ∀ o ∈ os', ∃ ob, b.objects.get o = some ob) := by
  unfold DB.CanClear
  have h1 : os' = [] ↔ os = [] := ⟨fun e => by subst e; exact hp.symm.eq_nil, fun e => by subst e; exact hp.eq_nil⟩
  rw [h1]
  refine or_congr Iff.rfl (and_congr Iff.rfl ?_)
  constructor
  · intro hx o ho; rw [h.o.get]; exact hx o (hp.mem_iff.1 ho)
  · intro hx o ho; rw [← h.o.get]; exact hx o (hp.mem_iff.2 ho)

theorem dropAll_perm {α : Type} (m : HMap α) {l l' : List Idx} (h : ∀ x : Idx, x ∈ l ↔ x ∈ l') :
    m.dropAll l = m.dropAll l' := by
  unfold HMap.dropAll; simp only [h]

theorem step_sim {evs : List Event} {b : Baseline} {db : DB} (hb : BInv evs b) (h : BSim b db) (op : BOp) :
    ∃ db', DB.Step db op (b.step op).2 db' ∧ BSim (b.step op).1 db' := by
  cases op with
  | register C =>
    rcases registerContract_cases b C with ⟨h1, hr⟩ | ⟨hn, hr⟩
    · refine ⟨db, ?_, ?_⟩
      · simp only [Baseline.step, hr]
        exact .registerTaken db C _ ((h.hasId _).2 h1)
      · simpa only [Baseline.step, hr] using h
    · obtain ⟨hf, hs⟩ := h.c.insert ⟨C.id, []⟩
      refine ⟨{ db with contracts := db.contracts.add (b.contracts.insert ⟨C.id, []⟩).2 ⟨C.id, []⟩ }, ?_, ?_⟩
      · simp only [Baseline.step, hr]
        refine .register db C _ (fun hx => ?_) hf
        obtain ⟨k, cd, h1, h2⟩ := (h.hasId _).1 hx
        exact hn k cd h1 h2
      · simp only [Baseline.step, hr]
        exact ⟨hs, h.o, h.s, h.k⟩
  | unregister C k ord =>
    cases hg : b.contracts.get k with
    | none =>
      have hu : b.unregisterContract C k ord = (b, .err "there is no contract with that id to unregister") := by
        simp [unregisterContract, hg]
      simp only [Baseline.step, hu]
      exact ⟨db, .unregisterBad db C k ord _ (by rintro ⟨cd, h1, _⟩; rw [← h.c.get, hg] at h1; cases h1), h⟩
    | some cd =>
      by_cases hid : cd.id = C.id
      · obtain ⟨cons, hm⟩ := modify_isSome hg clearObjs
        have hm' : b.contracts.modify k (fun cd => { cd with objects := [] }) = some cons := hm
        have hg' : db.contracts.find k = some cd := by rw [← h.c.get, hg]
        have hperm := ord.perm cd.objects
        have hnd : (ord.order cd.objects).Nodup := hperm.nodup_iff.2 (hb.c.nodup k cd hg)
        have hok := removeObjects_ok_iff C (ord.order cd.objects) { b with contracts := cons } hnd
        have hcan := h.canClear C cd.objects _ hperm
        have hc1 : Sim cons (db.contracts.set k ⟨cd.id, []⟩) := h.c.modify hm hg'
        rcases hr : removeObjects C (ord.order cd.objects) { b with contracts := cons } with ⟨b1, r⟩
        obtain ⟨done, hd1, hd2, hd3⟩ := removeObjects_spec C (ord.order cd.objects) { b with contracts := cons }
        have hpan := removeObjects_panic C (ord.order cd.objects) { b with contracts := cons } hnd
        rw [hr] at hok hd2 hd3 hpan
        simp only at hok hd2 hd3 hpan
        cases r with
        | ok u =>
          obtain ⟨⟩ := u
          rcases hd3 with ⟨_, rfl⟩ | hx
          · have hu : b.unregisterContract C k ord =
                ({ b1 with contracts := (b1.contracts.remove k).1 }, .ok ()) := by
              simp only [unregisterContract, hg, hid, ne_eq, not_true, if_false, hm', hr]
            simp only [Baseline.step, hu]
            refine ⟨{ db with objects := db.objects.dropAll cd.objects, contracts := db.contracts.dropAll [k] },
              .unregister db C k ord cd hg' hid (hcan.2 (hok.1 rfl)), ?_⟩
            subst hd2
            refine ⟨?_, ?_, h.s, h.k⟩
            · have := hc1.removeList [k]
              have e : (db.contracts.set k ⟨cd.id, []⟩).dropAll [k] = db.contracts.dropAll [k] := by
                simp only [HMap.dropAll, HMap.set, HMap.put, HMap.mk.injEq, and_true]
                funext j; by_cases e : j = k <;> simp [e]
              rw [e] at this; exact this
            · show Sim (Verif.removeList b.objects (ord.order cd.objects)) _
              rw [← dropAll_perm db.objects (fun x => hperm.mem_iff)]
              exact h.o.removeList _
          · cases hx
        | err m =>
          rcases hd3 with ⟨hx, _⟩ | hx <;> cases hx
        | panic m =>
          have hu : b.unregisterContract C k ord = (b1, .panic m) := by
            simp only [unregisterContract, hg, hid, ne_eq, not_true, if_false, hm', hr]
          simp only [Baseline.step, hu]
          obtain ⟨gone, hg1, hg2, hg3, hg4⟩ := hpan rfl
          refine ⟨{ db with objects := db.objects.dropAll gone, contracts := db.contracts.set k ⟨cd.id, []⟩ },
            .unregisterPanic db C k ord cd gone m hg' hid (fun hx => ?_)
              (fun o ho => hperm.mem_iff.1 (hg2 o ho)) hg3 (fun hn o ho => ?_), ?_⟩
          · have := hok.2 (hcan.1 hx); cases this
          · rw [← h.o.get]; exact hg4 hn o ho
          · subst hg1
            exact ⟨hc1, h.o.removeList gone, h.s, h.k⟩
      · have hu : b.unregisterContract C k ord = (b, .err "handle did not match the provided contract type") := by
          simp [unregisterContract, hg, hid]
        simp only [Baseline.step, hu]
        refine ⟨db, .unregisterBad db C k ord _ ?_, h⟩
        rintro ⟨cd', h1, h2⟩
        rw [← h.c.get, hg] at h1; cases h1; exact hid h2
  | create C k ss cs =>
    rcases objectCreate_cases b C k ss cs with ⟨⟨cd, hc⟩, hs, hcs⟩ | ⟨h1, h2, h3⟩
    · obtain ⟨cons, hm, hr⟩ := objectCreate_ok hc hs hcs
      have hc' : db.contracts.find k = some cd := by rw [← h.c.get, hc]
      obtain ⟨S, hS, hSs⟩ := h.s.createAll (ss.map DynProp.typed)
      obtain ⟨K, hK, hKs⟩ := h.k.createAll cs
      obtain ⟨hf, ho⟩ := h.o.insert (createdObj b k ss cs)
      have hmod := h.c.modify hm hc'
      have hadd : addObj (b.objects.insert (createdObj b k ss cs)).2 cd =
          ⟨cd.id, (b.objects.insert (createdObj b k ss cs)).2 :: cd.objects⟩ := by
        have hno : (b.objects.insert (createdObj b k ss cs)).2 ∉ cd.objects := by
          intro hmem
          have hsp := Arena.insert_spec hb.o.inv (createdObj b k ss cs)
          rcases hb.c.listed k _ cd hc hmem with ⟨ob, h1, _⟩ | hd
          · rw [hsp.dead] at h1; cases h1
          · have := hd.2; have := hsp.gen; omega
        simp [addObj, List.insert_of_not_mem hno]
      rw [hadd] at hmod
      simp only [Baseline.step, hr]
      exact ⟨_, .create db C k _ ss cs cd _ _ S K ((h.canCreate C k ss cs).2 ⟨⟨cd, hc⟩, hs, hcs⟩) hc' hS hK hf,
        hmod, ho, hSs, hKs⟩
    · refine ⟨db, ?_, ?_⟩
      · have hcan : ¬ db.CanCreate C k ss cs := fun hx => h3 ((h.canCreate C k ss cs).1 hx)
        simp only [Baseline.step]
        cases hr : (b.objectCreate C k ss cs).2 with
        | ok o => rw [hr] at h2; cases h2
        | err m => exact .createBad db C k ss cs m hcan
        | panic m => rw [hr] at h2; cases h2
      · simpa only [Baseline.step, h1] using h
  | remove C o =>
    cases hg : b.objects.get o with
    | none =>
      simp only [Baseline.step, objectRemove_none hg]
      exact ⟨db, .removeDead db C o _ (by rw [← h.o.get, hg]), h⟩
    | some ob =>
      have hg' : db.objects.find o = some ob := by rw [← h.o.get, hg]
      have hsim : BSim { b with objects := (b.objects.remove o).1 }
          { db with objects := db.objects.dropAll [o] } := ⟨h.c, h.o.removeList [o], h.s, h.k⟩
      by_cases hn : C.NoFields
      · simp only [Baseline.step, objectRemove_some hg, hn, if_true]
        exact ⟨_, .remove db C o ob hg' hn, hsim⟩
      · simp only [Baseline.step, objectRemove_some hg, hn, if_false]
        exact ⟨_, .removeErr db C o ob _ hg' hn, hsim⟩
  | writeState t k v =>
    cases hw : b.states.write t k v with
    | none =>
      simp only [Baseline.step, Baseline.stateWrite, hw]
      exact ⟨db, .writeStateDead db t k v _ (by rw [← h.s.get]; exact write_eq_none.1 hw), h⟩
    | some s' =>
      obtain ⟨⟨old, ho⟩, hs⟩ := h.s.write hw
      simp only [Baseline.step, Baseline.stateWrite, hw]
      exact ⟨_, .writeState db t k v old ho, h.c, h.o, hs, h.k⟩
  | writeChannel t k v =>
    cases hw : b.channels.write t k v with
    | none =>
      simp only [Baseline.step, Baseline.channelWrite, hw]
      exact ⟨db, .writeChannelDead db t k v _ (by rw [← h.k.get]; exact write_eq_none.1 hw), h⟩
    | some s' =>
      obtain ⟨⟨old, ho⟩, hs⟩ := h.k.write hw
      simp only [Baseline.step, Baseline.channelWrite, hw]
      exact ⟨_, .writeChannel db t k v old ho, h.c, h.o, h.s, hs⟩
  | setWarp o w =>
    cases hm : b.objects.modify o (fun ob => { ob with warp := w }) with
    | none =>
      simp only [Baseline.step, Baseline.setWarp, hm]
      exact ⟨db, .setWarpDead db o w _ (by rw [← h.o.get]; exact Arena.modify_eq_none.1 hm), h⟩
    | some objs =>
      obtain ⟨ob, hob⟩ : ∃ ob, b.objects.get o = some ob := by
        cases hg : b.objects.get o with
        | none => rw [Arena.modify_eq_none.2 hg] at hm; cases hm
        | some ob => exact ⟨ob, rfl⟩
      have hob' : db.objects.find o = some ob := by rw [← h.o.get, hob]
      simp only [Baseline.step, Baseline.setWarp, hm]
      exact ⟨_, .setWarp db o w ob hob', h.c, h.o.modify hm hob', h.s, h.k⟩

theorem trace_sim {P evs : List Event} {b b' : Baseline} {db : DB} (hb : BInv P b) (h : BSim b db)
    (ht : Trace b evs b') : ∃ db', DB.Run db evs db' ∧ BSim b' db' := by
  induction ht generalizing P db with
  | nil b => exact ⟨db, .nil db, h⟩
  | cons b op evs b' _ ih =>
    obtain ⟨db1, h1, h2⟩ := step_sim hb h op
    obtain ⟨db', h3, h4⟩ := ih (step_binv hb op) h2
    exact ⟨db', .cons db op _ db1 evs db' h1 h3, h4⟩

theorem new_sim (kind : Kind) : BSim (Baseline.new kind) DB.empty :=
  ⟨Sim.new, Sim.new, ⟨empty_inv, fun _ => Sim.new⟩, ⟨empty_inv, fun _ => Sim.new⟩⟩

theorem BSim.answers {b : Baseline} {db : DB} (h : BSim b db) : Answers b db := by
  have hbind : ∀ (proj : ObjectD → List Idx) (id : PropId) (o : Idx),
      Reads (match b.objects.get o with
        | none => .err "the given ObjectHandle doesn't exist in the arena"
        | some ob => bindIdx ob (proj ob) id)
      ((db.objects.find o).bind fun ob => if ob.contract = id.contract then (proj ob)[id.idx]? else none) := by
    intro proj id o
    rw [← h.o.get]
    cases hg : b.objects.get o with
    | none => rfl
    | some ob =>
      simp only [Option.bind_some, bindIdx]
      by_cases e : id.contract = ob.contract
      · rw [if_pos e.symm]
        simp only [e, ne_eq, not_true, if_false]
        cases hx : (proj ob)[id.idx]? <;> rfl
      · have e' : ob.contract ≠ id.contract := fun x => e x.symm
        simp only [e, e', ne_eq, not_false_eq_true, if_true, if_false]; rfl
  refine ⟨fun k => ?_, fun o => ?_, fun t k => ?_, fun t k => ?_, ⟨fun o ob => ?_, Arena.iter_nodup _⟩,
    hbind ObjectD.states, hbind ObjectD.channels⟩
  · rw [← h.c.get]; unfold Baseline.contractData; cases b.contracts.get k <;> rfl
  · rw [← h.o.get]; unfold Baseline.object; cases b.objects.get o <;> rfl
  · rw [← h.s.get]; unfold Baseline.state; cases b.states.get t k <;> rfl
  · rw [← h.k.get]; unfold Baseline.channel; cases b.channels.get t k <;> rfl
  · rw [← h.o.get]; exact Arena.mem_iter

end Verif
