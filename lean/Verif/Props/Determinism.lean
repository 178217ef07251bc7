import Verif.Props.SaveRestore
import Verif.Proofs.Determinism
/-!
# C102: what is restored does not depend on the hash seed or on the order of the calls
-/
namespace Verif.Props
open Verif Spec Arena Baseline Store

/-- **C102.** Restoring a buffer, any buffer, with the same calls gives the same result in every process: the same error, or the same
baseline, handles included, whatever the hash iteration orders. -/
theorem C102_restore_deterministic (buf : FbBaseline) (kind : Kind) (Cs : List ContractTy) (sched : IterOrder (ContractTy × Idx))
    (ord ord' : IterOrder (Nat × Idx)) (hord hord' : HashOrder) :
    restore buf kind Cs sched ord hord = restore buf kind Cs sched ord' hord' := by
  unfold restore
  cases hbd : Builder.new buf kind with
  | err m => rfl
  | panic m => rfl
  | ok bd =>
    simp only
    rcases hr : bd.registerAll Cs with ⟨bd1, r⟩
    cases r with
    | err m => rfl
    | panic m => rfl
    | ok cs1 =>
      simp only
      rcases hr2 : (Des.new bd1).deserializeAll (sched.order cs1) with ⟨d, r2⟩
      cases r2 with
      | err m => rfl
      | panic m => rfl
      | ok u =>
        cases u
        simp only
        obtain ⟨_, e2⟩ := registerAll_run Cs (.new bd hbd) hr
        rw [List.nil_append] at e2
        rw [finish_seed (deserializeAll_run _ (.new bd1 e2) hr2) ord ord' hord hord']

/-- **C102.** The same for every way of calling the deserializer, failed calls included: whatever contracts were registered and whatever
`deserialize_objects` calls were made, `finish` gives the same result whatever the hash iteration orders. -/
theorem C102_finish_deterministic {buf : FbBaseline} {kind : Kind} {regs : List (ContractTy × Outcome Idx)}
    {calls : List ((ContractTy × Idx) × Outcome Unit)} {d : Des} (hd : DesRun buf kind regs calls d)
    (ord ord' : IterOrder (Nat × Idx)) (hord hord' : HashOrder) : d.finish ord hord = d.finish ord' hord' :=
  finish_seed hd ord ord' hord hord'

/-! ## Different saves, different call orders -/

theorem asRestored_congr {φ ψ φ' ψ' : Idx → Idx} {p : DynProp} (ho : ∀ o : Idx, p = .primitive (.objectHandle o) → φ o = φ' o)
    (hk : ∀ h : Idx, p = .primitive (.contractDataHandle h) → ψ h = ψ' h) : asRestored φ ψ p = asRestored φ' ψ' p := by
  cases p with
  | vec q => rfl
  | primitive q => cases q <;> simp_all [asRestored]

theorem mapHandles_asRestored (φ ψ φ' ψ' : Idx → Idx) (p : DynProp) :
    mapHandles φ' ψ' (asRestored φ ψ p) = asRestored (fun o => φ' (φ o)) (fun h => ψ' (ψ h)) p := by
  cases p with
  | primitive q => cases q <;> rfl
  | vec q => rfl

theorem same_join {b b1 b2 : Baseline} {cs cs1 cs2 : List (ContractTy × Idx)} {φ1 ψ1 φ2 ψ2 : Idx → Idx} (hcl : Closed b cs)
    (h1 : SameContents b cs b1 cs1 φ1 ψ1) (h2 : SameContents b cs b2 cs2 φ2 ψ2) :
    ∃ φ ψ : Idx → Idx, SameExactly b1 cs1 b2 cs2 φ ψ := by
  classical
  let LO : Idx → Prop := fun o => ∃ C k, (C, k) ∈ cs ∧ o ∈ objectsOf b k
  let LK : Idx → Prop := fun k => ∃ C, (C, k) ∈ cs
  let iO : Idx → Idx := fun o' => if h : ∃ o, LO o ∧ φ1 o = o' then h.choose else o'
  let iK : Idx → Idx := fun k' => if h : ∃ k, LK k ∧ ψ1 k = k' then h.choose else k'
  have hO : ∀ o : Idx, LO o → iO (φ1 o) = o := by
    intro o ho
    have hex : ∃ o1, LO o1 ∧ φ1 o1 = φ1 o := ⟨o, ho, rfl⟩
    show (if h : ∃ o1, LO o1 ∧ φ1 o1 = φ1 o then h.choose else φ1 o) = o
    rw [dif_pos hex]
    obtain ⟨⟨C, k, m, l⟩, e⟩ := hex.choose_spec
    obtain ⟨C', k', m', l'⟩ := ho
    exact h1.objInj C C' k k' _ _ m m' l l' e
  have hK : ∀ k : Idx, LK k → iK (ψ1 k) = k := by
    intro k hk
    have hex : ∃ k1, LK k1 ∧ ψ1 k1 = ψ1 k := ⟨k, hk, rfl⟩
    show (if h : ∃ k1, LK k1 ∧ ψ1 k1 = ψ1 k then h.choose else ψ1 k) = k
    rw [dif_pos hex]
    obtain ⟨⟨C, m⟩, e⟩ := hex.choose_spec
    obtain ⟨C', m'⟩ := hk
    exact h1.conInj C C' _ _ m m' e
  have con : ∀ {C : ContractTy} {k1 : Idx}, (C, k1) ∈ cs1 → ∃ k, (C, k) ∈ cs ∧ ψ1 k = k1 ∧ iK k1 = k := by
    intro C k1 m
    obtain ⟨k, mk, rfl⟩ := (h1.instances C k1).1 m
    exact ⟨k, mk, rfl, hK k ⟨C, mk⟩⟩
  have obj : ∀ {C : ContractTy} {k o1 : Idx}, (C, k) ∈ cs → o1 ∈ objectsOf b1 (ψ1 k) →
      ∃ o ∈ objectsOf b k, φ1 o = o1 ∧ iO o1 = o := by
    intro C k o1 m l
    obtain ⟨o, lo, rfl⟩ := (same_objs h1 m o1).1 l
    exact ⟨o, lo, rfl, hO o ⟨C, k, m, lo⟩⟩
  refine ⟨fun o => φ2 (iO o), fun k => ψ2 (iK k), ?_, ?_, ?_, ?_, ?_, ?_, ?_, ?_⟩
  · intro C k2
    rw [h2.instances]
    constructor
    · rintro ⟨k, m, rfl⟩
      exact ⟨ψ1 k, same_inst h1 m, by rw [hK k ⟨C, m⟩]⟩
    · rintro ⟨k1, m, rfl⟩
      obtain ⟨k, mk, _, e⟩ := con m
      exact ⟨k, mk, by rw [e]⟩
  · intro C1 C2 k1 k2 m1 m2 e
    obtain ⟨k, mk, rfl, e1⟩ := con m1
    obtain ⟨k', mk', rfl, e2⟩ := con m2
    simp only [e1, e2] at e
    rw [h2.conInj C1 C2 k k' mk mk' e]
  · intro k2 cd2 e
    obtain ⟨C, k, m, rfl⟩ := h2.conOnto k2 cd2 e
    exact ⟨C, ψ1 k, same_inst h1 m, by rw [hK k ⟨C, m⟩]⟩
  · intro C k1 m
    obtain ⟨k, mk, rfl, e⟩ := con m
    obtain ⟨cd, cd1, a1, a2, a3, a4⟩ := h1.contract C k mk
    obtain ⟨cd', cd2, c1, c2, c3, c4⟩ := h2.contract C k mk
    rw [a1] at c1; injection c1 with c1; subst c1
    refine ⟨cd1, cd2, a2, by simp only [e]; exact c2, c3.trans a3.symm, fun o2 => ?_⟩
    rw [c4]
    have ho : ∀ o ∈ cd.objects, LO o := fun o hm => ⟨C, k, mk, by rw [objectsOf_eq a1]; exact hm⟩
    constructor
    · rintro ⟨o, lo, rfl⟩
      exact ⟨φ1 o, (a4 _).2 ⟨o, lo, rfl⟩, by rw [hO o (ho o lo)]⟩
    · rintro ⟨o1, l1, rfl⟩
      obtain ⟨o, lo, rfl⟩ := (a4 o1).1 l1
      exact ⟨o, lo, by rw [hO o (ho o lo)]⟩
  · intro C1 C2 k1 k2 o1 o2 m1 m2 l1 l2 e
    obtain ⟨k, mk, rfl, _⟩ := con m1
    obtain ⟨k', mk', rfl, _⟩ := con m2
    obtain ⟨o, lo, rfl, e1⟩ := obj mk l1
    obtain ⟨o', lo', rfl, e2⟩ := obj mk' l2
    simp only [e1, e2] at e
    rw [h2.objInj C1 C2 k k' o o' mk mk' lo lo' e]
  · intro o2 ob2 e
    obtain ⟨C, k, o, m, l, rfl⟩ := h2.objOnto o2 ob2 e
    exact ⟨C, ψ1 k, φ1 o, same_inst h1 m, (same_objs h1 m _).2 ⟨o, l, rfl⟩, by rw [hO o ⟨C, k, m, l⟩]⟩
  · intro C k1 o1 m l
    obtain ⟨k, mk, rfl, e⟩ := con m
    obtain ⟨o, lo, rfl, e'⟩ := obj mk l
    simp only [e, e']
    exact h2.object C k o mk lo
  · intro C k1 o1 n f m l hf
    obtain ⟨k, mk, rfl, e⟩ := con m
    obtain ⟨o, lo, rfl, e'⟩ := obj mk l
    obtain ⟨v, v1, a1, a2, a3⟩ := h1.values C k o n f mk lo hf
    obtain ⟨w, v2, c1, c2, c3⟩ := h2.values C k o n f mk lo hf
    have := holds_fun a1 c1
    subst this
    refine ⟨v1, v2, a2, by simp only [e, e']; exact c2, ?_⟩
    rw [c3, a3, mapHandles_asRestored]
    obtain ⟨nm, ty⟩ := f
    refine asRestored_congr (fun x hx => ?_) (fun x hx => ?_)
    · have hh : LO x := by
        cases ty with
        | vec p => cases p <;> simp [DynProp.ofTyped] at hx
        | prim p =>
          cases p <;> simp [DynProp.ofTyped] at hx
          subst hx
          obtain ⟨C', k', m', l'⟩ := hcl.objects C k o n _ v mk lo hf rfl a1
          exact ⟨C', k', m', l'⟩
      rw [hO x hh]
    · have hh : LK x := by
        cases ty with
        | vec p => cases p <;> simp [DynProp.ofTyped] at hx
        | prim p =>
          cases p <;> simp [DynProp.ofTyped] at hx
          subst hx
          exact hcl.contracts C k o n _ v mk lo hf rfl a1
      rw [hK x hh]

/-- **C102.** Two saves of the same contracts may be different files; but whatever the orders of the calls, the kinds of baseline and
the hash iteration orders of the two, what is restored from the one has the same contents, bit for bit, as what is restored from the other. -/
theorem C102_saves_agree {kind : Kind} {evs : List Event} {b : Baseline} {cs : List (ContractTy × Idx)}
    (hS : Savable kind evs b cs) (c1 c2 : Cycle) (hc1 : c1.Fits cs) (hc2 : c2.Fits cs) :
    ∃ (cs1 : List (ContractTy × Idx)) (b1 : Baseline) (cs2 : List (ContractTy × Idx)) (b2 : Baseline) (φ ψ : Idx → Idx),
      c1.run b = .ok (cs1, b1) ∧ c2.run b = .ok (cs2, b2) ∧ SameExactly b1 cs1 b2 cs2 φ ψ := by
  obtain ⟨cs1, b1, φ1, ψ1, _, e1, s1, _⟩ := C78_savable_again hS c1 hc1
  obtain ⟨cs2, b2, φ2, ψ2, _, e2, s2, _⟩ := C78_savable_again hS c2 hc2
  obtain ⟨φ, ψ, s⟩ := same_join hS.closed s1 s2
  exact ⟨cs1, b1, cs2, b2, φ, ψ, e1, e2, s⟩

theorem contractNo_id {buf : FbBaseline} {C C' : ContractTy} {k : Nat} (h : ContractNo buf C k) (h' : ContractNo buf C' k) :
    C.id = C'.id := by
  obtain ⟨cs, c, e1, e2, ⟨d, _⟩, _⟩ := h
  obtain ⟨cs', c', e1', e2', ⟨d', _⟩, _⟩ := h'
  rw [e1] at e1'; injection e1' with e1'; subst e1'
  rw [e2] at e2'; injection e2' with e2'; subst e2'
  rw [d] at d'
  simp only [Option.some.injEq, FbContractId.mk.injEq] at d'
  generalize C.id = x at d'
  generalize C'.id = y at d'
  cases x; cases y
  simp only at d'
  rw [d'.1, d'.2]

theorem type_eq_of_id {Cs : List ContractTy} (hids : (Cs.map ContractTy.id).Nodup) {C C' : ContractTy} (h : C ∈ Cs) (h' : C' ∈ Cs)
    (e : C.id = C'.id) : C = C' := by
  obtain ⟨n, hn⟩ := List.getElem?_of_mem h
  obtain ⟨m, hm⟩ := List.getElem?_of_mem h'
  have i1 : (Cs.map ContractTy.id)[n]? = some C.id := by simp [hn]
  have i2 : (Cs.map ContractTy.id)[m]? = some C.id := by simp [hm, e]
  have := (List.getElem?_inj (List.getElem?_eq_some_iff.1 i1).1 hids).1 (i1.trans i2.symm)
  subst this
  rw [hn] at hm; injection hm

/-- **C102.** For any complete buffer, saved by this library or not: restoring it with the contract types registered and the objects
deserialized in another order, on another kind of baseline, gives the same contents. -/
theorem C102_orders_agree {buf : FbBaseline} {Cs1 Cs2 : List ContractTy} (hB : Restorable buf Cs1) (hp : Cs2.Perm Cs1)
    (hids : (Cs1.map ContractTy.id).Nodup)
    (hnull : ∀ C ∈ Cs1, C.id ≠ ⟨"teleportal.serialize.NullContract", (0, 0, 0)⟩)
    (hch : ChannelsUnused buf Cs1) (hsize : buf.tables ≤ 1000000) (kind1 kind2 : Kind) (sched1 sched2 : IterOrder (ContractTy × Idx))
    (ord1 ord2 : IterOrder (Nat × Idx)) (hord1 hord2 : HashOrder) :
    ∃ (cs1 : List (ContractTy × Idx)) (b1 : Baseline) (cs2 : List (ContractTy × Idx)) (b2 : Baseline) (φ ψ : Idx → Idx),
      restore buf kind1 Cs1 sched1 ord1 hord1 = .ok (cs1, b1) ∧ restore buf kind2 Cs2 sched2 ord2 hord2 = .ok (cs2, b2) ∧
      SameExactly b1 cs1 b2 cs2 φ ψ := by
  classical
  have hm : ∀ C : ContractTy, C ∈ Cs2 ↔ C ∈ Cs1 := fun C => hp.mem_iff
  have hOf : ∀ p : Nat, ObjectOf buf Cs2 p ↔ ObjectOf buf Cs1 p := by
    intro p; unfold ObjectOf; simp only [hm]
  have hB2 : Restorable buf Cs2 := by
    refine ⟨?_, fun p obj ho => hB.hasStates p obj ((hOf p).1 ho), ?_, fun p p' n n' i obj obj' r h1 h2 =>
      hB.ownStates p p' n n' i obj obj' r ((hOf p).1 h1) ((hOf p').1 h2), ?_, ?_, ?_⟩
    · intro C hC; exact hB.described C ((hm C).1 hC)
    · intro C k p obj c hC; exact hB.wellFormed C k p obj c ((hm C).1 hC)
    · intro p i obj ho; exact hB.strings p i obj ((hOf p).1 ho)
    · intro p i obj c ho h1 h2 h3
      obtain ⟨C, hC, e⟩ := hB.contractRefs p i obj c ((hOf p).1 ho) h1 h2 h3
      exact ⟨C, (hm C).2 hC, e⟩
    · intro p i obj r ho h1 h2 h3
      exact (hOf _).2 (hB.objectRefs p i obj r ((hOf p).1 ho) h1 h2 h3)
  have hids2 : (Cs2.map ContractTy.id).Nodup := (hp.map _).nodup_iff.2 hids
  obtain ⟨cs1, b1, N1, r1, t1, nd1, k1, ko1, inj1, on1, ob1⟩ :=
    C62_complete_buffers_restore hB hids hnull hch hsize kind1 sched1 ord1 hord1
  obtain ⟨cs2, b2, N2, r2, t2, nd2, k2, ko2, inj2, on2, ob2⟩ :=
    C62_complete_buffers_restore hB2 hids2 (fun C hC => hnull C ((hm C).1 hC)) (fun C hC => hch C ((hm C).1 hC)) hsize kind2 sched2 ord2 hord2
  -- contract instances: a handle has one type, a type one handle
  have ty1 : ∀ {C : ContractTy} {h : Idx}, (C, h) ∈ cs1 → C ∈ Cs1 := fun {C h} m => by rw [← t1]; exact List.mem_map.2 ⟨_, m, rfl⟩
  have ty2 : ∀ {C : ContractTy} {h : Idx}, (C, h) ∈ cs2 → C ∈ Cs1 := fun {C h} m => (hm C).1 (by rw [← t2]; exact List.mem_map.2 ⟨_, m, rfl⟩)
  have uni : ∀ {l : List (ContractTy × Idx)}, (l.map Prod.snd).Nodup → ∀ {C C' : ContractTy} {h : Idx}, (C, h) ∈ l → (C', h) ∈ l → C = C' := by
    intro l hnd C C' h m m'
    obtain ⟨n, hn⟩ := List.getElem?_of_mem m
    obtain ⟨n', hn'⟩ := List.getElem?_of_mem m'
    have := snd_inj hnd hn hn'
    subst this
    rw [hn] at hn'; injection hn' with hn'; injection hn'
  have fun_ : ∀ {l : List (ContractTy × Idx)} {Ds : List ContractTy}, l.map Prod.fst = Ds → (Ds.map ContractTy.id).Nodup →
      ∀ {C : ContractTy} {h h' : Idx}, (C, h) ∈ l → (C, h') ∈ l → h = h' := by
    intro l Ds hl hnd C h h' m m'
    obtain ⟨n, hn⟩ := List.getElem?_of_mem m
    obtain ⟨n', hn'⟩ := List.getElem?_of_mem m'
    have i1 : (Ds.map ContractTy.id)[n]? = some C.id := by rw [← hl]; simp [hn]
    have i2 : (Ds.map ContractTy.id)[n']? = some C.id := by rw [← hl]; simp [hn']
    have := (List.getElem?_inj (List.getElem?_eq_some_iff.1 i1).1 hnd).1 (i1.trans i2.symm)
    subst this
    rw [hn] at hn'; injection hn' with hn'; injection hn'
  have here2 : ∀ {C : ContractTy}, C ∈ Cs1 → ∃ h, (C, h) ∈ cs2 := by
    intro C hC
    have := (hm C).2 hC
    rw [← t2] at this
    obtain ⟨⟨C', h⟩, m, e⟩ := List.mem_map.1 this
    cases e; exact ⟨h, m⟩
  have here1 : ∀ {C : ContractTy}, C ∈ Cs1 → ∃ h, (C, h) ∈ cs1 := by
    intro C hC
    rw [← t1] at hC
    obtain ⟨⟨C', h⟩, m, e⟩ := List.mem_map.1 hC
    cases e; exact ⟨h, m⟩
  -- the two maps
  let ψ : Idx → Idx := fun h => if e : ∃ h2, ∃ C, (C, h) ∈ cs1 ∧ (C, h2) ∈ cs2 then e.choose else h
  let φ : Idx → Idx := fun o => if e : ∃ o2, (∃ ob, b2.object o2 = .ok ob) ∧ N2 o2 = N1 o then e.choose else o
  have hψ : ∀ {C : ContractTy} {h h2 : Idx}, (C, h) ∈ cs1 → (C, h2) ∈ cs2 → ψ h = h2 := by
    intro C h h2 m m2
    have hex : ∃ h2, ∃ C, (C, h) ∈ cs1 ∧ (C, h2) ∈ cs2 := ⟨h2, C, m, m2⟩
    show (if e : ∃ h2, ∃ C, (C, h) ∈ cs1 ∧ (C, h2) ∈ cs2 then e.choose else h) = h2
    rw [dif_pos hex]
    obtain ⟨C', m', m2'⟩ := hex.choose_spec
    have := uni nd1 m m'; subst this
    exact fun_ t2 hids2 m2' m2
  have hφ : ∀ {o o2 : Idx} {ob2 : ObjectD}, b2.object o2 = .ok ob2 → N2 o2 = N1 o → φ o = o2 := by
    intro o o2 ob2 l e
    have hex : ∃ o2, (∃ ob, b2.object o2 = .ok ob) ∧ N2 o2 = N1 o := ⟨o2, ⟨_, l⟩, e⟩
    show (if e : ∃ o2, (∃ ob, b2.object o2 = .ok ob) ∧ N2 o2 = N1 o then e.choose else o) = o2
    rw [dif_pos hex]
    obtain ⟨⟨ob', l'⟩, e'⟩ := hex.choose_spec
    exact inj2 _ _ _ _ l' l (e'.trans e.symm)
  -- the object for the same table
  have to2 : ∀ {o : Idx} {ob : ObjectD}, b1.object o = .ok ob → ∃ o2 ob2, b2.object o2 = .ok ob2 ∧ N2 o2 = N1 o ∧ φ o = o2 := by
    intro o ob l
    obtain ⟨C, k, obj, m, hk, ha, hw, _⟩ := ob1 o ob l
    obtain ⟨⟨c, hc, hck⟩, _⟩ := hw
    obtain ⟨o2, ob2, l2, e⟩ := on2 (N1 o) ((hOf _).2 ⟨C, ty1 m, k, obj, c, hk, ha, hc, hck⟩)
    exact ⟨o2, ob2, l2, e, hφ l2 e⟩
  have to1 : ∀ {o2 : Idx} {ob' : ObjectD}, b2.object o2 = .ok ob' → ∃ o ob, b1.object o = .ok ob ∧ N2 o2 = N1 o ∧ φ o = o2 := by
    intro o2 ob' l
    obtain ⟨C, k, obj, m, hk, ha, hw, _⟩ := ob2 o2 ob' l
    obtain ⟨⟨c, hc, hck⟩, _⟩ := hw
    obtain ⟨o, ob, l1, e⟩ := on1 (N2 o2) ⟨C, ty2 m, k, obj, c, hk, ha, hc, hck⟩
    exact ⟨o, ob, l1, e.symm, hφ l e.symm⟩
  -- corresponding objects have the same type
  have same : ∀ {o o2 : Idx} {ob ob' : ObjectD}, b1.object o = .ok ob → b2.object o2 = .ok ob' → N2 o2 = N1 o →
      ob'.contract = ψ ob.contract := by
    intro o o2 ob ob' l l2 e
    obtain ⟨C, k, obj, m, hk, ha, ⟨⟨c, hc, hck⟩, _⟩, _⟩ := ob1 o ob l
    obtain ⟨C', k', obj', m', hk', ha', ⟨⟨c', hc', hck'⟩, _⟩, _⟩ := ob2 o2 ob' l2
    rw [e] at ha'
    obtain ⟨objs, g1, g2⟩ := ha
    obtain ⟨objs', g1', g2'⟩ := ha'
    rw [g1] at g1'; injection g1' with g1'; subst g1'
    rw [g2] at g2'; injection g2' with g2'; subst g2'
    rw [hc] at hc'; injection hc' with hc'; subst hc'
    rw [hck] at hck'; subst hck'
    have := type_eq_of_id hids (ty1 m) (ty2 m') (contractNo_id hk hk')
    subst this
    exact (hψ m m').symm
  have lst1 : ∀ {C : ContractTy} {h : Idx}, (C, h) ∈ cs1 → ∀ o : Idx, o ∈ objectsOf b1 h ↔ ∃ ob, b1.object o = .ok ob ∧ ob.contract = h := by
    intro C h m o
    obtain ⟨cd, e1, _, e3⟩ := k1 C h m
    rw [objectsOf_eq e1]; exact e3 o
  refine ⟨cs1, b1, cs2, b2, φ, ψ, r1, r2, ?_, ?_, ?_, ?_, ?_, ?_, ?_, ?_⟩
  · intro C h2
    constructor
    · intro m2
      obtain ⟨h, m⟩ := here1 (ty2 m2)
      exact ⟨h, m, hψ m m2⟩
    · rintro ⟨h, m, rfl⟩
      obtain ⟨h2, m2⟩ := here2 (ty1 m)
      rw [hψ m m2]; exact m2
  · intro C C' h h' m m' e
    obtain ⟨g, mg⟩ := here2 (ty1 m)
    obtain ⟨g', mg'⟩ := here2 (ty1 m')
    rw [hψ m mg, hψ m' mg'] at e
    subst e
    have := uni nd2 mg mg'; subst this
    exact fun_ t1 hids m m'
  · intro h2 cd e
    obtain ⟨C, m2⟩ := ko2 h2 cd e
    obtain ⟨h, m⟩ := here1 (ty2 m2)
    exact ⟨C, h, m, hψ m m2⟩
  · intro C h m
    obtain ⟨h2, m2⟩ := here2 (ty1 m)
    obtain ⟨cd, a1, a2, a3⟩ := k1 C h m
    obtain ⟨cd2, c1, c2, c3⟩ := k2 C h2 m2
    rw [hψ m m2]
    refine ⟨cd, cd2, a1, c1, c2.trans a2.symm, fun o2 => ?_⟩
    rw [c3]
    constructor
    · rintro ⟨ob', l, e⟩
      obtain ⟨o, ob, l1, en, ep⟩ := to1 l
      refine ⟨o, (a3 o).2 ⟨ob, l1, ?_⟩, ep⟩
      have hs := same l1 l en
      obtain ⟨C', k, obj, m', _⟩ := ob1 o ob l1
      obtain ⟨g, mg⟩ := here2 (ty1 m')
      rw [hψ m' mg, e] at hs
      subst hs
      have := uni nd2 m2 mg; subst this
      exact fun_ t1 hids m' m
    · rintro ⟨o, lo, rfl⟩
      obtain ⟨ob, l1, e⟩ := (a3 o).1 lo
      obtain ⟨o2, ob', l2, en, ep⟩ := to2 l1
      rw [ep]
      exact ⟨ob', l2, by rw [same l1 l2 en, e, hψ m m2]⟩
  · intro C C' h h' o o' m m' lo lo' e
    obtain ⟨ob, l, _⟩ := (lst1 m o).1 lo
    obtain ⟨ob', l', _⟩ := (lst1 m' o').1 lo'
    obtain ⟨o2, ob2, l2, en, ep⟩ := to2 l
    obtain ⟨o2', ob2', l2', en', ep'⟩ := to2 l'
    rw [ep, ep'] at e
    subst e
    exact inj1 _ _ _ _ l l' (en.symm.trans en')
  · intro o2 ob' l
    obtain ⟨o, ob, l1, en, ep⟩ := to1 l
    obtain ⟨C, k, obj, m, _⟩ := ob1 o ob l1
    exact ⟨C, ob.contract, o, m, (lst1 m o).2 ⟨ob, l1, rfl⟩, ep⟩
  · intro C h o m lo
    obtain ⟨ob, l, e⟩ := (lst1 m o).1 lo
    obtain ⟨o2, ob', l2, en, ep⟩ := to2 l
    rw [ep]
    exact ⟨ob', l2, by rw [same l l2 en, e]⟩
  · intro C h o n f m lo hf
    obtain ⟨ob, l, e⟩ := (lst1 m o).1 lo
    obtain ⟨o2, ob', l2, en, ep⟩ := to2 l
    have hcon := same l l2 en
    obtain ⟨C1, q1, obj, m1, hk, ha, hw, hl, _, _, hv⟩ := ob1 o ob l
    obtain ⟨C2, q2, obj', m2, hk', ha', hw', hl', _, _, hv'⟩ := ob2 o2 ob' l2
    rw [e] at m1
    have := uni nd1 m m1; subst this
    rw [hcon, e] at m2
    obtain ⟨g, mg⟩ := here2 (ty1 m)
    have hg := hψ m mg
    rw [hg] at m2
    have := uni nd2 mg m2; subst this
    rw [en] at ha'
    obtain ⟨objs, g1, g2⟩ := ha
    obtain ⟨objs', g1', g2'⟩ := ha'
    rw [g1] at g1'; injection g1' with g1'; subst g1'
    rw [g2] at g2'; injection g2' with g2'; subst g2'
    have hlt : n < C.states.length := (List.getElem?_eq_some_iff.1 hf).1
    obtain ⟨j, hj⟩ : ∃ j, ob.states[n]? = some j := ⟨_, List.getElem?_eq_getElem (by rw [hl]; exact hlt)⟩
    obtain ⟨j', hj'⟩ : ∃ j', ob'.states[n]? = some j' := ⟨_, List.getElem?_eq_getElem (by rw [hl']; exact hlt)⟩
    obtain ⟨i, hi⟩ : ∃ i, (stateIdxs obj)[n]? = some i := ⟨_, List.getElem?_eq_getElem (by rw [hw.2.1]; exact hlt)⟩
    obtain ⟨v, val, s1, s2, s3⟩ := hv n i f j hf hi hj
    obtain ⟨v', val', s1', s2', s3'⟩ := hv' n i f j' hf hi hj'
    obtain ⟨sts, y1, y2⟩ := s1
    obtain ⟨sts', y1', y2'⟩ := s1'
    rw [y1] at y1'; injection y1' with y1'; subst y1'
    rw [y2] at y2'; injection y2' with y2'; subst y2'
    refine ⟨val, val', ⟨j, ?_, s2⟩, ⟨j', ?_, s2'⟩, ?_⟩
    · rw [bindState, (object_ok.1 l)]; simp only [ObjectD.bindState, bindIdx, e, ne_eq, not_true_eq_false, if_false, hj]
    · rw [ep, bindState, (object_ok.1 l2)]; simp only [ObjectD.bindState, bindIdx, hcon, e, ne_eq, not_true_eq_false, if_false, hj']
    · generalize hd : DynProp.ofTyped f.ty val = x at s3
      generalize hd' : DynProp.ofTyped f.ty val' = x' at s3'
      clear hd hd'
      cases s3 <;> cases s3' <;> try rfl
      · rename_i r p hp1 p' hp2
        obtain ⟨ob', l2'⟩ := hp2.2
        simp only [mapHandles, hφ l2' (hp2.1.trans hp1.1.symm)]
      · rename_i c p hp1 p' hp2
        obtain ⟨D, mD, hD⟩ := hp1
        obtain ⟨D', mD', hD'⟩ := hp2
        have := type_eq_of_id hids (ty1 mD) (ty2 mD') (contractNo_id hD hD')
        subst this
        simp only [mapHandles, hψ mD mD']

/-! ## Examples -/

/-- The graph of C48 saved under two hash orders: two different files, the same contents. -/
def seedCycle (o : HashOrder) (cs : List (ContractTy × Idx)) : Cycle :=
  { demoCycle cs with calls := cs.map fun e => (e.1, e.2, o) }

example : ∃ (cs1 : List (ContractTy × Idx)) (b1 : Baseline) (cs2 : List (ContractTy × Idx)) (b2 : Baseline) (φ ψ : Idx → Idx),
    (seedCycle .id graphCs).run graphB = .ok (cs1, b1) ∧
    (seedCycle ⟨List.reverse, fun l => List.reverse_perm l⟩ graphCs).run graphB = .ok (cs2, b2) ∧ SameExactly b1 cs1 b2 cs2 φ ψ := by
  have hf : ∀ o : HashOrder, (seedCycle o graphCs).Fits graphCs := fun o => ⟨by
    show ((graphCs.map fun e => (e.1, e.2, o)).map _).Perm graphCs
    rw [List.map_map]
    have : ((fun e : ContractTy × Idx × HashOrder => (e.1, e.2.1)) ∘ fun e : ContractTy × Idx => (e.1, e.2, o)) = id := by
      funext e; rfl
    rw [this, List.map_id], List.reverse_perm _⟩
  exact C102_saves_agree graph_savable _ _ (hf _) (hf _)

/-- The two files are different. -/
example : ((Ser.new graphB).serializeAll (seedCycle .id graphCs).calls).1.finish .id .id ≠
    ((Ser.new graphB).serializeAll (seedCycle ⟨List.reverse, fun l => List.reverse_perm l⟩ graphCs).calls).1.finish .id .id := by
  decide +kernel

/-- The buffer of C62, restored in two orders: contract handles differ, contents do not. -/
example : ∃ (cs1 : List (ContractTy × Idx)) (b1 : Baseline) (cs2 : List (ContractTy × Idx)) (b2 : Baseline) (φ ψ : Idx → Idx),
    restore demoBuf .main [nodeC, tagC] .id .id .id = .ok (cs1, b1) ∧
    restore demoBuf .fork [tagC, nodeC] ⟨List.reverse, fun l => List.reverse_perm l⟩ .id .id = .ok (cs2, b2) ∧
    SameExactly b1 cs1 b2 cs2 φ ψ :=
  C102_orders_agree demo_restorable (List.Perm.swap _ _ _) (by decide) (by decide) (.of_none (by decide)) (by decide +kernel) _ _ _ _ _ _ _ _

end Verif.Props
