import Verif.Props.Serialize
import Verif.Spec.SaveRestore
/-!
# C78: what was restored can be saved again, for ever
-/
namespace Verif.Props
open Verif Spec Arena Baseline Store

/-! ## Inverting a successful restoration -/

theorem registerAll_run {buf : FbBaseline} {kind : Kind} (Cs : List ContractTy)
    {regs : List (ContractTy × Outcome Idx)} {bd bd' : Builder} {cs : List (ContractTy × Idx)}
    (hb : BuilderRun buf kind regs bd) (h : bd.registerAll Cs = (bd', .ok cs)) :
    cs.map Prod.fst = Cs ∧ BuilderRun buf kind (regs ++ cs.map fun e => (e.1, Outcome.ok e.2)) bd' := by
  induction Cs generalizing regs bd cs with
  | nil =>
    simp only [Builder.registerAll, Prod.mk.injEq, Outcome.ok.injEq] at h
    obtain ⟨rfl, rfl⟩ := h
    exact ⟨rfl, by simpa using hb⟩
  | cons C Cs ih =>
    have hp := (C52_register_iff hb C).2.1
    have hrun := BuilderRun.register regs bd C hb hp
    unfold Builder.registerAll at h
    rcases hr : bd.registerContract C with ⟨bd1, r⟩
    rw [hr] at h hrun
    cases r with
    | err m => simp at h
    | panic m => simp at h
    | ok k =>
      simp only at h hrun
      rcases hr2 : bd1.registerAll Cs with ⟨bd2, r2⟩
      rw [hr2] at h
      cases r2 with
      | err m => simp at h
      | panic m => simp at h
      | ok rs =>
        simp only [Prod.mk.injEq, Outcome.ok.injEq] at h
        obtain ⟨rfl, rfl⟩ := h
        obtain ⟨e1, e2⟩ := ih hrun hr2
        exact ⟨by simp [e1], by simpa using e2⟩

theorem deserializeAll_run {buf : FbBaseline} {kind : Kind} {regs : List (ContractTy × Outcome Idx)}
    (cs : List (ContractTy × Idx)) {calls : List ((ContractTy × Idx) × Outcome Unit)} {d d' : Des}
    (hd : DesRun buf kind regs calls d) (h : d.deserializeAll cs = (d', .ok ())) :
    DesRun buf kind regs (calls ++ cs.map fun e => (e, Outcome.ok ())) d' := by
  induction cs generalizing calls d with
  | nil =>
    simp only [Des.deserializeAll, Prod.mk.injEq, and_true] at h
    subst h; simpa using hd
  | cons e cs ih =>
    obtain ⟨C, k⟩ := e
    have hrun := DesRun.objects calls d C k hd
    unfold Des.deserializeAll at h
    rcases hr : d.deserializeObjects C k with ⟨d1, r⟩
    rw [hr] at h hrun
    cases r with
    | err m => simp at h
    | panic m => simp at h
    | ok u =>
      cases u
      simp only at h
      simpa using ih (hrun rfl) h

theorem restore_inv {buf : FbBaseline} {kind : Kind} {Cs : List ContractTy} {sched : IterOrder (ContractTy × Idx)}
    {ord : IterOrder (Nat × Idx)} {hord : HashOrder} {cs : List (ContractTy × Idx)} {b' : Baseline}
    (h : restore buf kind Cs sched ord hord = .ok (cs, b')) :
    cs.map Prod.fst = Cs ∧ ∃ d, DesRun buf kind (cs.map fun e => (e.1, Outcome.ok e.2))
      ((sched.order cs).map fun e => (e, Outcome.ok ())) d ∧ d.finish ord hord = .ok b' := by
  unfold restore at h
  cases hbd : Builder.new buf kind with
  | err m => rw [hbd] at h; simp at h
  | panic m => rw [hbd] at h; simp at h
  | ok bd =>
    rw [hbd] at h; simp only at h
    rcases hr : bd.registerAll Cs with ⟨bd1, r⟩
    rw [hr] at h
    cases r with
    | err m => simp at h
    | panic m => simp at h
    | ok cs1 =>
      simp only at h
      rcases hr2 : (Des.new bd1).deserializeAll (sched.order cs1) with ⟨d, r2⟩
      rw [hr2] at h
      cases r2 with
      | err m => simp at h
      | panic m => simp at h
      | ok u =>
        cases u
        simp only at h
        cases hf : d.finish ord hord with
        | err m => rw [hf] at h; simp at h
        | panic m => rw [hf] at h; simp at h
        | ok b2 =>
          rw [hf] at h
          simp only [Outcome.ok.injEq, Prod.mk.injEq] at h
          obtain ⟨rfl, rfl⟩ := h
          obtain ⟨e1, e2⟩ := registerAll_run Cs (.new bd hbd) hr
          rw [List.nil_append] at e2
          have := deserializeAll_run _ (.new bd1 e2) hr2
          rw [List.nil_append] at this
          exact ⟨e1, d, this, hf⟩

/-- A restored baseline is reachable by a history in which every object of a contract was created with the type the
contract was restored with. -/
theorem restore_typed {buf : FbBaseline} {kind : Kind} {Cs : List ContractTy} {sched : IterOrder (ContractTy × Idx)}
    {ord : IterOrder (Nat × Idx)} {hord : HashOrder} {cs : List (ContractTy × Idx)} {b' : Baseline}
    (h : restore buf kind Cs sched ord hord = .ok (cs, b')) (hids : (Cs.map ContractTy.id).Nodup) :
    (cs.map Prod.snd).Nodup ∧ ∃ evs, History kind evs b' ∧
      ∀ (C C' : ContractTy) (k o : Idx), (C, k) ∈ cs → CreatedAs evs C' k o → C' = C := by
  obtain ⟨h1, d, h2, h3⟩ := restore_inv h
  have hmem : ∀ (C : ContractTy) (h : Idx), (C, Outcome.ok h) ∈ cs.map (fun e => (e.1, Outcome.ok e.2)) ↔ (C, h) ∈ cs := by
    intro C h
    simp only [List.mem_map, Prod.mk.injEq, Outcome.ok.injEq]
    constructor
    · rintro ⟨e, he, rfl, rfl⟩; exact he
    · intro he; exact ⟨_, he, rfl, rfl⟩
  have hbr : ∀ (regs : List (ContractTy × Outcome Idx)) (calls : List ((ContractTy × Idx) × Outcome Unit)) (d : Des),
      DesRun buf kind regs calls d → ∃ bd, BuilderRun buf kind regs bd := by
    intro regs calls d hd
    induction hd with
    | new bd hb => exact ⟨bd, hb⟩
    | objects _ _ _ _ _ _ ih => exact ih
  obtain ⟨bd, hbd⟩ := hbr _ _ _ h2
  have hh := C52_handles hbd
  have hsnd : (cs.map Prod.snd).Nodup := by
    refine nodup_of_getElem? fun n n' h g1 g2 => ?_
    simp only [List.getElem?_map, Option.map_eq_some_iff] at g1 g2
    obtain ⟨e1, g1, rfl⟩ := g1
    obtain ⟨e2, g2, e⟩ := g2
    have hid := hh.1 e1.1 e2.1 e1.2 ((hmem _ _).2 (List.mem_of_getElem? g1))
      ((hmem _ _).2 (by rw [← e]; exact List.mem_of_getElem? g2))
    have i1 : (Cs.map ContractTy.id)[n]? = some e1.1.id := by rw [← h1]; simp [g1]
    have i2 : (Cs.map ContractTy.id)[n']? = some e1.1.id := by rw [← h1, hid]; simp [g2]
    have hlt := (List.getElem?_eq_some_iff.1 i1).1
    exact (List.getElem?_inj hlt hids).1 (i1.trans i2.symm)
  refine ⟨hsnd, ?_⟩
  obtain ⟨done, hR⟩ := desRun_ok h2
  have hI := hR.inv
  rcases finish_spec hR ord hord with ⟨_, e⟩ | ⟨_, b2, e, ⟨evs, hH, _, hC⟩, hF⟩
  · rw [h3] at e; cases e
  rw [h3] at e; injection e with e; subst e
  refine ⟨evs, hH, ?_⟩
  rintro C C' k o hm ⟨ss, chs, hcr⟩
  rcases hC C' k o ss chs hcr with hn | ⟨r, hr⟩
  · have hm := (hmem _ _).2 hm
    obtain ⟨i, hi⟩ := (hR.live C k hm).2
    exact absurd hn (hI.reg i k ((hR.pairs _ _).2 ⟨C, hm, hi⟩)).1
  · simp only [List.mem_map, Prod.mk.injEq] at hr
    obtain ⟨e, he, rfl, _⟩ := hr
    have he := (sched.perm cs).mem_iff.1 he
    obtain ⟨n, hn⟩ := List.getElem?_of_mem he
    obtain ⟨n', hn'⟩ := List.getElem?_of_mem hm
    have := snd_inj hsnd hn hn'
    subst this
    rw [hn] at hn'; injection hn' with hn'; injection hn' with e1 e2

/-! ## `SameContents` -/

theorem holds_fun {b : Baseline} {h o : Idx} {n : Nat} {t : PropType} {v v' : t.Carrier} (h1 : Holds b h o n t v)
    (h2 : Holds b h o n t v') : v = v' := by
  obtain ⟨j, a1, a2⟩ := h1
  obtain ⟨j', b1, b2⟩ := h2
  rw [a1] at b1; injection b1 with b1; subst b1
  rw [a2] at b2; injection b2

theorem unsigned32_twice (v : BitVec 32) : unsigned32 (unsigned32 v) = unsigned32 v := by
  unfold unsigned32
  split
  · rfl
  · rfl

theorem unsigned64_twice (v : BitVec 64) : unsigned64 (unsigned64 v) = unsigned64 v := by
  unfold unsigned64
  split
  · rfl
  · rfl

theorem asRestored_comp (φ ψ φ' ψ' : Idx → Idx) (p : DynProp) :
    asRestored φ' ψ' (asRestored φ ψ p) = asRestored (fun o => φ' (φ o)) (fun h => ψ' (ψ h)) p := by
  cases p with
  | primitive q => cases q <;> first | rfl | simp only [asRestored, unsigned32_twice, unsigned64_twice]
  | vec q => rfl

theorem objectsOf_eq {b : Baseline} {h : Idx} {cd : ContractData} (e : b.contractData h = .ok cd) :
    objectsOf b h = cd.objects := by unfold objectsOf; rw [e]

section
variable {b b' b'' : Baseline} {cs cs' cs'' : List (ContractTy × Idx)} {φ ψ φ' ψ' : Idx → Idx}

theorem same_inst (h : SameContents b cs b' cs' φ ψ) {C : ContractTy} {k : Idx} (hm : (C, k) ∈ cs) :
    (C, ψ k) ∈ cs' := (h.instances C (ψ k)).2 ⟨k, hm, rfl⟩

theorem same_objs (h : SameContents b cs b' cs' φ ψ) {C : ContractTy} {k : Idx} (hm : (C, k) ∈ cs) (o' : Idx) :
    o' ∈ objectsOf b' (ψ k) ↔ ∃ o ∈ objectsOf b k, φ o = o' := by
  obtain ⟨cd, cd', e1, e2, _, e3⟩ := h.contract C k hm
  rw [objectsOf_eq e1, objectsOf_eq e2]; exact e3 o'

theorem same_trans (h1 : SameContents b cs b' cs' φ ψ) (h2 : SameContents b' cs' b'' cs'' φ' ψ') :
    SameContents b cs b'' cs'' (fun o => φ' (φ o)) (fun h => ψ' (ψ h)) := by
  refine ⟨?_, ?_, ?_, ?_, ?_, ?_, ?_, ?_⟩
  · intro C k''
    rw [h2.instances]
    constructor
    · rintro ⟨k', m, rfl⟩
      obtain ⟨k, mk, rfl⟩ := (h1.instances C k').1 m
      exact ⟨k, mk, rfl⟩
    · rintro ⟨k, m, rfl⟩
      exact ⟨ψ k, same_inst h1 m, rfl⟩
  · intro C1 C2 k1 k2 m1 m2 e
    exact h1.conInj C1 C2 k1 k2 m1 m2 (h2.conInj C1 C2 _ _ (same_inst h1 m1) (same_inst h1 m2) e)
  · intro k'' cd hcd
    obtain ⟨C, k', m, rfl⟩ := h2.conOnto k'' cd hcd
    obtain ⟨k, mk, rfl⟩ := (h1.instances C k').1 m
    exact ⟨C, k, mk, rfl⟩
  · intro C k m
    obtain ⟨cd, cd', a1, a2, a3, a4⟩ := h1.contract C k m
    obtain ⟨cd1, cd'', c1, c2, c3, c4⟩ := h2.contract C (ψ k) (same_inst h1 m)
    rw [a2] at c1; injection c1 with c1; subst c1
    refine ⟨cd, cd'', a1, c2, c3.trans a3, fun o'' => ?_⟩
    rw [c4]
    constructor
    · rintro ⟨o', m', rfl⟩
      obtain ⟨o, m, rfl⟩ := (a4 o').1 m'
      exact ⟨o, m, rfl⟩
    · rintro ⟨o, m, rfl⟩
      exact ⟨φ o, (a4 _).2 ⟨o, m, rfl⟩, rfl⟩
  · intro C1 C2 k1 k2 o1 o2 m1 m2 l1 l2 e
    refine h1.objInj C1 C2 k1 k2 o1 o2 m1 m2 l1 l2 (h2.objInj C1 C2 _ _ _ _ (same_inst h1 m1) (same_inst h1 m2) ?_ ?_ e)
    · exact (same_objs h1 m1 _).2 ⟨o1, l1, rfl⟩
    · exact (same_objs h1 m2 _).2 ⟨o2, l2, rfl⟩
  · intro o'' ob'' hob
    obtain ⟨C, k', o', m, l, rfl⟩ := h2.objOnto o'' ob'' hob
    obtain ⟨k, mk, rfl⟩ := (h1.instances C k').1 m
    obtain ⟨o, lo, rfl⟩ := (same_objs h1 mk o').1 l
    exact ⟨C, k, o, mk, lo, rfl⟩
  · intro C k o m l
    exact h2.object C (ψ k) (φ o) (same_inst h1 m) ((same_objs h1 m _).2 ⟨o, l, rfl⟩)
  · intro C k o n f m l hf
    obtain ⟨v, v', a1, a2, a3⟩ := h1.values C k o n f m l hf
    obtain ⟨w, v'', c1, c2, c3⟩ := h2.values C (ψ k) (φ o) n f (same_inst h1 m) ((same_objs h1 m _).2 ⟨o, l, rfl⟩) hf
    have := holds_fun a2 c1
    subst this
    exact ⟨v, v'', a1, c2, by rw [c3, a3, asRestored_comp]⟩

end

theorem eq_of_map_perm {α : Type} {l l' : List α} (hl : l.Nodup) (hl' : l'.Nodup) (f : α → α)
    (hinj : ∀ x ∈ l, ∀ y ∈ l, f x = f y → x = y) (h : ∀ y : α, y ∈ l' ↔ ∃ x ∈ l, f x = y) : (l.map f).Perm l' := by
  refine (List.perm_ext_iff_of_nodup ?_ hl').2 fun y => by rw [List.mem_map, h]
  refine nodup_of_getElem? fun n n' x h1 h2 => ?_
  rw [List.getElem?_map, Option.map_eq_some_iff] at h1 h2
  obtain ⟨a, a1, a2⟩ := h1
  obtain ⟨c, c1, c2⟩ := h2
  have := hinj a (List.mem_of_getElem? a1) c (List.mem_of_getElem? c1) (a2.trans c2.symm)
  subst this
  exact (List.getElem?_inj (List.getElem?_eq_some_iff.1 a1).1 hl).1 (a1.trans c1.symm)

theorem perm_sum {l l' : List Nat} (h : l.Perm l') : l.sum = l'.sum := by
  induction h with
  | nil => rfl
  | cons x _ ih => simp [ih]
  | swap x y l => simp only [List.sum_cons]; omega
  | trans _ _ i1 i2 => exact i1.trans i2

theorem objectsOf_nodup {kind : Kind} {evs : List Event} {b : Baseline} (hH : History kind evs b) (h : Idx) :
    (objectsOf b h).Nodup := by
  unfold objectsOf
  cases e : b.contractData h with
  | ok cd => exact (history_binv hH).c.nodup h cd (contractData_ok.1 e)
  | err m => exact List.nodup_nil
  | panic m => exact List.nodup_nil

/-- A permutation of the list of contracts does not matter. -/
theorem savable_perm {kind : Kind} {evs : List Event} {b : Baseline} {cs cs' : List (ContractTy × Idx)}
    (hS : Savable kind evs b cs) (hp : cs'.Perm cs) : Savable kind evs b cs' := by
  have hm : ∀ {C : ContractTy} {h : Idx}, (C, h) ∈ cs' ↔ (C, h) ∈ cs := hp.mem_iff
  refine ⟨hS.history, ⟨?_, ?_, ?_, ?_, ?_⟩, ⟨?_, ?_⟩, (hp.map _).nodup_iff.2 hS.different, ?_, ?_, ?_⟩
  · intro C h m; exact hS.serializable.registered C h (hm.1 m)
  · intro C C' h o m; exact hS.serializable.typed C C' h o (hm.1 m)
  · intro C h o m; exact hS.serializable.present C h o (hm.1 m)
  · intro C h f m; exact hS.serializable.primitive C h f (hm.1 m)
  · rw [hp.length_eq]; exact hS.serializable.few
  · intro C h o n f v m l e1 e2 e3
    obtain ⟨C', h', m', l'⟩ := hS.closed.objects C h o n f v (hm.1 m) l e1 e2 e3
    exact ⟨C', h', hm.2 m', l'⟩
  · intro C h o n f v m l e1 e2 e3
    obtain ⟨C', m'⟩ := hS.closed.contracts C h o n f v (hm.1 m) l e1 e2 e3
    exact ⟨C', hm.2 m'⟩
  · intro e he; exact hS.notNull e (hp.mem_iff.1 he)
  · intro C k he; exact hS.noChannels C k (hp.mem_iff.1 he)
  · unfold savedTables
    rw [show objectCount b cs' = objectCount b cs from perm_sum (hp.map _),
      show stateCount b cs' = stateCount b cs from perm_sum (hp.map _), hp.length_eq]
    exact hS.size

theorem same_perm {b b' : Baseline} {cs cs1 cs' : List (ContractTy × Idx)} {φ ψ : Idx → Idx}
    (h : SameContents b cs1 b' cs' φ ψ) (hp : cs1.Perm cs) : SameContents b cs b' cs' φ ψ := by
  have hm : ∀ {C : ContractTy} {h : Idx}, (C, h) ∈ cs1 ↔ (C, h) ∈ cs := hp.mem_iff
  refine ⟨?_, ?_, ?_, ?_, ?_, ?_, ?_, ?_⟩
  · intro C h'; rw [h.instances]; simp only [hm]
  · intro C1 C2 h1 h2 m1 m2; exact h.conInj C1 C2 h1 h2 (hm.2 m1) (hm.2 m2)
  · intro h' cd' e
    obtain ⟨C, k, m, e⟩ := h.conOnto h' cd' e
    exact ⟨C, k, hm.1 m, e⟩
  · intro C k m; exact h.contract C k (hm.2 m)
  · intro C1 C2 h1 h2 o1 o2 m1 m2; exact h.objInj C1 C2 h1 h2 o1 o2 (hm.2 m1) (hm.2 m2)
  · intro o' ob' e
    obtain ⟨C, k, o, m, e⟩ := h.objOnto o' ob' e
    exact ⟨C, k, o, hm.1 m, e⟩
  · intro C k o m; exact h.object C k o (hm.2 m)
  · intro C k o n f m; exact h.values C k o n f (hm.2 m)

/-- What has the same contents as something that can be saved can be saved, if it is typed. -/
theorem savable_same {kind kind' : Kind} {evs evs' : List Event} {b b' : Baseline} {cs cs' : List (ContractTy × Idx)}
    {φ ψ : Idx → Idx} (hS : Savable kind evs b cs) (hE : SameContents b cs b' cs' φ ψ) (hH : History kind' evs' b')
    (hnd : (cs'.map Prod.snd).Nodup) (hty : (cs'.map Prod.fst).Perm (cs.map Prod.fst))
    (ht : ∀ (C C' : ContractTy) (k o : Idx), (C, k) ∈ cs' → CreatedAs evs' C' k o → C' = C) :
    Savable kind' evs' b' cs' := by
  have hlen : cs'.length = cs.length := by simpa using hty.length_eq
  -- the instance lists correspond
  have hperm : (cs.map fun e => (e.1, ψ e.2)).Perm cs' := by
    refine (List.perm_ext_iff_of_nodup ?_ ?_).2 ?_
    · refine nodup_of_getElem? fun n n' x h1 h2 => ?_
      rw [List.getElem?_map, Option.map_eq_some_iff] at h1 h2
      obtain ⟨⟨C, k⟩, a1, a2⟩ := h1
      obtain ⟨⟨C', k'⟩, c1, c2⟩ := h2
      rw [← c2] at a2
      injection a2 with a2 a3
      have := hE.conInj _ _ _ _ (List.mem_of_getElem? a1) (List.mem_of_getElem? c1) a3
      subst this
      exact snd_inj hS.different a1 c1
    · exact nodup_of_getElem? fun n n' x h1 h2 => by
        obtain ⟨C, k⟩ := x
        exact snd_inj hnd h1 h2
    · rintro ⟨C, k'⟩
      rw [hE.instances, List.mem_map]
      constructor
      · rintro ⟨⟨C0, k⟩, m, e⟩
        injection e with e1 e2; subst e1 e2
        exact ⟨k, m, rfl⟩
      · rintro ⟨k, m, rfl⟩; exact ⟨_, m, rfl⟩
  have hobjs : ∀ (C : ContractTy) (k : Idx), (C, k) ∈ cs → (objectsOf b' (ψ k)).length = (objectsOf b k).length := by
    intro C k m
    have := eq_of_map_perm (objectsOf_nodup hS.history k) (objectsOf_nodup hH (ψ k)) φ
      (fun x hx y hy e => hE.objInj C C k k x y m m hx hy e) (fun y => same_objs hE m y)
    rw [← this.length_eq, List.length_map]
  have hback : ∀ (C : ContractTy) (k' : Idx), (C, k') ∈ cs' → ∃ k, (C, k) ∈ cs ∧ ψ k = k' :=
    fun C k' m => (hE.instances C k').1 m
  refine ⟨hH, ⟨?_, ht, ?_, ?_, ?_⟩, ⟨?_, ?_⟩, hnd, ?_, ?_, ?_⟩
  · intro C k' m
    obtain ⟨k, mk, rfl⟩ := hback C k' m
    obtain ⟨cd, cd', e1, e2, e3, _⟩ := hE.contract C k mk
    obtain ⟨cd1, f1, f2⟩ := hS.serializable.registered C k mk
    rw [e1] at f1; injection f1 with f1; subst f1
    exact ⟨cd', e2, e3.trans f2⟩
  · intro C k' o' m l
    obtain ⟨k, mk, rfl⟩ := hback C k' m
    obtain ⟨o, lo, rfl⟩ := (same_objs hE mk o').1 l
    obtain ⟨ob, e, _⟩ := hE.object C k o mk lo
    exact ⟨ob, e⟩
  · intro C k' f m hf
    obtain ⟨k, mk, rfl⟩ := hback C k' m
    exact hS.serializable.primitive C k f mk hf
  · rw [hlen]; exact hS.serializable.few
  · intro C k' o' n f v' m l hf hty' hv
    obtain ⟨k, mk, rfl⟩ := hback C k' m
    obtain ⟨o, lo, rfl⟩ := (same_objs hE mk o').1 l
    obtain ⟨v, w, a1, a2, a3⟩ := hE.values C k o n f mk lo hf
    rcases f with ⟨fn, ft⟩
    simp only at hty' a1 a2 a3
    subst hty'
    have := holds_fun a2 hv
    subst this
    obtain ⟨C', k2, m2, l2⟩ := hS.closed.objects C k o n _ v mk lo hf rfl a1
    have e : w = φ v := by
      have a3 : DynProp.primitive _ = DynProp.primitive _ := a3
      injection a3 with a3; injection a3
    rw [e]
    exact ⟨C', ψ k2, same_inst hE m2, (same_objs hE m2 _).2 ⟨v, l2, rfl⟩⟩
  · intro C k' o' n f v' m l hf hty' hv
    obtain ⟨k, mk, rfl⟩ := hback C k' m
    obtain ⟨o, lo, rfl⟩ := (same_objs hE mk o').1 l
    obtain ⟨v, w, a1, a2, a3⟩ := hE.values C k o n f mk lo hf
    rcases f with ⟨fn, ft⟩
    simp only at hty' a1 a2 a3
    subst hty'
    have := holds_fun a2 hv
    subst this
    obtain ⟨C', m2⟩ := hS.closed.contracts C k o n _ v mk lo hf rfl a1
    have e : w = ψ v := by
      have a3 : DynProp.primitive _ = DynProp.primitive _ := a3
      injection a3 with a3; injection a3
    rw [e]
    exact ⟨C', same_inst hE m2⟩
  · rintro ⟨C, k'⟩ m
    obtain ⟨k, mk, rfl⟩ := hback C k' m
    exact hS.notNull (C, k) mk
  · intro C k' m hne
    obtain ⟨k, mk, rfl⟩ := hback C k' m
    have h0 := hS.noChannels C k mk hne
    refine List.eq_nil_iff_forall_not_mem.2 fun o' ho' => ?_
    obtain ⟨o, ho, _⟩ := (same_objs hE mk o').1 ho'
    rw [h0] at ho; simp at ho
  · have hO : objectCount b' cs' = objectCount b cs := by
      unfold objectCount
      rw [← perm_sum (hperm.map _), List.map_map]
      congr 1
      refine List.map_congr_left ?_
      rintro ⟨C, k⟩ m
      exact hobjs C k m
    have hT : stateCount b' cs' = stateCount b cs := by
      unfold stateCount
      rw [← perm_sum (hperm.map _), List.map_map]
      congr 1
      refine List.map_congr_left ?_
      rintro ⟨C, k⟩ m
      simp only [Function.comp]
      rw [hobjs C k m]
    unfold savedTables; rw [hO, hT, hlen]; exact hS.size

/-- **C78.** Saving and restoring contracts that can be saved succeeds, whatever the choices, and the restored contracts,
which have the same contents, can be saved again: the restored baseline has a history of public calls with which it meets
every condition the original met. -/
theorem C78_savable_again {kind : Kind} {evs : List Event} {b : Baseline} {cs : List (ContractTy × Idx)}
    (hS : Savable kind evs b cs) (c : Cycle) (hc : c.Fits cs) :
    ∃ (cs' : List (ContractTy × Idx)) (b' : Baseline) (φ ψ : Idx → Idx) (evs' : List Event),
      c.run b = .ok (cs', b') ∧ SameContents b cs b' cs' φ ψ ∧ Savable c.kind evs' b' cs' := by
  obtain ⟨hp, hty⟩ := hc
  have hS1 := savable_perm hS hp
  have hsz := hS1.size
  unfold savedTables at hsz
  obtain ⟨s, out, buf, r1, r2, r3, r4⟩ := C48_round_trip hS1.history hS1.serializable hS1.closed hS1.different
    hS1.notNull hS1.noChannels (by omega) (by omega) c.calls rfl c.ordC c.ordO
  obtain ⟨cs', b', φ, ψ, e1, e2⟩ := r4 hS1.size c.types (hty.trans (hp.map _).symm) c.kind c.sched c.ord c.hord
  have hids : (c.types.map ContractTy.id).Nodup := by
    refine (hty.map ContractTy.id).nodup_iff.2 ?_
    rw [List.map_map]; exact ids_nodup hS.serializable.storable hS.history hS.different
  obtain ⟨hnd, evs', hH, ht⟩ := restore_typed e1 hids
  have hE := same_perm e2 hp
  refine ⟨cs', b', φ, ψ, evs', ?_, hE, savable_same hS hE hH hnd ?_ ht⟩
  · unfold Cycle.run; rw [r1]; simp only; rw [r2]; simp only; rw [r3]; exact e1
  · rw [(restore_inv e1).1]; exact hty

/-- **C78.** After any number of cycles, each with any choices, the next cycle succeeds too, and what it gives still has
the contents of the original. -/
theorem C78_forever {kind : Kind} {evs : List Event} {b : Baseline} {cs : List (ContractTy × Idx)}
    (hS : Savable kind evs b cs) {b' : Baseline} {cs' : List (ContractTy × Idx)} (hch : Chain b cs b' cs') (c : Cycle)
    (hc : c.Fits cs') : ∃ (cs'' : List (ContractTy × Idx)) (b'' : Baseline) (φ ψ : Idx → Idx),
      c.run b' = .ok (cs'', b'') ∧ SameContents b cs b'' cs'' φ ψ := by
  have key : ∃ (kind' : Kind) (evs' : List Event), Savable kind' evs' b' cs' ∧
      ((b' = b ∧ cs' = cs) ∨ ∃ φ ψ : Idx → Idx, SameContents b cs b' cs' φ ψ) := by
    clear hc
    induction hch with
    | start => exact ⟨kind, evs, hS, .inl ⟨rfl, rfl⟩⟩
    | next b1 cs1 c1 b2 cs2 _ hf hr ih =>
      obtain ⟨kind', evs', h1, h2⟩ := ih
      obtain ⟨cs3, b3, φ, ψ, evs3, e1, e2, e3⟩ := C78_savable_again h1 c1 hf
      rw [hr] at e1
      injection e1 with e1; injection e1 with f1 f2; subst f1 f2
      refine ⟨_, evs3, e3, .inr ?_⟩
      rcases h2 with ⟨rfl, rfl⟩ | ⟨φ1, ψ1, h2⟩
      · exact ⟨φ, ψ, e2⟩
      · exact ⟨_, _, same_trans h2 e2⟩
  obtain ⟨kind', evs', h1, h2⟩ := key
  obtain ⟨cs3, b3, φ, ψ, evs3, e1, e2, e3⟩ := C78_savable_again h1 c hc
  rcases h2 with ⟨rfl, rfl⟩ | ⟨φ1, ψ1, h2⟩
  · exact ⟨cs3, b3, φ, ψ, e1, e2⟩
  · exact ⟨cs3, b3, _, _, e1, same_trans h2 e2⟩

/-! ## The hypotheses of C78 are met by the graph of C48, through chains of any length -/

theorem graph_savable : Savable .main graphEvs graphB graphCs :=
  ⟨graph_history, graph_serializable, graph_closed, by decide, by decide, .of_none (by decide), by decide +kernel⟩

/-- A cycle for the contracts `cs`, types registered in the reverse order. -/
def demoCycle (cs : List (ContractTy × Idx)) : Cycle :=
  ⟨cs.map fun e => (e.1, e.2, ⟨id, fun _ => List.Perm.refl _⟩), ⟨id, fun _ => List.Perm.refl _⟩, ⟨id, fun _ => List.Perm.refl _⟩,
    (cs.map Prod.fst).reverse, .fork, ⟨List.reverse, fun l => List.reverse_perm l⟩, ⟨id, fun _ => List.Perm.refl _⟩,
    ⟨id, fun _ => List.Perm.refl _⟩⟩

theorem demoCycle_fits (cs : List (ContractTy × Idx)) : (demoCycle cs).Fits cs := by
  refine ⟨?_, List.reverse_perm _⟩
  show ((cs.map fun e => _).map _).Perm cs
  rw [List.map_map]
  have : ((fun e : ContractTy × Idx × HashOrder => (e.1, e.2.1)) ∘
      fun e : ContractTy × Idx => (e.1, e.2, (⟨id, fun _ => List.Perm.refl _⟩ : HashOrder))) = id := by
    funext e; rfl
  rw [this, List.map_id]

/-- There are chains of every length. -/
example (n : Nat) : ∃ (steps : Nat → Baseline × List (ContractTy × Idx)), steps 0 = (graphB, graphCs) ∧
    ∀ i < n, (demoCycle (steps i).2).run (steps i).1 = .ok ((steps (i + 1)).2, (steps (i + 1)).1) ∧
      ∃ φ ψ, SameContents graphB graphCs (steps (i + 1)).1 (steps (i + 1)).2 φ ψ := by
  suffices h : ∃ (steps : Nat → Baseline × List (ContractTy × Idx)), steps 0 = (graphB, graphCs) ∧
      Chain graphB graphCs (steps n).1 (steps n).2 ∧
      ∀ i < n, (demoCycle (steps i).2).run (steps i).1 = .ok ((steps (i + 1)).2, (steps (i + 1)).1) ∧
        ∃ φ ψ, SameContents graphB graphCs (steps (i + 1)).1 (steps (i + 1)).2 φ ψ by
    obtain ⟨steps, h0, _, h⟩ := h
    exact ⟨steps, h0, h⟩
  induction n with
  | zero => exact ⟨fun _ => (graphB, graphCs), rfl, .start, by simp⟩
  | succ n ih =>
    obtain ⟨steps, h0, hc, h⟩ := ih
    obtain ⟨cs'', b'', φ, ψ, e1, e2⟩ := C78_forever graph_savable hc _ (demoCycle_fits _)
    refine ⟨fun i => if i = n + 1 then (b'', cs'') else steps i, ?_, ?_, ?_⟩
    · simpa using h0
    · simp only [if_true]
      exact .next _ _ _ _ _ hc (demoCycle_fits _) e1
    · intro i hi
      by_cases hin : i = n
      · subst hin
        simp only [if_neg (show ¬ i = i + 1 by omega), if_true]
        exact ⟨e1, φ, ψ, e2⟩
      · simp only [if_neg (show ¬ i = n + 1 by omega), if_neg (show ¬ i + 1 = n + 1 by omega)]
        exact h i (by omega)

end Verif.Props
