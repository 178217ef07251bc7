import Verif.Proofs.Builder
/-! # The deserializer: what every run satisfies -/
namespace Verif
open Arena Baseline Store

/-- What a builder satisfies after any registrations. -/
structure BuiltOk (buf : FbBaseline) (kind : Kind) (regs : List (ContractTy × Outcome Idx)) (bd : Builder) :
    Prop where
  inv : DInv (Des.new bd) []
  bufEq : bd.buf = buf
  reach : Reach kind (fun _ k => k = bd.nullContract) bd.base
  pairs : ∀ (k : Nat) (h : Idx), (k, h) ∈ bd.contracts.pairs ↔
    ∃ C, (C, Outcome.ok h) ∈ regs ∧ findSerialized C buf = .ok k
  cons : ∀ (h : Idx) (cd : ContractData), bd.base.contracts.get h = some cd → h ≠ bd.nullContract →
    ∃ C, (C, Outcome.ok h) ∈ regs ∧ cd = ⟨C.id, []⟩
  live : ∀ (C : ContractTy) (h : Idx), (C, Outcome.ok h) ∈ regs →
    bd.base.contracts.get h = some ⟨C.id, []⟩ ∧ ∃ k, findSerialized C buf = .ok k

theorem builderRun_ok {buf : FbBaseline} {kind : Kind} {regs : List (ContractTy × Outcome Idx)} {bd : Builder}
    (h : BuilderRun buf kind regs bd) : BuiltOk buf kind regs bd := by
  induction h with
  | new bd hn =>
    obtain ⟨bd', h1, h2, h3, h4, h5, h6⟩ := builder_new buf (builder_new_small hn) kind
    rw [hn] at h1; injection h1 with h1; subst h1
    refine ⟨h4, h2, h6, ?_, ?_, by simp⟩
    · intro k h; rw [h3]; simp [BiMap.mem_empty]
    · intro h cd hg hne; exact absurd (h5 h cd hg) hne
  | register regs bd C _ _ ih =>
    rcases register_spec ih.inv C with ⟨h1, h2, _⟩ | ⟨k, h, h1, h2, h3, h4, h5, h6⟩
    · rw [h1]
      have hne : ∀ (C' : ContractTy) (h : Idx), (C', Outcome.ok h) ∈ regs ++ [(C, (bd.registerContract C).2)] ↔
          (C', Outcome.ok h) ∈ regs := by
        intro C' h
        rw [List.mem_append, or_iff_left]
        intro e
        simp at e
        rw [← e.2] at h2; cases h2
      refine ⟨ih.inv, ih.bufEq, ih.reach, ?_, ?_, ?_⟩
      · intro k h; rw [ih.pairs]; simp only [hne]
      · intro h cd; simp only [hne]; exact ih.cons h cd
      · intro C' h; rw [hne]; exact ih.live C' h
    · have hfr := insert_fresh ih.inv.kInv (⟨C.id, []⟩ : ContractData)
      replace hfr : bd.base.contracts.get h = none := by rw [h3]; exact hfr
      have hget : ∀ j : Idx, (bd.base.contracts.insert ⟨C.id, []⟩).1.get j =
          if j = h then some ⟨C.id, []⟩ else bd.base.contracts.get j := by
        rw [h3]; exact get_insert ih.inv.kInv (⟨C.id, []⟩ : ContractData)
      have hne : ∀ (C' : ContractTy) (h' : Idx), (C', Outcome.ok h') ∈ regs ++ [(C, Outcome.ok h)] ↔
          (C', Outcome.ok h') ∈ regs ∨ (C' = C ∧ h' = h) := by
        intro C' h'; simp
      rw [ih.bufEq] at h1
      rw [h4] at h6 ⊢
      refine ⟨h6, ih.bufEq, ?_, ?_, ?_, ?_⟩
      · have hr := ih.reach.register C
        rcases registerContract_cases bd.base C with ⟨⟨h', cd, e1, e2⟩, _⟩ | ⟨_, e⟩
        · exact absurd e2 (h2 h' cd e1)
        · rw [e] at hr; exact hr
      · intro k' h'
        show (k', h') ∈ (bd.contracts.insert k h).pairs ↔ _
        rw [BiMap.mem_insert_fresh h5, ih.pairs]
        simp only [hne]
        constructor
        · rintro (⟨rfl, rfl⟩ | ⟨C', e1, e2⟩)
          · exact ⟨C, .inr ⟨rfl, rfl⟩, h1⟩
          · exact ⟨C', .inl e1, e2⟩
        · rintro ⟨C', e1 | ⟨rfl, rfl⟩, e2⟩
          · exact .inr ⟨C', e1, e2⟩
          · rw [h1] at e2; injection e2 with e2; exact .inl ⟨e2.symm, rfl⟩
      · intro h' cd hg hnn
        replace hg : (bd.base.contracts.insert ⟨C.id, []⟩).1.get h' = some cd := hg
        rw [hget] at hg
        simp only [hne]
        split at hg
        · rename_i e; subst e; injection hg with hg; exact ⟨C, .inr ⟨rfl, rfl⟩, hg.symm⟩
        · obtain ⟨C', e1, e2⟩ := ih.cons h' cd hg hnn
          exact ⟨C', .inl e1, e2⟩
      · intro C' h'
        rw [hne]
        show _ → (bd.base.contracts.insert ⟨C.id, []⟩).1.get h' = _ ∧ _
        rw [hget]
        rintro (e | ⟨rfl, rfl⟩)
        · obtain ⟨a1, a2⟩ := ih.live C' h' e
          refine ⟨?_, a2⟩
          rw [if_neg, a1]
          rintro rfl; rw [a1] at hfr; cases hfr
        · rw [if_pos rfl]; exact ⟨rfl, k, h1⟩

/-! ## Calls -/

theorem reach_restore {kind : Kind} {P : ContractTy → Idx → Prop} {d : Des} (h : Reach kind P d.b.base)
    (C : ContractTy) (hh : Idx) (hP : P C hh) (p : Nat) (obj : FbObject) : Reach kind P (d.deserializeObj C hh p obj).1.b.base := by
  have key : ∀ (o : Idx) (ns : List (PropId × Nat)) (d : Des), (Des.trackNulls o ns d).1.b = d.b := by
    intro o ns
    induction ns with
    | nil => intro d; rfl
    | cons e ns ih =>
      intro d
      obtain ⟨id, i⟩ := e
      unfold Des.trackNulls
      split
      · rfl
      · rfl
      · split
        · rfl
        · rw [ih]
  rw [deserializeObj_unf]
  generalize obj.idxs = is
  have hg := Des.restoreProps_grow ((C.stateIds hh).zip is) d
  obtain ⟨refs, hd1⟩ := hg.same
  cases hrp : d.restoreProps ((C.stateIds hh).zip is) with
  | mk d1 r =>
    rw [hrp] at hd1
    simp only at hd1
    have hb : d1.b = d.b := by rw [hd1]
    cases r with
    | err m => show Reach kind P d1.b.base; rw [hb]; exact h
    | panic m => show Reach kind P d1.b.base; rw [hb]; exact h
    | ok pn =>
      obtain ⟨props, nulls⟩ := pn
      simp only []
      rw [hb]
      have hc := h.create C hh props [] hP
      cases hoc : d.b.base.objectCreate C hh props [] with
      | mk b1 r =>
        rw [hoc] at hc
        cases r with
        | err m => exact hc
        | panic m => exact hc
        | ok o =>
          simp only at hc ⊢
          have hk := key o nulls { d1 with b := { d.b with base := b1 } }
          split
          · rename_i e; rw [e] at hk; simp only at hk ⊢; rw [hk]; exact hc
          · rename_i e; rw [e] at hk; simp only at hk ⊢; rw [hk]; exact hc
          · rename_i e; rw [e] at hk; simp only at hk ⊢
            split <;> (simp only [hk]; exact hc)

theorem reach_loop {kind : Kind} {P : ContractTy → Idx → Prop} (C : ContractTy) (hh : Idx) (hP : P C hh) (k : Nat)
    (ps : List Nat) {d : Des} (h : Reach kind P d.b.base) : Reach kind P (Des.objectLoop C hh k ps d).1.b.base := by
  induction ps generalizing d with
  | nil => exact h
  | cons p ps ih =>
    unfold Des.objectLoop
    split
    · exact h
    · exact h
    · rename_i obj _
      have := reach_restore h C hh hP p obj
      split
      · rename_i e; rw [e] at this; exact this
      · rename_i e; rw [e] at this; exact this
      · rename_i e; rw [e] at this; exact ih this

/-- What every run of a deserializer satisfies; `done` are the restored objects. -/
structure RunOk (buf : FbBaseline) (kind : Kind) (regs : List (ContractTy × Outcome Idx))
    (calls : List ((ContractTy × Idx) × Outcome Unit)) (d : Des) (done : List DoneObj) : Prop where
  inv : DInv d done
  bufEq : d.b.buf = buf
  reach : Reach kind (fun C k => k = d.b.nullContract ∨ ∃ r, ((C, k), r) ∈ calls) d.b.base
  pairs : ∀ (k : Nat) (h : Idx), (k, h) ∈ d.b.contracts.pairs ↔
    ∃ C, (C, Outcome.ok h) ∈ regs ∧ findSerialized C buf = .ok k
  cons : ∀ (h : Idx) (cd : ContractData), d.b.base.contracts.get h = some cd → h ≠ d.b.nullContract →
    ∃ C, (C, Outcome.ok h) ∈ regs ∧ cd.id = C.id
  live : ∀ (C : ContractTy) (h : Idx), (C, Outcome.ok h) ∈ regs →
    (∃ cd, d.b.base.contracts.get h = some cd ∧ cd.id = C.id) ∧ ∃ k, findSerialized C buf = .ok k
  called : ∀ x ∈ done, ∃ r, ((x.C, x.h), r) ∈ calls
  all : ∀ (C : ContractTy) (h : Idx) (k p : Nat) (objs : List FbObject) (obj : FbObject) (c : BitVec 16),
    ((C, h), Outcome.ok ()) ∈ calls → (k, h) ∈ d.b.contracts.pairs → buf.objects = some objs →
    objs[p]? = some obj → obj.contract = some c → c.toNat = k → ∃ x ∈ done, x.p = p ∧ x.C = C ∧ x.h = h

theorem desObjects_spec {d : Des} {done : List DoneObj} (hI : DInv d done) (C : ContractTy) (hh : Idx) :
    (d.deserializeObjects C hh).2.isPanic = true ∨
    ∃ new, DInv (d.deserializeObjects C hh).1 (done ++ new) ∧ SameCtx d (d.deserializeObjects C hh).1 ∧
      (∀ x ∈ new, x.C = C ∧ x.h = hh) ∧
      ∀ (k p : Nat) (objs : List FbObject) (obj : FbObject) (c : BitVec 16),
        (d.deserializeObjects C hh).2 = .ok () → (k, hh) ∈ d.b.contracts.pairs → d.b.buf.objects = some objs →
        objs[p]? = some obj → obj.contract = some c → c.toNat = k → ∃ x ∈ new, x.p = p ∧ x.C = C ∧ x.h = hh := by
  unfold Des.deserializeObjects
  cases hk : d.b.contracts.getR hh with
  | none => left; rfl
  | some k =>
    replace hk := BiMap.getR_some_mem hk
    cases ho : d.b.buf.objects with
    | none => right; exact ⟨[], by simpa using hI, SameCtx.refl d, by simp, by simp⟩
    | some objs =>
      simp only
      rcases objectLoop_spec (C := C) (objectsWithContract k objs) d done hI hk with h | ⟨new, a1, a2, a3, a4, a5⟩
      · exact .inl h
      · right
        refine ⟨new, a1, a2, fun x hx => ⟨(a3 x hx).1, (a3 x hx).2.1⟩, ?_⟩
        intro k' p objs' obj c hok hk' hobjs hp hc hck
        injection hobjs with hobjs; subst hobjs
        have e : k' = k := BiMap.pair_right hI.cmap hk' hk
        subst e
        have hm : p ∈ objectsWithContract k' objs := mem_objectsWithContract.2 ⟨obj, c, hp, hc, hck⟩
        rw [← a5 hok] at hm
        obtain ⟨x, hx, e⟩ := List.mem_map.1 hm
        exact ⟨x, hx, e, (a3 x hx).1, (a3 x hx).2.1⟩

theorem reach_desObjects {kind : Kind} {P : ContractTy → Idx → Prop} {d : Des} (h : Reach kind P d.b.base)
    (C : ContractTy) (hh : Idx) (hP : P C hh) : Reach kind P (d.deserializeObjects C hh).1.b.base := by
  unfold Des.deserializeObjects
  split
  · exact h
  · split
    · exact h
    · exact reach_loop _ _ hP _ _ h

/-- One more call. -/
theorem RunOk.step {buf : FbBaseline} {kind : Kind} {regs : List (ContractTy × Outcome Idx)}
    {calls : List ((ContractTy × Idx) × Outcome Unit)} {d d' : Des} {done new : List DoneObj}
    (ih : RunOk buf kind regs calls d done) {C : ContractTy} {h : Idx} {r : Outcome Unit}
    (a1 : DInv d' (done ++ new)) (a2 : SameCtx d d')
    (hre : ∀ P : ContractTy → Idx → Prop, Reach kind P d.b.base → P C h → Reach kind P d'.b.base)
    (a3 : ∀ x ∈ new, x.C = C ∧ x.h = h)
    (a4 : ∀ (k p : Nat) (objs : List FbObject) (obj : FbObject) (c : BitVec 16),
        r = .ok () → (k, h) ∈ d.b.contracts.pairs → d.b.buf.objects = some objs →
        objs[p]? = some obj → obj.contract = some c → c.toNat = k → ∃ x ∈ new, x.p = p ∧ x.C = C ∧ x.h = h) :
    RunOk buf kind regs (calls ++ [((C, h), r)]) d' (done ++ new) := by
  refine ⟨a1, by rw [a2.buf, ih.bufEq], ?_, by rw [a2.contracts]; exact ih.pairs, ?_, ?_, ?_, ?_⟩
  · refine hre _ (ih.reach.mono fun C' k hk => ?_) (.inr ⟨r, List.mem_append_right _ (List.mem_singleton.2 rfl)⟩)
    rcases hk with hk | ⟨r', hk⟩
    · exact .inl (by rw [hk, a2.nullContract])
    · exact .inr ⟨r', List.mem_append_left _ hk⟩
  · intro h' cd hg hne
    obtain ⟨⟨i, hi⟩, b2, b3⟩ := a1.cons h' cd hg hne
    rw [a2.contracts, ih.pairs] at hi
    obtain ⟨C', e1, e2⟩ := hi
    obtain ⟨_, cd', C'', g1, g2, g3⟩ := a1.reg i h' (by rw [a2.contracts, ih.pairs]; exact ⟨C', e1, e2⟩)
    rw [hg] at g1; injection g1 with g1; subst g1
    rw [a2.buf, ih.bufEq] at g3
    exact ⟨C', e1, by rw [g2]; exact findSerialized_inj g3 e2⟩
  · intro C' h' hm
    obtain ⟨_, k, hk⟩ := ih.live C' h' hm
    obtain ⟨_, cd', C'', g1, g2, g3⟩ := a1.reg k h' (by rw [a2.contracts, ih.pairs]; exact ⟨C', hm, hk⟩)
    rw [a2.buf, ih.bufEq] at g3
    exact ⟨⟨cd', g1, by rw [g2]; exact findSerialized_inj g3 hk⟩, k, hk⟩
  · intro x hx
    rcases List.mem_append.1 hx with hx | hx
    · obtain ⟨r, hr⟩ := ih.called x hx; exact ⟨r, by simp [hr]⟩
    · obtain ⟨e1, e2⟩ := a3 x hx; rw [e1, e2]; exact ⟨_, List.mem_append_right _ (List.mem_singleton.2 rfl)⟩
  · intro C' h' k p objs obj c hm hk ho hp' hc hck
    rw [a2.contracts] at hk
    rcases List.mem_append.1 hm with hm | hm
    · obtain ⟨x, hx, e⟩ := ih.all C' h' k p objs obj c hm hk ho hp' hc hck
      exact ⟨x, by simp [hx], e⟩
    · simp only [List.mem_singleton, Prod.mk.injEq] at hm
      obtain ⟨⟨rfl, rfl⟩, hr⟩ := hm
      obtain ⟨x, hx, e⟩ := a4 k p objs obj c hr.symm hk (by rw [ih.bufEq]; exact ho) hp' hc hck
      exact ⟨x, by simp [hx], e⟩

theorem desRun_ok {buf : FbBaseline} {kind : Kind} {regs : List (ContractTy × Outcome Idx)}
    {calls : List ((ContractTy × Idx) × Outcome Unit)} {d : Des} (h : DesRun buf kind regs calls d) :
    ∃ done, RunOk buf kind regs calls d done := by
  induction h with
  | new bd hb =>
    have hb := builderRun_ok hb
    refine ⟨[], hb.inv, hb.bufEq, hb.reach.mono (fun C k hk => .inl hk), hb.pairs, ?_, ?_, by simp, by simp⟩
    · intro h cd hg hne
      obtain ⟨C, e1, e2⟩ := hb.cons h cd hg hne
      exact ⟨C, e1, by rw [e2]⟩
    · intro C h hm
      obtain ⟨e1, e2⟩ := hb.live C h hm
      exact ⟨⟨_, e1, rfl⟩, e2⟩
  | objects calls d C h _ hp ih =>
    obtain ⟨done, ih⟩ := ih
    rcases desObjects_spec ih.inv C h with e | ⟨new, a1, a2, a3, a4⟩
    · rw [e] at hp; cases hp
    · exact ⟨done ++ new, ih.step a1 a2 (fun P hr hP => reach_desObjects hr C h hP) a3 a4⟩

end Verif
