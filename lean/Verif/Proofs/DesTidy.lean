import Verif.Proofs.DesResult
import Verif.Proofs.BaselineInv
import Verif.Proofs.Packed
/-!
# What the deserializer's calls to the baseline preserve

Between `new` and `finish` the deserializer only registers contracts and creates objects without channels.
-/
namespace Verif
open Arena Baseline Store

section
variable {P : Baseline → Prop} {Al : ContractTy → Idx → Prop}
  (hreg : ∀ (b : Baseline) (C : ContractTy), P b → P (b.registerContract C).1)
  (hcre : ∀ (b : Baseline) (C : ContractTy) (h : Idx) (ss : List DynProp), Al C h → P b → P (b.objectCreate C h ss []).1)
include hcre

theorem base_restore {d : Des} (h : P d.b.base)
    (C : ContractTy) (hh : Idx) (hP : Al C hh) (p : Nat) (obj : FbObject) : P (d.deserializeObj C hh p obj).1.b.base := by
  have key : ∀ (o : Idx) (ns : List (PropId × Nat)) (d : Des), (Des.trackNulls o ns d).1.b = d.b := by
    intro o ns
    induction ns with
    | nil => intro d; rfl
    | cons e ns ih =>
      intro d
      obtain ⟨id, i⟩ := e
      unfold Des.trackNulls
      split
      · rfl
      · rfl
      · split
        · rfl
        · rw [ih]
  rw [deserializeObj_unf]
  generalize obj.idxs = is
  have hg := Des.restoreProps_grow ((C.stateIds hh).zip is) d
  obtain ⟨refs, hd1⟩ := hg.same
  cases hrp : d.restoreProps ((C.stateIds hh).zip is) with
  | mk d1 r =>
    rw [hrp] at hd1
    simp only at hd1
    have hb : d1.b = d.b := by rw [hd1]
    cases r with
    | err m => show P d1.b.base; rw [hb]; exact h
    | panic m => show P d1.b.base; rw [hb]; exact h
    | ok pn =>
      obtain ⟨props, nulls⟩ := pn
      simp only []
      rw [hb]
      have hc := hcre _ C hh props hP h
      cases hoc : d.b.base.objectCreate C hh props [] with
      | mk b1 r =>
        rw [hoc] at hc
        cases r with
        | err m => exact hc
        | panic m => exact hc
        | ok o =>
          simp only at hc ⊢
          have hk := key o nulls { d1 with b := { d.b with base := b1 } }
          split
          · rename_i e; rw [e] at hk; simp only at hk ⊢; rw [hk]; exact hc
          · rename_i e; rw [e] at hk; simp only at hk ⊢; rw [hk]; exact hc
          · rename_i e; rw [e] at hk; simp only at hk ⊢
            split <;> (simp only [hk]; exact hc)

theorem base_loop (C : ContractTy) (hh : Idx) (hP : Al C hh) (k : Nat)
    (ps : List Nat) {d : Des} (h : P d.b.base) : P (Des.objectLoop C hh k ps d).1.b.base := by
  induction ps generalizing d with
  | nil => exact h
  | cons p ps ih =>
    unfold Des.objectLoop
    split
    · exact h
    · exact h
    · rename_i obj _
      have := base_restore hcre h C hh hP p obj
      split
      · rename_i e; rw [e] at this; exact this
      · rename_i e; rw [e] at this; exact this
      · rename_i e; rw [e] at this; exact ih this

theorem base_desObjects {d : Des} (h : P d.b.base) (C : ContractTy) (hh : Idx) (hP : Al C hh) :
    P (d.deserializeObjects C hh).1.b.base := by
  unfold Des.deserializeObjects
  split
  · exact h
  · split
    · exact h
    · exact base_loop hcre _ _ hP _ _ h

include hreg

theorem base_builder {buf : FbBaseline} {kind : Kind} {regs : List (ContractTy × Outcome Idx)} {bd : Builder}
    (h0 : P (Baseline.new kind)) (hn : ∀ h : Idx, Al nullContractTy h) (h : BuilderRun buf kind regs bd) : P bd.base := by
  induction h with
  | new bd hb =>
    unfold Builder.new at hb
    split at hb
    · cases hb
    have h1 := hreg _ nullContractTy h0
    rcases hr : (Baseline.new kind).registerContract nullContractTy with ⟨b1, r⟩
    rw [hr] at hb h1
    cases r with
    | err m => simp at hb
    | panic m => simp at hb
    | ok k =>
      simp only at hb h1
      have h2 := hcre _ nullContractTy k [] (hn k) h1
      rcases hc : b1.objectCreate nullContractTy k [] [] with ⟨b2, r2⟩
      rw [hc] at hb h2
      cases r2 with
      | err m => simp at hb
      | panic m => simp at hb
      | ok o => simp at hb; subst hb; exact h2
  | register regs bd C _ _ ih =>
    have h1 := hreg _ C ih
    unfold Builder.registerContract
    split
    · exact ih
    · exact ih
    · split
      · rename_i e; rw [e] at h1; exact h1
      · rename_i e; rw [e] at h1; exact h1
      · rename_i e; rw [e] at h1
        simp only []
        split <;> exact h1

/-- Whatever a new baseline has and registering contracts and creating objects keep, the baseline under construction has. -/
theorem base_run {buf : FbBaseline} {kind : Kind} {regs : List (ContractTy × Outcome Idx)}
    {calls : List ((ContractTy × Idx) × Outcome Unit)} {d : Des}
    (h0 : P (Baseline.new kind)) (hn : ∀ h : Idx, Al nullContractTy h)
    (hd : DesRun buf kind regs calls d) (hal : ∀ (C : ContractTy) (h : Idx) (r : Outcome Unit), ((C, h), r) ∈ calls → Al C h) :
    P d.b.base := by
  induction hd with
  | new bd hb => exact base_builder hreg hcre h0 hn hb
  | objects calls d C h _ _ ih =>
    exact base_desObjects hcre (ih fun C' h' r hm => hal C' h' r (List.mem_append_left _ hm)) C h
      (hal C h _ (List.mem_append_right _ (List.mem_singleton.2 rfl)))

end

/-! ## Ownership of states -/

/-- Every live state is a field of the right type of a live object whose contract type is allowed; no channel is live. -/
structure Tidy (Al : ContractTy → Idx → Prop) (b : Baseline) : Prop where
  oInv : Arena.Inv b.objects
  cInv : Arena.Inv b.contracts
  sInv : b.states.Inv
  owned : ∀ (t : PropType) (j : Idx) (v : t.Carrier), b.states.get t j = some v → ∃ (C : ContractTy) (o : Idx) (ob : ObjectD) (n : Nat),
    Al C ob.contract ∧ b.objects.get o = some ob ∧ ob.states[n]? = some j ∧ C.stateTypes[n]? = some t
  noChan : ∀ (t : PropType) (j : Idx), b.channels.get t j = none

theorem tidy_new (Al : ContractTy → Idx → Prop) (kind : Kind) : Tidy Al (Baseline.new kind) := by
  have hb := new_binv kind
  refine ⟨hb.o.inv, hb.c.inv, hb.o.sInv, ?_, ?_⟩
  · intro t j v h
    have : (Baseline.new kind).states.get t j = none := by rfl
    rw [this] at h; cases h
  · intro t j; rfl

theorem tidy_register {Al : ContractTy → Idx → Prop} (b : Baseline) (C : ContractTy) (h : Tidy Al b) :
    Tidy Al (b.registerContract C).1 := by
  unfold registerContract
  split
  · exact h
  · exact ⟨h.oInv, insert_inv h.cInv _, h.sInv, h.owned, h.noChan⟩

theorem tidy_create {Al : ContractTy → Idx → Prop} (b : Baseline) (C : ContractTy) (k : Idx) (ss : List DynProp) (hal : Al C k)
    (h : Tidy Al b) : Tidy Al (b.objectCreate C k ss []).1 := by
  rcases objectCreate_cases b C k ss [] with ⟨⟨cd, hc⟩, h1, h2⟩ | ⟨e, _⟩
  · obtain ⟨cons, hm, e⟩ := objectCreate_ok hc h1 h2
    rw [e]
    have hcr := createAll_created h.sInv (ss.map DynProp.typed)
    refine ⟨insert_inv h.oInv _, modify_inv h.cInv hm, hcr.inv, ?_, ?_⟩
    · intro t j v hg
      simp only at hg ⊢
      rcases hcr.only t j with ⟨n, w, hn, hj⟩ | heq
      · refine ⟨C, (b.objects.insert (createdObj b k ss [])).2, createdObj b k ss [], n, hal, get_insert_self h.oInv _, hj, ?_⟩
        rw [← h1, List.getElem?_map]
        rw [List.getElem?_map] at hn
        cases hs : ss[n]? with
        | none => rw [hs] at hn; cases hn
        | some p =>
          rw [hs] at hn
          simp only [Option.map_some, Option.some.injEq] at hn ⊢
          rw [← DynProp.typed_fst, hn]
      · rw [heq] at hg
        obtain ⟨C', o, ob, n, a1, a2, a3, a4⟩ := h.owned t j v hg
        exact ⟨C', o, ob, n, a1, get_insert_of_some h.oInv _ _ a2, a3, a4⟩
    · intro t j; exact h.noChan t j
  · rw [e]; exact h

/-- The baseline under construction is tidy. -/
theorem tidy_run {buf : FbBaseline} {kind : Kind} {regs : List (ContractTy × Outcome Idx)}
    {calls : List ((ContractTy × Idx) × Outcome Unit)} {d : Des} (hd : DesRun buf kind regs calls d) :
    Tidy (fun C h => C = nullContractTy ∨ ∃ r, ((C, h), r) ∈ calls) d.b.base :=
  base_run tidy_register tidy_create (tidy_new _ _) (fun _ => .inl rfl) hd fun _ _ r hm => .inr ⟨r, hm⟩

/-- And so is the finished one, without the contract of the null object. -/
theorem tidy_finished {buf : FbBaseline} {kind : Kind} {regs : List (ContractTy × Outcome Idx)}
    {calls : List ((ContractTy × Idx) × Outcome Unit)} {d : Des} {done : List DoneObj} {b' : Baseline}
    (hd : DesRun buf kind regs calls d) (hI : DInv d done) (hF : Finished d done b') :
    (∀ (t : PropType) (j : Idx) (v : t.Carrier), b'.states.get t j = some v →
      ∃ (C : ContractTy) (o : Idx) (ob : ObjectD) (n : Nat) (r : Outcome Unit), ((C, ob.contract), r) ∈ calls ∧
        b'.objects.get o = some ob ∧ ob.states[n]? = some j ∧ C.stateTypes[n]? = some t) ∧
    ∀ (t : PropType) (j : Idx), b'.channels.get t j = none := by
  have hT := tidy_run hd
  refine ⟨fun t j v hg => ?_, fun t j => by rw [hF.channels]; exact hT.noChan t j⟩
  obtain ⟨w, hw⟩ : ∃ w, d.b.base.states.get t j = some w := by
    by_cases hp : t = objT ∧ ∃ i : Nat, (i, j) ∈ d.states.pairs
    · obtain ⟨rfl, i, hi⟩ := hp
      exact ⟨_, (hI.states i j hi).2⟩
    · refine ⟨v, ?_⟩
      rw [← hF.other t j fun ht i hi => hp ⟨ht, i, hi⟩]; exact hg
  obtain ⟨C, o, ob, n, a1, a2, a3, a4⟩ := hT.owned t j w hw
  have hne : o ≠ d.b.nullObj := by
    rintro rfl
    rw [hI.nullObj] at a2; injection a2 with a2; subst a2; simp at a3
  rcases a1 with rfl | ⟨r, hr⟩
  · simp [nullContractTy, ContractTy.stateTypes] at a4
  · exact ⟨C, o, ob, n, r, hr, by rw [hF.objects, if_neg hne, a2], a3, a4⟩

/-! ## Handles -/

/-- The handles the successful registrations returned, in order. -/
def okHandles (regs : List (ContractTy × Outcome Idx)) : List Idx :=
  regs.filterMap fun e => match e.2 with | .ok h => some h | _ => none

/-- Contracts are numbered from 1 in the order of registration; number 0 is the internal one. -/
theorem builder_numbered {buf : FbBaseline} {kind : Kind} {regs : List (ContractTy × Outcome Idx)} {bd : Builder}
    (h : BuilderRun buf kind regs bd) : bd.nullContract = ⟨0, 0⟩ ∧ bd.nullObj = ⟨0, 0⟩ ∧
      Packed bd.base.contracts ((okHandles regs).length + 1) ∧ Packed bd.base.objects 1 ∧
      ∀ (i : Nat) (k : Idx), (okHandles regs)[i]? = some k → k = ⟨i + 1, 0⟩ := by
  induction h with
  | new bd hb =>
    unfold Builder.new at hb
    split at hb
    · cases hb
    obtain ⟨p1, p2⟩ := packed_insert (packed_new (α := ContractData)) ⟨nullContractTy.id, []⟩
    rcases registerContract_cases (Baseline.new kind) nullContractTy with ⟨⟨h, cd, h1, _⟩, _⟩ | ⟨_, hr⟩
    · have h1 : (Arena.new : Arena ContractData).get h = some cd := h1
      rw [get_new] at h1; cases h1
    rw [hr] at hb
    simp only at hb
    have hself := get_insert_self (Arena.new_inv (α := ContractData)) ⟨nullContractTy.id, []⟩
    obtain ⟨cons, hm, e⟩ := objectCreate_ok
      (b := { Baseline.new kind with contracts := ((Baseline.new kind).contracts.insert ⟨nullContractTy.id, []⟩).1 })
      (C := nullContractTy) (ss := []) (cs := []) hself rfl rfl
    have e' : (Baseline.objectCreate { Baseline.new kind with contracts := ((Baseline.new kind).contracts.insert ⟨nullContractTy.id, []⟩).1 }
      nullContractTy ((Baseline.new kind).contracts.insert ⟨nullContractTy.id, []⟩).2 [] []) = _ := e
    rw [e'] at hb
    simp only at hb
    injection hb with hb
    obtain ⟨q1, q2⟩ := packed_insert (packed_new (α := ObjectD)) (createdObj { Baseline.new kind with contracts := ((Baseline.new kind).contracts.insert ⟨nullContractTy.id, []⟩).1 }
      ((Baseline.new kind).contracts.insert ⟨nullContractTy.id, []⟩).2 [] [])
    subst hb
    exact ⟨p1, q1, packed_modify p2 hm, q2, by intro i k hk; simp [okHandles] at hk⟩
  | register regs bd C _ hp ih =>
    obtain ⟨n1, n2, n3, n4, n5⟩ := ih
    have miss : ∀ r : Outcome Idx, r.isOk = false → okHandles (regs ++ [(C, r)]) = okHandles regs := by
      intro r hr
      unfold okHandles
      rw [List.filterMap_append]
      cases r <;> simp_all [Outcome.isOk]
    unfold Builder.registerContract at hp ⊢
    cases hf : findSerialized C bd.buf with
    | err m => simp only [hf]; rw [miss _ rfl]; exact ⟨n1, n2, n3, n4, n5⟩
    | panic m => simp only [hf]; rw [miss _ rfl]; exact ⟨n1, n2, n3, n4, n5⟩
    | ok k =>
      simp only [hf] at hp ⊢
      rcases registerContract_cases bd.base C with ⟨_, hr⟩ | ⟨_, hr⟩
      · obtain ⟨m, hr⟩ : ∃ m, bd.base.registerContract C = (bd.base, .err m) := ⟨_, hr⟩
        rw [hr]; simp only
        rw [miss _ rfl]; exact ⟨n1, n2, n3, n4, n5⟩
      · obtain ⟨p1, p2⟩ := packed_insert n3 ⟨C.id, []⟩
        rw [hr] at hp ⊢
        simp only at hp ⊢
        by_cases hcl : bd.contracts.clashes k (bd.base.contracts.insert ⟨C.id, []⟩).2 = true
        · rw [if_pos hcl] at hp; cases hp
        · rw [if_neg hcl]
          have hok : okHandles (regs ++ [(C, Outcome.ok (bd.base.contracts.insert ⟨C.id, []⟩).2)]) =
              okHandles regs ++ [⟨(okHandles regs).length + 1, 0⟩] := by
            unfold okHandles at p1 ⊢
            rw [List.filterMap_append, ← p1]; rfl
          simp only
          rw [hok]
          refine ⟨n1, n2, by simpa using p2, n4, fun i k' hk => ?_⟩
          rw [List.getElem?_append] at hk
          split at hk
          · exact n5 i k' hk
          · rename_i hlt
            cases hi : i - (okHandles regs).length with
            | zero =>
              rw [hi] at hk; simp at hk; rw [← hk]
              have : i = (okHandles regs).length := by omega
              rw [this]
            | succ m => rw [hi] at hk; simp at hk

/-- What a deserializer keeps of its builder. -/
theorem run_from_builder {buf : FbBaseline} {kind : Kind} {regs : List (ContractTy × Outcome Idx)}
    {calls : List ((ContractTy × Idx) × Outcome Unit)} {d : Des} (hd : DesRun buf kind regs calls d) :
    d.b.nullContract = ⟨0, 0⟩ ∧ d.b.nullObj = ⟨0, 0⟩ ∧ Packed d.b.base.contracts ((okHandles regs).length + 1) ∧
      (∃ n, Packed d.b.base.objects (n + 1)) ∧ ∀ (i : Nat) (k : Idx), (okHandles regs)[i]? = some k → k = ⟨i + 1, 0⟩ := by
  have hcre : ∀ (m : Nat) (b : Baseline) (C : ContractTy) (h : Idx) (ss : List DynProp), True →
      (Packed b.contracts m ∧ ∃ n, Packed b.objects (n + 1)) →
      (Packed (b.objectCreate C h ss []).1.contracts m ∧ ∃ n, Packed (b.objectCreate C h ss []).1.objects (n + 1)) := by
    rintro m b C h ss _ ⟨h1, n, h2⟩
    rcases objectCreate_cases b C h ss [] with ⟨⟨cd, hc⟩, t1, t2⟩ | ⟨e, _⟩
    · obtain ⟨cons, hm, e⟩ := objectCreate_ok hc t1 t2
      rw [e]
      exact ⟨packed_modify h1 hm, n + 1, (packed_insert h2 _).2⟩
    · rw [e]; exact ⟨h1, n, h2⟩
  induction hd with
  | new bd hb =>
    obtain ⟨a1, a2, a3, a4, a5⟩ := builder_numbered hb
    exact ⟨a1, a2, a3, ⟨0, a4⟩, a5⟩
  | objects calls d C h hd hp ih =>
    obtain ⟨a1, a2, a3, a4, a5⟩ := ih
    obtain ⟨done, hR⟩ := desRun_ok hd
    rcases desObjects_spec hR.inv C h with hpp | ⟨_, _, hs, _⟩
    · rw [hpp] at hp; cases hp
    obtain ⟨b1, b2⟩ := base_desObjects (P := fun b => Packed b.contracts ((okHandles regs).length + 1) ∧ ∃ n, Packed b.objects (n + 1))
      (Al := fun _ _ => True) (hcre _) ⟨a3, a4⟩ C h trivial
    exact ⟨by rw [hs.nullContract]; exact a1, by rw [hs.nullObj]; exact a2, b1, b2, a5⟩

end Verif
