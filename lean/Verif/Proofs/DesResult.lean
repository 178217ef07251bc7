import Verif.Proofs.DesFinish
import Verif.Spec.Buffer
/-! # The deserializer: the result, in terms of the format -/
namespace Verif
open Arena Baseline Store Spec

theorem stateIdxs_eq (obj : FbObject) : stateIdxs obj = obj.idxs := by
  unfold stateIdxs FbObject.idxs; cases obj.states <;> rfl

theorem eqProp_kindPrim {k : FbKind} {t : PropType} : k.eqProp t = true ↔ t = .prim (kindPrim k) := by
  cases k <;> (rcases t with p | p <;> cases p <;> simp [FbKind.eqProp, kindPrim])

theorem tag_valPrim {v : FbVal} {t : PropType} :
    (∃ tag, v.tag = some tag ∧ tag.eqProp t = true) ↔ ∃ p, valPrim v = some p ∧ t = .prim p := by
  cases v <;> (rcases t with p | p <;> cases p <;> simp [FbTag.eqProp, FbVal.tag, valPrim])

theorem namesAgree_iff {as bs : List String} (h : as.length = bs.length) : namesAgree as bs = true ↔ as = bs := by
  induction as generalizing bs with
  | nil => cases bs <;> simp_all [namesAgree]
  | cons a as ih =>
    cases bs with
    | nil => simp at h
    | cons b bs => simp at h; simp [namesAgree, ih h]

theorem typesAgree_iff {ts : List PropType} {ks : List (Option FbKind)} (h : ts.length = ks.length) :
    typesAgree ts ks = true ↔ ∃ kinds : List FbKind, ks = kinds.map some ∧ ts = kinds.map fun k => .prim (kindPrim k) := by
  induction ts generalizing ks with
  | nil =>
    cases ks with
    | nil => simp only [typesAgree, true_iff]; exact ⟨[], rfl, rfl⟩
    | cons k ks => simp at h
  | cons t ts ih =>
    cases ks with
    | nil => simp at h
    | cons k ks =>
      simp at h
      cases k with
      | none =>
        simp only [typesAgree, Bool.false_and, Bool.false_eq_true, false_iff]
        rintro ⟨kinds, e, _⟩
        cases kinds <;> simp at e
      | some k =>
        simp only [typesAgree, Bool.and_eq_true, ih h, eqProp_kindPrim]
        constructor
        · rintro ⟨rfl, kinds, rfl, rfl⟩; exact ⟨k :: kinds, rfl, rfl⟩
        · rintro ⟨kinds, e1, e2⟩
          cases kinds with
          | nil => cases e1
          | cons k' kinds =>
            simp only [List.map_cons, List.cons.injEq, Option.some.injEq] at e1 e2
            obtain ⟨rfl, e1⟩ := e1
            exact ⟨e2.1, kinds, e1, e2.2⟩

theorem matches_iff {C : ContractTy} {c : FbContract} :
    (idMatches C c = true ∧ schemaMatches C c = true) ↔ Describes c C := by
  constructor
  · rintro ⟨h1, h2⟩
    refine ⟨idMatches_id h1, ?_⟩
    unfold schemaMatches at h2
    split at h2
    · cases h2
    · rename_i st hst
      split at h2
      · rename_i names types hn ht
        simp only [Bool.and_eq_true, decide_eq_true_eq] at h2
        obtain ⟨⟨⟨l1, l2⟩, h3⟩, h4⟩ := h2
        have e1 := (namesAgree_iff (by simp [l1])).1 h3
        obtain ⟨kinds, e2, e3⟩ := (typesAgree_iff (by simp [ContractTy.stateTypes, l2])).1 h4
        refine ⟨kinds, ?_, e3⟩
        rw [hst]; cases st; simp only at hn ht
        rw [hn, ht, ← e1, e2]
      · cases h2
  · rintro ⟨h1, kinds, h2, h3⟩
    constructor
    · simp [idMatches, h1]
    · have hl : kinds.length = C.states.length := by
        have := congrArg List.length h3; simpa using this.symm
      have e : typesAgree C.stateTypes (kinds.map some) = true :=
        (typesAgree_iff (by simp [ContractTy.stateTypes, hl])).2 ⟨kinds, rfl, h3⟩
      have e' : namesAgree (C.states.map Field.name) (C.states.map Field.name) = true :=
        (namesAgree_iff rfl).2 rfl
      simp [schemaMatches, h2, e, e', hl]

theorem findSerialized_iff {C : ContractTy} {buf : FbBaseline} {k : Nat} :
    findSerialized C buf = .ok k ↔ ContractNo buf C k := by
  constructor
  · intro h
    obtain ⟨cs, c, a1, a2, a3, a4, a5⟩ := findSerialized_ok h
    exact ⟨cs, c, a1, a2, matches_iff.1 ⟨a3, a4⟩, fun j c' h1 h2 h3 => a5 j c' h1 h2 (matches_iff.2 h3)⟩
  · rintro ⟨cs, c, a1, a2, a3, a4⟩
    cases hf : findSerialized C buf with
    | panic m => exact absurd hf (findSerialized_noPanic _ _ _)
    | err m =>
      exact absurd (matches_iff.2 a3) (findSerialized_err.1 ⟨m, hf⟩ cs c a1 (List.mem_of_getElem? a2))
    | ok k' =>
      obtain ⟨cs', c', b1, b2, b3, b4, b5⟩ := findSerialized_ok hf
      rw [a1] at b1; injection b1 with b1; subst b1
      rcases Nat.lt_trichotomy k k' with h | h | h
      · exact absurd (matches_iff.2 a3) (b5 k c h a2)
      · rw [h]
      · exact absurd (matches_iff.1 ⟨b3, b4⟩) (a4 k' c' h b2)

theorem validObj_wellFormed {C : ContractTy} {k p : Nat} {buf : FbBaseline} {obj : FbObject}
    (h : ValidObj C k buf p obj) : ObjectAt buf p obj ∧ WellFormedObj buf C k obj := by
  refine ⟨h.here, h.contract, ?_, ?_⟩
  · rw [stateIdxs_eq, h.len]; simp [ContractTy.stateTypes]
  · intro n i f h1 h2
    rw [stateIdxs_eq] at h1
    obtain ⟨sts, v, tag, e1, e2, e3, e4⟩ := h.types n i f.ty h1 (by simp [ContractTy.stateTypes, h2])
    obtain ⟨p', e5, e6⟩ := tag_valPrim.1 ⟨tag, e3, e4⟩
    exact ⟨v, p', ⟨sts, e1, e2⟩, e5, e6⟩

theorem NoHidden.inside {buf : FbBaseline} (h : NoHidden buf) (Cs : List ContractTy) : NoHiddenIn buf Cs := by
  intro p i obj sts _ ho hs hi
  have hl := h.range p i obj sts ho hs hi
  have hat : StateAt buf i sts[i] := ⟨sts, hs, List.getElem?_eq_getElem hl⟩
  exact ⟨sts[i], hat, fun g e => h.known i g (e ▸ hat), fun e => h.string i (e ▸ hat)⟩

theorem sane_of_noHidden {buf : FbBaseline} {Cs : List ContractTy} (h : NoHiddenIn buf Cs) {p : Nat} {obj : FbObject}
    (hp : ObjectOf buf Cs p) (ho : ObjectAt buf p obj) : Sane buf obj := by
  intro sts hs i hi
  obtain ⟨v, ⟨sts', e1, e2⟩, e3, e4⟩ := h p i obj sts hp ho hs (by rw [stateIdxs_eq]; exact hi)
  rw [hs] at e1; injection e1 with e1; subst e1
  refine ⟨v, e2, ?_, ?_⟩
  · intro e
    cases v <;> simp [FbVal.tag] at e
    rename_i g
    exact e3 g rfl
  · cases v with
    | fbString s =>
      cases s with
      | none => exact absurd rfl e4
      | some s => rfl
    | _ => rfl

theorem decodeVal_denotes {m : BiMap Nat Idx} {v : FbVal} {prop : DynProp} {obj : Nat → Idx → Prop}
    (hm : m.Inv) (h : Des.decodeVal m v = .ok prop) : Denotes (fun c h => (c, h) ∈ m.pairs) obj v prop := by
  cases v <;> simp only [Des.decodeVal, reduceCtorEq, Outcome.ok.injEq] at h <;> try (subst h; constructor)
  case fbString s =>
    cases s with
    | none => cases h
    | some s => injection h with h; subst h; constructor
  case contractDataHandle c =>
    split at h
    · cases h
    · rename_i hh hg
      injection h with h; subst h
      exact .contract c hh (BiMap.getL_some_mem hg)

theorem denotes_prop {con obj : Nat → Idx → Prop} {v : FbVal} {prop : DynProp} (h : Denotes con obj v prop) :
    (valPrim v).map PropType.prim = some prop.propType := by
  cases h <;> rfl

/-- A restored object in the finished baseline. -/
theorem finished_object {buf : FbBaseline} {kind : Kind} {regs : List (ContractTy × Outcome Idx)}
    {calls : List ((ContractTy × Idx) × Outcome Unit)} {d : Des} {done : List DoneObj} {b' : Baseline}
    (hR : RunOk buf kind regs calls d done) (hF : Finished d done b') {x : DoneObj} (hx : x ∈ done) :
    ∃ (ob : ObjectD) (k : Nat) (obj : FbObject) (C0 : ContractTy), b'.objects.get x.o = some ob ∧ ob.contract = x.h ∧
      ob.channels = [] ∧ ob.warp = TimeWarp.default ∧
      (C0, Outcome.ok x.h) ∈ regs ∧ findSerialized C0 buf = .ok k ∧
      ObjectAt buf x.p obj ∧ WellFormedObj buf x.C k obj ∧ ob.states.length = x.C.states.length ∧
      ∀ (n i : Nat) (f : Field) (j : Idx), x.C.states[n]? = some f → (stateIdxs obj)[n]? = some i →
        ob.states[n]? = some j → ∃ v val, StateAt buf i v ∧ b'.states.get f.ty j = some val ∧
          Denotes (fun c h => ∃ C, (C, Outcome.ok h) ∈ regs ∧ findSerialized C buf = .ok c)
            (fun r o => ∃ y ∈ done, y.p = r ∧ y.o = o) v (DynProp.ofTyped f.ty val) := by
  have hI := hR.inv
  obtain ⟨⟨ob, k, obj, a1, a2, a3, a4, a5, a6, a7, a8⟩, a9⟩ := hI.fields x hx
  rw [hR.bufEq] at a6
  obtain ⟨w1, w2⟩ := validObj_wellFormed a6
  obtain ⟨C0, c1, c2⟩ := (hR.pairs k x.h).1 a5
  refine ⟨ob, k, obj, C0, ?_, a2, a3, a4, c1, c2, w1, w2, by rw [a7]; simp [ContractTy.stateTypes], ?_⟩
  · rw [hF.objects, if_neg (hI.nullNot x hx), a1]
  · intro n i f j h1 h2 h3
    rw [stateIdxs_eq] at h2
    obtain ⟨sts, v, val, e1, e2, e3, e4⟩ := a8 n i f.ty j (by simp [ContractTy.stateTypes, h1]) h2 h3
    rw [hR.bufEq] at e1
    generalize hft : f.ty = t at *
    rcases e4 with ⟨r, rfl, rfl, b3⟩ | ⟨b1, b2⟩
    · obtain ⟨y, hy, g1, g2⟩ := hF.refs i j b3
      obtain ⟨⟨sts', r', g3, g4, g5⟩, _⟩ := hI.states i j b3
      rw [hR.bufEq, e1] at g3; injection g3 with g3; subst g3
      rw [e2] at g4; injection g4 with g4; injection g4 with g4; subst g4
      rw [g1] at g5; injection g5 with g5
      exact ⟨_, y.o, ⟨sts, e1, e2⟩, g2, .object r y.o ⟨y, hy, g5, rfl⟩⟩
    · have hd := decodeVal_denotes (obj := fun r o => ∃ y ∈ done, y.p = r ∧ y.o = o) hI.cmap b2
      have hd' : Denotes (fun c h => ∃ C, (C, Outcome.ok h) ∈ regs ∧ findSerialized C buf = .ok c)
          (fun r o => ∃ y ∈ done, y.p = r ∧ y.o = o) v (DynProp.ofTyped t val) := by
        have : (fun c h => (c, h) ∈ d.b.contracts.pairs) =
            (fun c h => ∃ C, (C, Outcome.ok h) ∈ regs ∧ findSerialized C buf = .ok c) := by
          funext c h; exact propext (hR.pairs c h)
        rw [← this]; exact hd
      have hne : t ≠ objT := by
        rintro rfl
        have := denotes_prop hd
        rw [DynProp.propType_ofTyped] at this
        cases v <;> simp [valPrim, FbVal.isObj] at this b1
      refine ⟨v, val, ⟨sts, e1, e2⟩, ?_, hd'⟩
      rw [hF.other t j (fun e => absurd e hne), e3]

end Verif
