import Verif.Spec.SameFile
import Verif.Props.Determinism
import Verif.Props.Bytes
import Verif.Props.SignedZero
import Verif.Proofs.SerRename
/-!
# C138, C139: the same file, the same contents
-/
namespace Verif.Props
open Verif Verif.Spec Verif.Fb

/-- What was restored from two sources at once relates the sources. -/
theorem same_source {b1 b2 b : Baseline} {cs1 cs2 cs : List (ContractTy × Idx)} {φ1 ψ1 φ2 ψ2 : Idx → Idx} (hcl : Closed b2 cs2)
    (s1 : SameContents b1 cs1 b cs φ1 ψ1) (s2 : SameContents b2 cs2 b cs φ2 ψ2) : ∃ φ ψ : Idx → Idx, SameSaved b1 cs1 b2 cs2 φ ψ := by
  classical
  let LO : Idx → Prop := fun o => ∃ C k, (C, k) ∈ cs2 ∧ o ∈ objectsOf b2 k
  let LK : Idx → Prop := fun k => ∃ C, (C, k) ∈ cs2
  let iO : Idx → Idx := fun o' => if h : ∃ o, LO o ∧ φ2 o = o' then h.choose else o'
  let iK : Idx → Idx := fun k' => if h : ∃ k, LK k ∧ ψ2 k = k' then h.choose else k'
  have hO : ∀ o : Idx, LO o → iO (φ2 o) = o := by
    intro o ho
    have hex : ∃ o1, LO o1 ∧ φ2 o1 = φ2 o := ⟨o, ho, rfl⟩
    show (if h : ∃ o1, LO o1 ∧ φ2 o1 = φ2 o then h.choose else φ2 o) = o
    rw [dif_pos hex]
    obtain ⟨⟨C, k, m, l⟩, e⟩ := hex.choose_spec
    obtain ⟨C', k', m', l'⟩ := ho
    exact s2.objInj C C' k k' _ _ m m' l l' e
  have hK : ∀ k : Idx, LK k → iK (ψ2 k) = k := by
    intro k hk
    have hex : ∃ k1, LK k1 ∧ ψ2 k1 = ψ2 k := ⟨k, hk, rfl⟩
    show (if h : ∃ k1, LK k1 ∧ ψ2 k1 = ψ2 k then h.choose else ψ2 k) = k
    rw [dif_pos hex]
    obtain ⟨⟨C, m⟩, e⟩ := hex.choose_spec
    obtain ⟨C', m'⟩ := hk
    exact s2.conInj C C' _ _ m m' e
  have con : ∀ {C : ContractTy} {k1 : Idx}, (C, k1) ∈ cs1 → ∃ k2, (C, k2) ∈ cs2 ∧ ψ2 k2 = ψ1 k1 ∧ iK (ψ1 k1) = k2 := by
    intro C k1 m
    obtain ⟨k2, m2, e⟩ := (s2.instances C (ψ1 k1)).1 (same_inst s1 m)
    exact ⟨k2, m2, e, by rw [← e]; exact hK k2 ⟨C, m2⟩⟩
  have obj : ∀ {C : ContractTy} {k1 k2 o1 : Idx}, (C, k1) ∈ cs1 → (C, k2) ∈ cs2 → ψ2 k2 = ψ1 k1 → o1 ∈ objectsOf b1 k1 →
      ∃ o2 ∈ objectsOf b2 k2, φ2 o2 = φ1 o1 ∧ iO (φ1 o1) = o2 := by
    intro C k1 k2 o1 m1 m2 e l
    have h := (same_objs s1 m1 (φ1 o1)).2 ⟨o1, l, rfl⟩
    rw [← e] at h
    obtain ⟨o2, l2, e2⟩ := (same_objs s2 m2 _).1 h
    exact ⟨o2, l2, e2, by rw [← e2]; exact hO o2 ⟨C, k2, m2, l2⟩⟩
  refine ⟨fun o => iO (φ1 o), fun k => iK (ψ1 k), ?_, ?_, ?_, ?_, ?_⟩
  · intro C k2
    constructor
    · intro m2
      obtain ⟨k1, m1, e⟩ := (s1.instances C (ψ2 k2)).1 (same_inst s2 m2)
      exact ⟨k1, m1, by simp only [e]; exact hK k2 ⟨C, m2⟩⟩
    · rintro ⟨k1, m1, rfl⟩
      obtain ⟨k2, m2, _, e⟩ := con m1
      simp only [e]; exact m2
  · intro C D k k' m m' e
    obtain ⟨k2, m2, e1, e2⟩ := con m
    obtain ⟨k2', m2', e1', e2'⟩ := con m'
    simp only [e2, e2'] at e
    subst e
    exact s1.conInj C D k k' m m' (e1.symm.trans e1')
  · intro C k m o2
    obtain ⟨k2, m2, e1, e2⟩ := con m
    simp only [e2]
    constructor
    · intro l2
      have h := (same_objs s2 m2 (φ2 o2)).2 ⟨o2, l2, rfl⟩
      rw [e1] at h
      obtain ⟨o1, l1, e⟩ := (same_objs s1 m _).1 h
      exact ⟨o1, l1, by rw [e]; exact hO o2 ⟨C, k2, m2, l2⟩⟩
    · rintro ⟨o1, l1, rfl⟩
      obtain ⟨o2, l2, _, e⟩ := obj m m2 e1 l1
      rw [e]; exact l2
  · intro C D k k' o o' m m' l l' e
    obtain ⟨k2, m2, e1, _⟩ := con m
    obtain ⟨k2', m2', e1', _⟩ := con m'
    obtain ⟨o2, _, f1, f2⟩ := obj m m2 e1 l
    obtain ⟨o2', _, f1', f2'⟩ := obj m' m2' e1' l'
    simp only [f2, f2'] at e
    subst e
    exact s1.objInj C D k k' o o' m m' l l' (f1.symm.trans f1')
  · intro C k o n f m l hf
    obtain ⟨k2, m2, e1, e2⟩ := con m
    obtain ⟨o2, l2, f1, f2⟩ := obj m m2 e1 l
    obtain ⟨v1, v, a1, a2, a3⟩ := s1.values C k o n f m l hf
    obtain ⟨v2, w, c1, c2, c3⟩ := s2.values C k2 o2 n f m2 l2 hf
    rw [e1, f1] at c2
    have := holds_fun a2 c2
    subst this
    refine ⟨v1, v2, a1, by simp only [e2, f2]; exact c1, ?_⟩
    have h : mapHandles iO iK (asRestored φ1 ψ1 (DynProp.ofTyped f.ty v1)) = mapHandles iO iK (asRestored φ2 ψ2 (DynProp.ofTyped f.ty v2)) := by
      rw [← a3, ← c3]
    rw [mapHandles_asRestored, mapHandles_asRestored] at h
    rw [h]
    obtain ⟨nm, ty⟩ := f
    refine asRestored_congr (fun x hx => ?_) (fun x hx => ?_)
    · have hh : LO x := by
        cases ty with
        | vec p => cases p <;> simp [DynProp.ofTyped] at hx
        | prim p =>
          cases p <;> simp [DynProp.ofTyped] at hx
          subst hx
          obtain ⟨C', k', m', l'⟩ := hcl.objects C k2 o2 n _ v2 m2 l2 hf rfl c1
          exact ⟨C', k', m', l'⟩
      exact hO x hh
    · have hh : LK x := by
        cases ty with
        | vec p => cases p <;> simp [DynProp.ofTyped] at hx
        | prim p =>
          cases p <;> simp [DynProp.ofTyped] at hx
          subst hx
          exact hcl.contracts C k2 o2 n _ v2 m2 l2 hf rfl c1
      exact hK x hh

/-- **C138.** If saving contracts of two baselines, which may have come about in any way, with any orders of the calls and of all hash sets, gives the same
bytes, then the same was saved: contracts and objects correspond one to one and every state has the same value. -/
theorem C138_equal_files {kind1 kind2 : Kind} {evs1 evs2 : List Event} {b1 b2 : Baseline} {cs1 cs2 : List (ContractTy × Idx)}
    (hS1 : Savable kind1 evs1 b1 cs1) (hS2 : Savable kind2 evs2 b2 cs2) (ht : (cs1.map Prod.fst).Perm (cs2.map Prod.fst))
    {c1 c2 : Cycle} (hc1 : c1.Fits cs1) (hc2 : c2.Fits cs2) {bytes : Bytes} (hl : bytes.length < 2 ^ 31)
    (h1 : c1.save b1 = .ok bytes) (h2 : c2.save b2 = .ok bytes) : ∃ φ ψ : Idx → Idx, SameSaved b1 cs1 b2 cs2 φ ψ := by
  have hd1 : (⟨c1.calls, c1.ordC, c1.ordO, c1.types, c1.kind, c1.sched, c1.ord, c1.hord⟩ : Cycle).Fits cs1 := hc1
  have hd2 : (⟨c2.calls, c2.ordC, c2.ordO, c1.types, c1.kind, c1.sched, c1.ord, c1.hord⟩ : Cycle).Fits cs2 := ⟨hc2.1, hc1.2.trans ht⟩
  obtain ⟨cs, b, φ1, ψ1, _, r1, s1, _⟩ := C78_savable_again hS1 _ hd1
  obtain ⟨cs', b', φ2, ψ2, _, r2, s2, _⟩ := C78_savable_again hS2 _ hd2
  have e1 := C127_files_are_faithful (c := ⟨c1.calls, c1.ordC, c1.ordO, c1.types, c1.kind, c1.sched, c1.ord, c1.hord⟩) h1 hl
  have e2 := C127_files_are_faithful (c := ⟨c2.calls, c2.ordC, c2.ordO, c1.types, c1.kind, c1.sched, c1.ord, c1.hord⟩) h2 hl
  rw [r1] at e1
  rw [r2] at e2
  have e : (Outcome.ok (cs, b) : Outcome (List (ContractTy × Idx) × Baseline)) = .ok (cs', b') := e1.symm.trans e2
  injection e with e
  injection e with e e'
  subst e; subst e'
  exact same_source hS2.closed s1 s2

/-- **C138.** If no state is a minus zero, the values are the same exactly, up to the handles. -/
theorem C138_equal_files_exactly {kind1 kind2 : Kind} {evs1 evs2 : List Event} {b1 b2 : Baseline} {cs1 cs2 : List (ContractTy × Idx)}
    (hS1 : Savable kind1 evs1 b1 cs1) (hS2 : Savable kind2 evs2 b2 cs2) (ht : (cs1.map Prod.fst).Perm (cs2.map Prod.fst))
    (hz1 : NoMinusZero b1 cs1) (hz2 : NoMinusZero b2 cs2)
    {c1 c2 : Cycle} (hc1 : c1.Fits cs1) (hc2 : c2.Fits cs2) {bytes : Bytes} (hl : bytes.length < 2 ^ 31)
    (h1 : c1.save b1 = .ok bytes) (h2 : c2.save b2 = .ok bytes) :
    ∃ φ ψ : Idx → Idx, SameSaved b1 cs1 b2 cs2 φ ψ ∧
      ∀ (C : ContractTy) (h o : Idx) (n : Nat) (f : Field), (C, h) ∈ cs1 → o ∈ objectsOf b1 h → C.states[n]? = some f →
        ∃ v1 v2, Holds b1 h o n f.ty v1 ∧ Holds b2 (ψ h) (φ o) n f.ty v2 ∧
          DynProp.ofTyped f.ty v2 = mapHandles φ ψ (DynProp.ofTyped f.ty v1) := by
  obtain ⟨φ, ψ, hs⟩ := C138_equal_files hS1 hS2 ht hc1 hc2 hl h1 h2
  refine ⟨φ, ψ, hs, fun C h o n f m l hf => ?_⟩
  obtain ⟨v1, v2, a1, a2, a3⟩ := hs.values C h o n f m l hf
  refine ⟨v1, v2, a1, a2, ?_⟩
  have m2 : (C, ψ h) ∈ cs2 := (hs.instances C _).2 ⟨h, m, rfl⟩
  have l2 : φ o ∈ objectsOf b2 (ψ h) := (hs.objects C h m _).2 ⟨o, l, rfl⟩
  rw [asRestored_of_signed (hz1 C h o n f v1 m l hf a1), asRestored_of_signed (hz2 C (ψ h) (φ o) n f v2 m2 l2 hf a2)] at a3
  rw [a3]
  cases DynProp.ofTyped f.ty v2 with
  | vec q => rfl
  | primitive q => cases q <;> rfl

/-- The correspondence the other way round. -/
theorem SameSaved.symm {b1 b2 : Baseline} {cs1 cs2 : List (ContractTy × Idx)} {φ ψ : Idx → Idx} (hcl : Closed b1 cs1)
    (hs : SameSaved b1 cs1 b2 cs2 φ ψ) : ∃ φ' ψ' : Idx → Idx, SameSaved b2 cs2 b1 cs1 φ' ψ' := by
  classical
  let LO : Idx → Prop := fun o => ∃ C k, (C, k) ∈ cs1 ∧ o ∈ objectsOf b1 k
  let LK : Idx → Prop := fun k => ∃ C, (C, k) ∈ cs1
  let iO : Idx → Idx := fun o' => if h : ∃ o, LO o ∧ φ o = o' then h.choose else o'
  let iK : Idx → Idx := fun k' => if h : ∃ k, LK k ∧ ψ k = k' then h.choose else k'
  have hO : ∀ o : Idx, LO o → iO (φ o) = o := by
    intro o ho
    have hex : ∃ o1, LO o1 ∧ φ o1 = φ o := ⟨o, ho, rfl⟩
    show (if h : ∃ o1, LO o1 ∧ φ o1 = φ o then h.choose else φ o) = o
    rw [dif_pos hex]
    obtain ⟨⟨C, k, m, l⟩, e⟩ := hex.choose_spec
    obtain ⟨C', k', m', l'⟩ := ho
    exact hs.objInj C C' k k' _ _ m m' l l' e
  have hK : ∀ k : Idx, LK k → iK (ψ k) = k := by
    intro k hk
    have hex : ∃ k1, LK k1 ∧ ψ k1 = ψ k := ⟨k, hk, rfl⟩
    show (if h : ∃ k1, LK k1 ∧ ψ k1 = ψ k then h.choose else ψ k) = k
    rw [dif_pos hex]
    obtain ⟨⟨C, m⟩, e⟩ := hex.choose_spec
    obtain ⟨C', m'⟩ := hk
    exact hs.conInj C C' _ _ m m' e
  have con : ∀ {C : ContractTy} {k2 : Idx}, (C, k2) ∈ cs2 → ∃ k1, (C, k1) ∈ cs1 ∧ ψ k1 = k2 ∧ iK k2 = k1 := by
    intro C k2 m2
    obtain ⟨k1, m1, rfl⟩ := (hs.instances C k2).1 m2
    exact ⟨k1, m1, rfl, hK k1 ⟨C, m1⟩⟩
  have obj : ∀ {C : ContractTy} {k1 o2 : Idx}, (C, k1) ∈ cs1 → o2 ∈ objectsOf b2 (ψ k1) → ∃ o1 ∈ objectsOf b1 k1, φ o1 = o2 ∧ iO o2 = o1 := by
    intro C k1 o2 m1 l2
    obtain ⟨o1, l1, rfl⟩ := (hs.objects C k1 m1 o2).1 l2
    exact ⟨o1, l1, rfl, hO o1 ⟨C, k1, m1, l1⟩⟩
  refine ⟨iO, iK, ?_, ?_, ?_, ?_, ?_⟩
  · intro C k1
    constructor
    · intro m1
      exact ⟨ψ k1, (hs.instances C _).2 ⟨k1, m1, rfl⟩, hK k1 ⟨C, m1⟩⟩
    · rintro ⟨k2, m2, rfl⟩
      obtain ⟨k1, m1, rfl, e⟩ := con m2
      rw [e]; exact m1
  · intro C D k k' m m' e
    obtain ⟨k1, m1, rfl, e1⟩ := con m
    obtain ⟨k1', m1', rfl, e1'⟩ := con m'
    rw [e1, e1'] at e
    rw [e]
  · intro C k m o1
    obtain ⟨k1, m1, rfl, e⟩ := con m
    rw [e]
    constructor
    · intro l1
      exact ⟨φ o1, (hs.objects C k1 m1 _).2 ⟨o1, l1, rfl⟩, hO o1 ⟨C, k1, m1, l1⟩⟩
    · rintro ⟨o2, l2, rfl⟩
      obtain ⟨o1, l1, _, e⟩ := obj m1 l2
      rw [e]; exact l1
  · intro C D k k' o o' m m' l l' e
    obtain ⟨k1, m1, rfl, _⟩ := con m
    obtain ⟨k1', m1', rfl, _⟩ := con m'
    obtain ⟨o1, _, rfl, e1⟩ := obj m1 l
    obtain ⟨o1', _, rfl, e1'⟩ := obj m1' l'
    rw [e1, e1'] at e
    rw [e]
  · intro C k o n f m l hf
    obtain ⟨k1, m1, rfl, e1⟩ := con m
    obtain ⟨o1, l1, rfl, e2⟩ := obj m1 l
    obtain ⟨v1, v2, a1, a2, a3⟩ := hs.values C k1 o1 n f m1 l1 hf
    refine ⟨v2, v1, a2, by rw [e1, e2]; exact a1, ?_⟩
    have h : mapHandles iO iK (asRestored id id (DynProp.ofTyped f.ty v2)) = mapHandles iO iK (asRestored φ ψ (DynProp.ofTyped f.ty v1)) := by rw [a3]
    rw [mapHandles_asRestored, mapHandles_asRestored] at h
    refine h.trans ?_
    obtain ⟨nm, ty⟩ := f
    refine asRestored_congr (fun x hx => ?_) (fun x hx => ?_)
    · have hh : LO x := by
        cases ty with
        | vec p => cases p <;> simp [DynProp.ofTyped] at hx
        | prim p =>
          cases p <;> simp [DynProp.ofTyped] at hx
          subst hx
          obtain ⟨C', k', m', l'⟩ := hcl.objects C k1 o1 n _ v1 m1 l1 hf rfl a1
          exact ⟨C', k', m', l'⟩
      exact hO x hh
    · have hh : LK x := by
        cases ty with
        | vec p => cases p <;> simp [DynProp.ofTyped] at hx
        | prim p =>
          cases p <;> simp [DynProp.ofTyped] at hx
          subst hx
          exact hcl.contracts C k1 o1 n _ v1 m1 l1 hf rfl a1
      exact hK x hh

/-- **C138.** Conversely, if the contracts of the two have the same contents, then what saving the one can give, with any orders of the calls and of the hash
sets, is exactly what saving the other can give: nothing but the contents and these orders goes into a file. -/
theorem C138_same_files {kind1 kind2 : Kind} {evs1 evs2 : List Event} {b1 b2 : Baseline} {cs1 cs2 : List (ContractTy × Idx)}
    (hS1 : Savable kind1 evs1 b1 cs1) (hS2 : Savable kind2 evs2 b2 cs2) {φ ψ : Idx → Idx} (hs : SameSaved b1 cs1 b2 cs2 φ ψ) (out : Outcome Bytes) :
    (∃ c1 : Cycle, c1.Fits cs1 ∧ c1.save b1 = out) ↔ (∃ c2 : Cycle, c2.Fits cs2 ∧ c2.save b2 = out) := by
  obtain ⟨φ', ψ', hs'⟩ := SameSaved.symm hS1.closed hs
  constructor
  · rintro ⟨c, hc, rfl⟩
    exact Twin.twin_save hS1 hS2 hs c hc
  · rintro ⟨c, hc, rfl⟩
    exact Twin.twin_save hS2 hS1 hs' c hc

/-- What was restored has what was saved. -/
theorem same_saved {b b' : Baseline} {cs cs' : List (ContractTy × Idx)} {φ ψ : Idx → Idx} (h : SameContents b cs b' cs' φ ψ) :
    SameSaved b cs b' cs' φ ψ := by
  refine ⟨h.instances, h.conInj, ?_, h.objInj, ?_⟩
  · intro C k m o2
    exact same_objs h m o2
  · intro C k o n f m l hf
    obtain ⟨v1, v2, a1, a2, a3⟩ := h.values C k o n f m l hf
    exact ⟨v1, v2, a1, a2, by rw [a3, asRestored_comp]; rfl⟩

/-- **C139.** Saving does not drift: after any number of saves and restores, what saving can give is exactly what it could give at first. -/
theorem C139_no_drift {kind : Kind} {evs : List Event} {b : Baseline} {cs : List (ContractTy × Idx)} (hS : Savable kind evs b cs)
    {b' : Baseline} {cs' : List (ContractTy × Idx)} (hch : Chain b cs b' cs') (out : Outcome Bytes) :
    (∃ c : Cycle, c.Fits cs ∧ c.save b = out) ↔ (∃ c' : Cycle, c'.Fits cs' ∧ c'.save b' = out) := by
  suffices h : (∃ (kind' : Kind) (evs' : List Event), Savable kind' evs' b' cs') ∧
      ((∃ c : Cycle, c.Fits cs ∧ c.save b = out) ↔ (∃ c' : Cycle, c'.Fits cs' ∧ c'.save b' = out)) from h.2
  induction hch with
  | start => exact ⟨⟨kind, evs, hS⟩, Iff.rfl⟩
  | next b1 cs1 c1 b2 cs2 _ hf hr ih =>
    obtain ⟨⟨kind', evs', h1⟩, h2⟩ := ih
    obtain ⟨cs'', b'', φ, ψ, evs'', e1, e2, e3⟩ := C78_savable_again h1 c1 hf
    have e : (Outcome.ok (cs2, b2) : Outcome (List (ContractTy × Idx) × Baseline)) = .ok (cs'', b'') := hr.symm.trans e1
    injection e with e
    injection e with ea eb
    subst ea; subst eb
    exact ⟨⟨_, _, e3⟩, h2.trans (C138_same_files h1 e3 (same_saved e2) out)⟩

/-- **C139.** What is read from a file can be saved as the very same file. -/
theorem C139_same_file_again {kind : Kind} {evs : List Event} {b : Baseline} {cs : List (ContractTy × Idx)} (hS : Savable kind evs b cs)
    {c : Cycle} (hc : c.Fits cs) {bytes : Bytes} (hw : c.save b = .ok bytes) (hl : bytes.length < 2 ^ 31) :
    ∃ (cs' : List (ContractTy × Idx)) (b' : Baseline) (c' : Cycle), c.load bytes = .ok (cs', b') ∧ c'.Fits cs' ∧ c'.save b' = .ok bytes := by
  obtain ⟨cs', b', φ, ψ, _, e1, _, _⟩ := C78_savable_again hS c hc
  obtain ⟨c', h1, h2⟩ := (C139_no_drift hS (.next _ _ c b' cs' .start hc e1) _).1 ⟨c, hc, hw⟩
  exact ⟨cs', b', c', by rw [C127_files_are_faithful hw hl, e1], h1, h2⟩

/-- The same tag by another way: next to it there is a node, so all its handles are others; the label is written later, and a call fails on the way. -/
def tagOps2 : List BOp := [.register nodeC, .register tagC, .create nodeC h0 [.primitive (.u8 9), .primitive (.objectHandle h0)] [],
  .create tagC h1 [.primitive (.string "x"), .primitive (.contractDataHandle h1)] [],
  .create tagC h1 [.primitive (.u8 1)] [], .writeState (.prim .string) h0 "a"]
def tagB2 : Baseline := ((Baseline.new .main).runOps tagOps2).2
def tagEvs2 : List Event := ((Baseline.new .main).runOps tagOps2).1
theorem tag2_history : History .main tagEvs2 tagB2 := runOps_trace _ _
theorem tag2_objects : objectsOf tagB2 h1 = [h1] := by decide +kernel
theorem tag2_file : (demoCycle [(tagC, h1)]).save tagB2 = .ok tagFile := by decide +kernel
theorem tag2_events : tagEvs2 = [(.register nodeC, .ok (some h0)), (.register tagC, .ok (some h1)),
    (.create nodeC h0 [.primitive (.u8 9), .primitive (.objectHandle h0)] [], .ok (some h0)),
    (.create tagC h1 [.primitive (.string "x"), .primitive (.contractDataHandle h1)] [], .ok (some h1)),
    (.create tagC h1 [.primitive (.u8 1)] [], .err "property did not match contract type"),
    (.writeState (.prim .string) h0 "a", .ok none)] := by rfl

theorem tag2_savable : Savable .main tagEvs2 tagB2 [(tagC, h1)] := by
  have hcs : ∀ (C : ContractTy) (h : Idx), (C, h) ∈ [(tagC, h1)] → C = tagC ∧ h = h1 := by
    intro C h hm; simpa using hm
  have hobj := tag2_objects
  refine ⟨tag2_history, ⟨?_, ?_, ?_, ?_, by decide⟩, ⟨?_, ?_⟩, by decide, by decide, .of_none (by decide), by decide +kernel⟩
  · intro C h hm
    obtain ⟨rfl, rfl⟩ := hcs C h hm
    exact ⟨⟨tagC.id, [h1]⟩, by decide +kernel, rfl⟩
  · rintro C C' h o hm ⟨ss, cs, hc⟩
    obtain ⟨rfl, rfl⟩ := hcs C h hm
    rw [tag2_events] at hc
    simp [h0, h1] at hc; grind
  · intro C h o hm ho
    obtain ⟨rfl, rfl⟩ := hcs C h hm
    rw [hobj] at ho
    have : o = h1 := by simpa using ho
    subst this
    exact ⟨_, rfl⟩
  · intro C h f hm hf
    obtain ⟨rfl, rfl⟩ := hcs C h hm
    simp [tagC] at hf
    rcases hf with rfl | rfl <;> exact ⟨_, rfl⟩
  · intro C h o n f v hm _ hf ht
    obtain ⟨rfl, rfl⟩ := hcs C h hm
    have := List.mem_of_getElem? hf
    simp [tagC] at this
    rcases this with rfl | rfl <;> cases ht
  · intro C h o n f v hm ho hf ht hv
    obtain ⟨rfl, rfl⟩ := hcs C h hm
    rw [hobj] at ho
    have : o = h1 := by simpa using ho
    subst this
    match n, hf with
    | 0, hf => cases hf; cases ht
    | 1, hf =>
      obtain ⟨j, g1, g2⟩ := hv
      have : tagB2.bindState ⟨1, h1⟩ h1 = .ok h0 := by decide +kernel
      rw [this] at g1; cases g1
      have : tagB2.state (.prim .contractDataHandle) h0 = .ok h1 := by rfl
      rw [this] at g2; cases g2
      exact ⟨tagC, by simp⟩
    | n + 2, hf => simp [tagC] at hf

/-- The two give the same file, so they have the same tag. -/
example : ∃ φ ψ : Idx → Idx, SameSaved tagB [(tagC, h0)] tagB2 [(tagC, h1)] φ ψ ∧ ψ h0 = h1 ∧ φ h0 = h1 := by
  obtain ⟨φ, ψ, hs, _⟩ := C138_equal_files_exactly tag_savable tag2_savable (List.Perm.refl _) (noMinusZero_of_types (by decide))
    (noMinusZero_of_types (by decide)) (demoCycle_fits _) (demoCycle_fits _) (by decide +kernel) tag_file tag2_file
  have h1 : ψ h0 = h1 := by simpa using (hs.instances tagC (ψ h0)).2 ⟨h0, by simp, rfl⟩
  refine ⟨φ, ψ, hs, h1, ?_⟩
  have := (hs.objects tagC h0 (by simp) (φ h0)).2 ⟨h0, by decide +kernel, rfl⟩
  rw [h1, tag2_objects] at this
  simpa using this

/-- So every file of the one is a file of the other. -/
example (out : Outcome Bytes) : (∃ c1 : Cycle, c1.Fits [(tagC, h0)] ∧ c1.save tagB = out) ↔ (∃ c2 : Cycle, c2.Fits [(tagC, Verif.Props.h1)] ∧ c2.save tagB2 = out) := by
  obtain ⟨φ, ψ, hs⟩ := C138_equal_files tag_savable tag2_savable (List.Perm.refl _) (demoCycle_fits _) (demoCycle_fits _)
    (by decide +kernel) tag_file tag2_file
  exact C138_same_files tag_savable tag2_savable hs out

/-- The tag read from its file can be saved as that file; and so can what is left of the graph after any number of cycles as the file of the first. -/
example : ∃ (cs' : List (ContractTy × Idx)) (b' : Baseline) (c' : Cycle), (demoCycle [(tagC, h0)]).load tagFile = .ok (cs', b') ∧ c'.Fits cs' ∧
    c'.save b' = .ok tagFile := C139_same_file_again tag_savable (demoCycle_fits _) tag_file (by decide +kernel)

example {b' : Baseline} {cs' : List (ContractTy × Idx)} (h : Chain graphB graphCs b' cs') :
    ∃ c' : Cycle, c'.Fits cs' ∧ c'.save b' = (demoCycle graphCs).save graphB :=
  (C139_no_drift graph_savable h _).1 ⟨_, demoCycle_fits _, rfl⟩

/-- The orders matter: the same contracts of the same baseline, with another order of a hash set, are another file. -/
example : (seedCycle .id graphCs).save graphB ≠ (seedCycle ⟨List.reverse, fun l => List.reverse_perm l⟩ graphCs).save graphB := by decide +kernel

/-- Another label, another file. -/
example : (demoCycle [(tagC, Verif.Props.h1)]).save (tagB2.runOps [.writeState (.prim .string) h0 "b"]).2 ≠ .ok tagFile := by decide +kernel

end Verif.Props
