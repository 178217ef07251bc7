import Verif.Proofs.Serializer
/-! # The serializer: `finish` -/
namespace Verif
open Arena Baseline Store Spec

theorem patch_spec (b : Baseline) (t : PropType) (asHandle : t.Carrier → Idx) (m : BiMap Idx Nat)
    (mk : Nat → FbVal) (L : List (Idx × Nat)) (sts : List (Option FbVal))
    (hst : ∀ (h : Idx) (i : Nat), (h, i) ∈ L → (∃ v, b.state t h = .ok v) ∧ sts[i]? = some none)
    (hnd : (L.map Prod.snd).Nodup) :
    ((∃ (h : Idx) (i : Nat) (v : t.Carrier), (h, i) ∈ L ∧ b.state t h = .ok v ∧ m.getL (asHandle v) = none) ∧
      (Ser.patch b t asHandle m mk L sts).isPanic = true) ∨
    ((∀ (h : Idx) (i : Nat) (v : t.Carrier), (h, i) ∈ L → b.state t h = .ok v → ∃ r, m.getL (asHandle v) = some r) ∧
      ∃ sts', Ser.patch b t asHandle m mk L sts = .ok sts' ∧ sts'.length = sts.length ∧
      (∀ (h : Idx) (i : Nat) (v : t.Carrier) (r : Nat), (h, i) ∈ L → b.state t h = .ok v →
        m.getL (asHandle v) = some r → sts'[i]? = some (some (mk r))) ∧
      ∀ i : Nat, (∀ h : Idx, (h, i) ∉ L) → sts'[i]? = sts[i]?) := by
  induction L generalizing sts with
  | nil => right; exact ⟨by simp, sts, rfl, rfl, by simp, by simp⟩
  | cons e L ih =>
    obtain ⟨h, i⟩ := e
    obtain ⟨⟨v, hv⟩, hi⟩ := hst h i (by simp)
    simp only [List.map_cons, List.nodup_cons] at hnd
    have hin : ∀ h' : Idx, (h', i) ∉ L := fun h' hm => hnd.1 (List.mem_map.2 ⟨_, hm, rfl⟩)
    simp only [Ser.patch, hv]
    cases hr : m.getL (asHandle v) with
    | none => left; exact ⟨⟨h, i, v, by simp, hv, hr⟩, rfl⟩
    | some r =>
      simp only [hi]
      rcases ih (sts.set i (some (mk r))) (fun h' i' hm => by
        obtain ⟨a1, a2⟩ := hst h' i' (by simp [hm])
        refine ⟨a1, ?_⟩
        rw [List.getElem?_set_ne, a2]
        rintro rfl; exact hin h' hm) hnd.2 with ⟨⟨h', i', v', a1, a2, a3⟩, a4⟩ | ⟨a1, sts', a2, a3, a4, a5⟩
      · left; exact ⟨⟨h', i', v', by simp [a1], a2, a3⟩, a4⟩
      · right
        refine ⟨?_, sts', a2, by rw [a3]; simp, ?_, ?_⟩
        · intro h' i' v' hm hv'
          rcases List.mem_cons.1 hm with hm | hm
          · injection hm with e1 e2; subst e1 e2
            rw [hv] at hv'; injection hv' with hv'; subst hv'; exact ⟨r, hr⟩
          · exact a1 h' i' v' hm hv'
        · intro h' i' v' r' hm hv' hr'
          rcases List.mem_cons.1 hm with hm | hm
          · injection hm with e1 e2; subst e1 e2
            rw [hv] at hv'; injection hv' with hv'; subst hv'
            rw [hr] at hr'; injection hr' with hr'; subst hr'
            rw [a5 i' hin, List.getElem?_set_self (List.getElem?_eq_some_iff.1 hi).1]
          · exact a4 h' i' v' r' hm hv' hr'
        · intro i' hn
          rw [a5 i' (fun h' hm => hn h' (by simp [hm])), List.getElem?_set_ne]
          rintro rfl; exact hn h (by simp)

/-- The handle written in slot `i` refers to nothing that was serialized. -/
def Unresolved (L : List (ContractTy × Idx)) (W : List WObj) (x : WSlot) : Prop :=
  (∃ o, x.prop = .primitive (.objectHandle o) ∧ ∀ w ∈ W, w.o ≠ o) ∨
  (∃ h, x.prop = .primitive (.contractDataHandle h) ∧ ∀ C, (C, h) ∉ L)

/-- Is the type a handle type? -/
def PropType.isHandle : PropType → Bool
  | .prim .objectHandle => true
  | .prim .contractDataHandle => true
  | _ => false

theorem fbF32_eq (v : BitVec 32) : fbF32 v = unsigned32 v := by
  unfold fbF32 unsigned32
  by_cases h : v = 0x80000000#32
  · subst h; decide
  · rw [if_neg h]
    split
    case isTrue hz =>
      have hm : fmt32.magNat v = 0 := by
        simp only [FloatFmt.feq, Bool.and_eq_true, beq_iff_eq] at hz
        have h0 : fmt32.key 0#32 = 0 := by decide
        rw [h0] at hz
        have := hz.2
        unfold FloatFmt.key at this
        split at this <;> omega
      have : v.toNat % 2 ^ 31 = 0 := by
        have e : (0x7fffffff#32).toNat = 2 ^ 31 - 1 := by decide
        simp only [FloatFmt.magNat, fmt32, BitVec.toNat_and, e, Nat.and_two_pow_sub_one_eq_mod] at hm
        exact hm
      have hl := v.isLt
      have hv : v.toNat = 0 ∨ v.toNat = 0x80000000 := by omega
      rcases hv with hv | hv
      · exact (BitVec.eq_of_toNat_eq hv).symm
      · exact absurd (BitVec.eq_of_toNat_eq hv) h
    case isFalse => rfl

theorem fbF64_eq (v : BitVec 64) : fbF64 v = unsigned64 v := by
  unfold fbF64 unsigned64
  by_cases h : v = 0x8000000000000000#64
  · subst h; decide
  · rw [if_neg h]
    split
    case isTrue hz =>
      have hm : fmt64.magNat v = 0 := by
        simp only [FloatFmt.feq, Bool.and_eq_true, beq_iff_eq] at hz
        have h0 : fmt64.key 0#64 = 0 := by decide
        rw [h0] at hz
        have := hz.2
        unfold FloatFmt.key at this
        split at this <;> omega
      have : v.toNat % 2 ^ 63 = 0 := by
        have e : (0x7fffffffffffffff#64).toNat = 2 ^ 63 - 1 := by decide
        simp only [FloatFmt.magNat, fmt64, BitVec.toNat_and, e, Nat.and_two_pow_sub_one_eq_mod] at hm
        exact hm
      have hl := v.isLt
      have hv : v.toNat = 0 ∨ v.toNat = 0x8000000000000000 := by omega
      rcases hv with hv | hv
      · exact (BitVec.eq_of_toNat_eq hv).symm
      · exact absurd (BitVec.eq_of_toNat_eq hv) h
    case isFalse => rfl

theorem noSign_propType (p : DynProp) : (noSign p).propType = p.propType := by
  unfold noSign; split <;> rfl

theorem noSign_con {p : DynProp} {h : Idx} (e : noSign p = .primitive (.contractDataHandle h)) :
    p = .primitive (.contractDataHandle h) := by
  unfold noSign at e
  split at e
  · cases e
  · cases e
  · exact e

theorem noSign_obj {p : DynProp} {o : Idx} (e : noSign p = .primitive (.objectHandle o)) :
    p = .primitive (.objectHandle o) := by
  unfold noSign at e
  split at e
  · cases e
  · cases e
  · exact e

theorem encode_nonhandle {t : PropType} {v : t.Carrier} {sl : Option FbVal} (ht : t.isHandle = false)
    (h : encodeState (DynProp.ofTyped t v) = some sl) (con obj : Nat → Idx → Prop) :
    ∃ w, sl = some w ∧ Denotes con obj w (noSign (DynProp.ofTyped t v)) := by
  rcases t with p | p <;> cases p <;> simp only [PropType.isHandle, Bool.true_eq_false] at ht <;>
    simp only [DynProp.ofTyped, encodeState, fbF32_eq, fbF64_eq, Option.some.injEq, reduceCtorEq] at h <;>
    first
    | (subst h; exact ⟨_, rfl, by constructor⟩)
    | cases h

theorem encode_handle {t : PropType} {v : t.Carrier} (ht : t.isHandle = true) :
    encodeState (DynProp.ofTyped t v) = some none := by
  rcases t with p | p <;> cases p <;> simp only [PropType.isHandle, Bool.false_eq_true] at ht <;> rfl

/-- What `finish` writes for the slot. -/
def SlotOut (s : Ser) (out : FbOut) (i : Nat) (x : WSlot) : Prop :=
  (∃ v, out.states[i]? = some (some v) ∧
    (x.d.ty = .prim .objectHandle → (x.hnd, i) ∈ s.hObjectStates.pairs) ∧
    (x.d.ty = .prim .contractDataHandle → (x.hnd, i) ∈ s.hContractStates.pairs) ∧
    Denotes (fun c h => ∃ k, BitVec.ofNat 16 k = BitVec.ofNat 16 c ∧ (h, k) ∈ s.hContracts.pairs)
      (fun r o => ∃ p, BitVec.ofNat 32 p = BitVec.ofNat 32 r ∧ (o, p) ∈ s.hObjects.pairs) v (noSign x.prop)) ∨
  (out.states[i]? = some none ∧
    ((x.d.ty = .prim .objectHandle ∧ (x.hnd, i) ∉ s.hObjectStates.pairs) ∨
     (x.d.ty = .prim .contractDataHandle ∧ (x.hnd, i) ∉ s.hContractStates.pairs)))

theorem ser_finish_spec {b : Baseline} {s : Ser} {L : List (ContractTy × Idx)} {W : List WObj} {S : List WSlot}
    (hI : SerInv b s L W S) (ordC ordO : IterOrder (Idx × Nat)) :
    ((∃ x ∈ S, Unresolved L W x) ∧ (s.finish ordC ordO).isPanic = true) ∨
    ((∀ x ∈ S, ¬ Unresolved L W x) ∧ ∃ out, s.finish ordC ordO = .ok out ∧ out.contracts = s.contracts ∧
      out.objects = s.objects ∧ out.states.length = S.length ∧
      ∀ (i : Nat) (x : WSlot), S[i]? = some x → SlotOut s out i x) := by
  have hS := hI.objs.slots
  have memC : ∀ e : Idx × Nat, e ∈ ordC.order s.hContractStates.pairs ↔ e ∈ s.hContractStates.pairs :=
    fun e => (ordC.perm _).mem_iff
  have memO : ∀ e : Idx × Nat, e ∈ ordO.order s.hObjectStates.pairs ↔ e ∈ s.hObjectStates.pairs :=
    fun e => (ordO.perm _).mem_iff
  have slotO : ∀ (hnd : Idx) (i : Nat), (hnd, i) ∈ s.hObjectStates.pairs → ∃ x, S[i]? = some x ∧
      x.d.ty = .prim .objectHandle ∧ x.hnd = hnd ∧ ∃ v : Idx, s.base.state (.prim .objectHandle) hnd = .ok v ∧
        x.prop = .primitive (.objectHandle v) ∧ s.states[i]? = some none := by
    intro hnd i hm
    obtain ⟨x, h1, h2, h3⟩ := hS.obj.pair hnd i hm
    obtain ⟨a1, a2, sl, a3, a4⟩ := hS.slots i x h1
    refine ⟨x, h1, h2, h3, ?_⟩
    subst h3
    rcases x with ⟨o, ⟨ty, id⟩, hnd, v⟩
    simp only at h2; subst h2
    refine ⟨v, a2, rfl, ?_⟩
    rw [a4, ← a3]; rfl
  have slotC : ∀ (hnd : Idx) (i : Nat), (hnd, i) ∈ s.hContractStates.pairs → ∃ x, S[i]? = some x ∧
      x.d.ty = .prim .contractDataHandle ∧ x.hnd = hnd ∧ ∃ v : Idx, s.base.state (.prim .contractDataHandle) hnd = .ok v ∧
        x.prop = .primitive (.contractDataHandle v) ∧ s.states[i]? = some none := by
    intro hnd i hm
    obtain ⟨x, h1, h2, h3⟩ := hS.con.pair hnd i hm
    obtain ⟨a1, a2, sl, a3, a4⟩ := hS.slots i x h1
    refine ⟨x, h1, h2, h3, ?_⟩
    subst h3
    rcases x with ⟨o, ⟨ty, id⟩, hnd, v⟩
    simp only at h2; subst h2
    refine ⟨v, a2, rfl, ?_⟩
    rw [a4, ← a3]; rfl
  have noneC : ∀ h : Idx, s.hContracts.getL h = none ↔ ∀ C : ContractTy, (C, h) ∉ L := by
    intro h
    rw [BiMap.getL_none]
    constructor
    · intro hn C hm; obtain ⟨k, hk⟩ := hI.cAll C h hm; exact hn k hk
    · intro hn k hk; obtain ⟨C, e⟩ := hI.cPair h k hk; exact hn C (List.mem_of_getElem? e)
  have noneO : ∀ o : Idx, s.hObjects.getL o = none ↔ ∀ w ∈ W, w.o ≠ o := by
    intro o
    rw [BiMap.getL_none]
    constructor
    · intro hn w hw e; obtain ⟨p, hp⟩ := hI.objs.oAll w hw; exact hn p (e ▸ hp)
    · intro hn p hp; obtain ⟨w, e, e2⟩ := hI.objs.oPair o p hp; exact hn w (List.mem_of_getElem? e) e2
  unfold Ser.finish
  rcases patch_spec s.base (.prim .contractDataHandle) (fun v => v) s.hContracts
      (fun r => .contractDataHandle (BitVec.ofNat 16 r)) (ordC.order s.hContractStates.pairs) s.states
      (fun h i hm => by
        obtain ⟨x, _, _, _, v, e1, _, e2⟩ := slotC h i ((memC _).1 hm)
        exact ⟨⟨v, e1⟩, e2⟩)
      (((ordC.perm _).map _).nodup_iff.2 hS.con.inv.2) with
    ⟨⟨h, i, v, c1, c2, c3⟩, c4⟩ | ⟨c1, sts1, c2, c3, c4, c5⟩
  · left
    obtain ⟨x, e1, _, _, v', e2, e3, _⟩ := slotC h i ((memC _).1 c1)
    rw [c2] at e2; injection e2 with e2; subst e2
    refine ⟨⟨x, List.mem_of_getElem? e1, .inr ⟨_, e3, (noneC _).1 c3⟩⟩, ?_⟩
    revert c4
    cases Ser.patch s.base (.prim .contractDataHandle) (fun v => v) s.hContracts
      (fun r => .contractDataHandle (BitVec.ofNat 16 r)) (ordC.order s.hContractStates.pairs) s.states <;>
      simp [Outcome.isPanic]
  · rw [c2]
    simp only
    rcases patch_spec s.base (.prim .objectHandle) (fun v => v) s.hObjects
      (fun r => .objectHandle (BitVec.ofNat 32 r)) (ordO.order s.hObjectStates.pairs) sts1
      (fun h i hm => by
        obtain ⟨x, e0, e0', _, v, e1, _, e2⟩ := slotO h i ((memO _).1 hm)
        refine ⟨⟨v, e1⟩, ?_⟩
        rw [c5, e2]
        intro h' hm'
        obtain ⟨x', g0, g0', _⟩ := slotC h' i ((memC _).1 hm')
        rw [e0] at g0; injection g0 with g0; subst g0
        rw [e0'] at g0'; cases g0')
      (((ordO.perm _).map _).nodup_iff.2 hS.obj.inv.2) with
      ⟨⟨h, i, v, d1, d2, d3⟩, d4⟩ | ⟨d1, sts2, d2, d3, d4, d5⟩
    · left
      obtain ⟨x, e1, _, _, v', e2, e3, _⟩ := slotO h i ((memO _).1 d1)
      rw [d2] at e2; injection e2 with e2; subst e2
      refine ⟨⟨x, List.mem_of_getElem? e1, .inl ⟨_, e3, (noneO _).1 d3⟩⟩, ?_⟩
      revert d4
      cases Ser.patch s.base (.prim .objectHandle) (fun v => v) s.hObjects
        (fun r => .objectHandle (BitVec.ofNat 32 r)) (ordO.order s.hObjectStates.pairs) sts1 <;>
        simp [Outcome.isPanic]
    · right
      rw [d2]
      refine ⟨?_, _, rfl, rfl, rfl, by simp only; rw [d3, c3, hS.len], ?_⟩
      · intro x hx hu
        obtain ⟨i, hi⟩ := List.getElem?_of_mem hx
        obtain ⟨a1, a2, sl, a3, a4⟩ := hS.slots i x hi
        rcases x with ⟨o, ⟨ty, id⟩, hnd, v⟩
        rcases hu with ⟨o', e1, e2⟩ | ⟨h', e1, e2⟩
        · have hty : ty = .prim .objectHandle := by
            have := congrArg DynProp.propType e1
            rw [WSlot.prop, DynProp.propType_ofTyped] at this; exact this
          subst hty
          obtain ⟨i', hi'⟩ := hS.obj.all i _ hi rfl
          obtain ⟨r, hr⟩ := d1 hnd i' v ((memO _).2 hi') a2
          have : v = o' := by
            simpa [WSlot.prop, DynProp.ofTyped] using e1
          subst this
          rw [(noneO _).2 e2] at hr; cases hr
        · have hty : ty = .prim .contractDataHandle := by
            have := congrArg DynProp.propType e1
            rw [WSlot.prop, DynProp.propType_ofTyped] at this; exact this
          subst hty
          obtain ⟨i', hi'⟩ := hS.con.all i _ hi rfl
          obtain ⟨r, hr⟩ := c1 hnd i' v ((memC _).2 hi') a2
          have : v = h' := by
            simpa [WSlot.prop, DynProp.ofTyped] using e1
          subst this
          rw [(noneC _).2 e2] at hr; cases hr
      · intro i x hi
        obtain ⟨a1, a2, sl, a3, a4⟩ := hS.slots i x hi
        rcases x with ⟨o, ⟨ty, id⟩, hnd, v⟩
        simp only at a1 a2
        -- a noted pair at `i` can only be this slot
        have onlyO : ∀ h' : Idx, (h', i) ∈ s.hObjectStates.pairs → ty = .prim .objectHandle ∧ h' = hnd := by
          intro h' hm
          obtain ⟨x', g0, g1, g2, _⟩ := slotO h' i hm
          rw [hi] at g0; injection g0 with g0; subst g0; exact ⟨g1, g2.symm⟩
        have onlyC : ∀ h' : Idx, (h', i) ∈ s.hContractStates.pairs → ty = .prim .contractDataHandle ∧ h' = hnd := by
          intro h' hm
          obtain ⟨x', g0, g1, g2, _⟩ := slotC h' i hm
          rw [hi] at g0; injection g0 with g0; subst g0; exact ⟨g1, g2.symm⟩
        unfold SlotOut
        simp only
        by_cases hO : ty = .prim .objectHandle
        · subst hO
          by_cases hm : (hnd, i) ∈ s.hObjectStates.pairs
          · left
            obtain ⟨r, hr⟩ := d1 hnd i v ((memO _).2 hm) a2
            refine ⟨_, d4 hnd i v r ((memO _).2 hm) a2 hr, fun _ => hm, (fun e => by cases e), ?_⟩
            exact .object _ _ ⟨r, by apply BitVec.eq_of_toNat_eq; simp, BiMap.getL_some_mem hr⟩
          · right
            refine ⟨?_, .inl ⟨rfl, hm⟩⟩
            rw [d5 i (fun h' hm' => hm ((onlyO h' ((memO _).1 hm')).2 ▸ (memO _).1 hm')),
              c5 i (fun h' hm' => by cases (onlyC h' ((memC _).1 hm')).1), a4, ← a3]
            rfl
        · by_cases hC : ty = .prim .contractDataHandle
          · subst hC
            have hno : ∀ h' : Idx, (h', i) ∉ ordO.order s.hObjectStates.pairs := fun h' hm' => by
              cases (onlyO h' ((memO _).1 hm')).1
            by_cases hm : (hnd, i) ∈ s.hContractStates.pairs
            · left
              obtain ⟨r, hr⟩ := c1 hnd i v ((memC _).2 hm) a2
              refine ⟨_, by rw [d5 i hno]; exact c4 hnd i v r ((memC _).2 hm) a2 hr, (fun e => by cases e), fun _ => hm, ?_⟩
              exact .contract _ _ ⟨r, by apply BitVec.eq_of_toNat_eq; simp, BiMap.getL_some_mem hr⟩
            · right
              refine ⟨?_, .inr ⟨rfl, hm⟩⟩
              rw [d5 i hno, c5 i (fun h' hm' => hm ((onlyC h' ((memC _).1 hm')).2 ▸ (memC _).1 hm')), a4, ← a3]
              rfl
          · left
            have hth : ty.isHandle = false := by
              rcases ty with p | p <;> cases p <;> first | rfl | exact absurd rfl hO | exact absurd rfl hC
            obtain ⟨w, e1, e2⟩ := encode_nonhandle hth a3
              (fun c h => ∃ k, BitVec.ofNat 16 k = BitVec.ofNat 16 c ∧ (h, k) ∈ s.hContracts.pairs)
              (fun r o => ∃ p, BitVec.ofNat 32 p = BitVec.ofNat 32 r ∧ (o, p) ∈ s.hObjects.pairs)
            refine ⟨w, ?_, fun e => absurd e hO, fun e => absurd e hC, e2⟩
            rw [d5 i (fun h' hm' => hO (onlyO h' ((memO _).1 hm')).1),
              c5 i (fun h' hm' => hC (onlyC h' ((memC _).1 hm')).1), a4, e1]

end Verif
