import Verif.Proofs.SimStep
/-! # No program tells corresponding baselines apart -/
namespace Verif
open Arena Store Baseline Spec

theorem returned_agree {α : Type} {S : Scope} {N : Names} {b b' : Baseline} {e e' : Env} (hs : PairedOn S N b b') (he : RelEnv N e e') {x y : Outcome α} {f g : α → Held}
    (h : (∃ v w, x = .ok v ∧ y = .ok w ∧ RelHeld N (f v) (g w)) ∨ ∃ m, x = .err m ∧ y = .err m) :
    Agree S N b' ((returned x f e).1, (returned x f e).2, b) ((returned y g e').1, (returned y g e').2, b') := by
  rcases h with ⟨v, w, rfl, rfl, h⟩ | ⟨m, rfl, rfl⟩
  · exact ⟨rfl, fun _ => ⟨N, .refl _ N, hs, he.push h⟩⟩
  · exact agree_same hs he _

/-- Binding the same field of corresponding objects. -/
theorem bindIdx_agree {r : PropType → Idx → Idx → Prop} {ts : List PropType} {ob ob' : ObjectD} {h h' : Idx} {is js : List Idx}
    (hc : h = ob.contract ↔ h' = ob'.contract) (hf : FieldsMatched r ts is js) (n : Nat) :
    (∃ (t : PropType) (i j : Idx), h = ob.contract ∧ ts[n]? = some t ∧ r t i j ∧ bindIdx ob is ⟨n, h⟩ = .ok i ∧ bindIdx ob' js ⟨n, h'⟩ = .ok j) ∨
      ∃ m : String, bindIdx ob is ⟨n, h⟩ = .err m ∧ bindIdx ob' js ⟨n, h'⟩ = .err m := by
  by_cases e : h = ob.contract
  · have e' := hc.1 e
    cases hi : is[n]? with
    | none =>
      have hj : js[n]? = none := by
        rw [List.getElem?_eq_none_iff] at hi ⊢; rw [← hf.1]; exact hi
      right
      refine ⟨"field index out of bounds", ?_, ?_⟩ <;> unfold bindIdx
      · simp [e, hi]
      · simp [e', hj]
    | some i =>
      have hn : n < js.length := by rw [← hf.1]; exact (List.getElem?_eq_some_iff.1 hi).1
      have hj : js[n]? = some js[n] := List.getElem?_eq_getElem hn
      obtain ⟨t, h1, h2⟩ := hf.2 n i _ hi hj
      exact .inl ⟨t, i, js[n], e, h1, h2, bindIdx_ok.2 ⟨e, hi⟩, bindIdx_ok.2 ⟨e', hj⟩⟩
  · have e' : ¬ h' = ob'.contract := fun z => e (hc.2 z)
    right
    refine ⟨"id for another contract", ?_, ?_⟩ <;> unfold bindIdx
    · simp [e]
    · simp [e']

theorem bindState_agree {S : Scope} {N : Names} {b b' : Baseline} {e e' : Env} (hs : PairedOn S N b b') (he : RelEnv N e e') {C : ContractTy} {h h' : Idx}
    (hc : N.con C h h') {o o' : Idx} (ho : N.obj o o') {n : Nat} {t : PropType} (ht : C.stateTypes[n]? = some t) :
    Agree S N b' ((returned (b.bindState ⟨n, h⟩ o) (Held.state t) e).1, (returned (b.bindState ⟨n, h⟩ o) (Held.state t) e).2, b)
      ((returned (b'.bindState ⟨n, h'⟩ o') (Held.state t) e').1, (returned (b'.bindState ⟨n, h'⟩ o') (Held.state t) e').2, b') := by
  refine returned_agree hs he ?_
  unfold Baseline.bindState
  cases hg : b.objects.get o with
  | none => rw [hs.objs.none ho hg]; exact .inr ⟨_, rfl, rfl⟩
  | some ob =>
    obtain ⟨ob', hg', _, D, r1, r2, _⟩ := hs.objs.left ho hg
    rw [hg']
    have hcc : h = ob.contract ↔ h' = ob'.contract := hs.cons.eq_iff ⟨C, hc⟩ ⟨D, r1⟩
    rcases bindIdx_agree hcc r2 n with ⟨t', i, j, z1, z2, z3, z4, z5⟩ | z
    · left
      refine ⟨i, j, z4, z5, rfl, ?_⟩
      rw [hs.ty C D h h' ob'.contract hc (z1 ▸ r1)] at ht
      rw [ht] at z2; cases z2; exact z3
    · exact .inr z

theorem bindChannel_agree {S : Scope} {N : Names} {b b' : Baseline} {e e' : Env} (hs : PairedOn S N b b') (he : RelEnv N e e') {C : ContractTy} {h h' : Idx}
    (hc : N.con C h h') {o o' : Idx} (ho : N.obj o o') {n : Nat} {t : PropType} (ht : C.channelTypes[n]? = some t) :
    Agree S N b' ((returned (b.bindChannel ⟨n, h⟩ o) (Held.channel t) e).1, (returned (b.bindChannel ⟨n, h⟩ o) (Held.channel t) e).2, b)
      ((returned (b'.bindChannel ⟨n, h'⟩ o') (Held.channel t) e').1, (returned (b'.bindChannel ⟨n, h'⟩ o') (Held.channel t) e').2, b') := by
  refine returned_agree hs he ?_
  unfold Baseline.bindChannel
  cases hg : b.objects.get o with
  | none => rw [hs.objs.none ho hg]; exact .inr ⟨_, rfl, rfl⟩
  | some ob =>
    obtain ⟨ob', hg', _, D, r1, _, r2⟩ := hs.objs.left ho hg
    rw [hg']
    have hcc : h = ob.contract ↔ h' = ob'.contract := hs.cons.eq_iff ⟨C, hc⟩ ⟨D, r1⟩
    rcases bindIdx_agree hcc r2 n with ⟨t', i, j, z1, z2, z3, z4, z5⟩ | z
    · left
      refine ⟨i, j, z4, z5, rfl, ?_⟩
      rw [hs.ty C D h h' ob'.contract hc (z1 ▸ r1)] at ht
      rw [ht] at z2; cases z2; exact z3
    · exact .inr z

theorem get_agree {F : PropType → Type} {r : PropType → Idx → Idx → Prop} {R : (t : PropType) → F t → F t → Prop} {s s' : Store F}
    (h : StoreMatched r R s s') {t : PropType} {i j : Idx} (hr : r t i j) : Option.Rel (R t) (s.get t i) (s'.get t j) := by
  rw [Store.get_eq, Store.get_eq]
  cases hg : (s.arenaOf t).get i with
  | none => rw [(h t).none hr hg]; exact .none
  | some v => obtain ⟨w, g, z⟩ := (h t).left hr hg; rw [g]; exact .some z

theorem write_agree {F : PropType → Type} {r : PropType → Idx → Idx → Prop} {R : (t : PropType) → F t → F t → Prop} {s s' : Store F}
    (h : StoreMatched r R s s') {t : PropType} {i j : Idx} (hr : r t i j) {v w : F t} (hv : R t v w) :
    Option.Rel (StoreMatched r R) (s.write t i v) (s'.write t j w) := by
  have hg := get_agree h hr
  cases h1 : s.write t i v with
  | none =>
    rw [write_eq_none.1 h1] at hg
    cases h2 : s'.get t j with
    | none => rw [write_eq_none.2 h2]; exact .none
    | some w => rw [h2] at hg; cases hg
  | some s1 =>
    cases h2 : s'.write t j w with
    | some s2 => exact .some (h.write hr hv h1 h2)
    | none =>
      rw [write_eq_none.1 h2] at hg
      cases h3 : s.get t i with
      | none => rw [write_eq_none.2 h3] at h1; cases h1
      | some w => rw [h3] at hg; cases hg

theorem setWarp_agree {S : Scope} {N : Names} {b b' : Baseline} {e e' : Env} (hs : PairedOn S N b b') (he : RelEnv N e e') {o o' : Idx} (ho : N.obj o o') (w : TimeWarp) :
    Agree S N b' (.result (b.setWarp o w).2, e, (b.setWarp o w).1) (.result (b'.setWarp o' w).2, e', (b'.setWarp o' w).1) := by
  unfold setWarp
  cases hg : b.objects.get o with
  | none =>
    have hg' := hs.objs.none ho hg
    rw [modify_eq_none.2 hg, modify_eq_none.2 hg']
    exact agree_same hs he _
  | some ob =>
    obtain ⟨ob', hg', hob⟩ := hs.objs.left ho hg
    obtain ⟨a, m1⟩ := modify_isSome hg (fun ob => { ob with warp := w })
    obtain ⟨a', m2⟩ := modify_isSome hg' (fun ob => { ob with warp := w })
    rw [m1, m2]
    refine ⟨rfl, fun _ => ⟨N, .refl _ N, ?_, he⟩⟩
    refine ⟨hs.kind, hs.cons, hs.ty, hs.conL, hs.conR, hs.objs.modify ho m1 m2 fun v w _ _ z => ⟨rfl, z.2⟩, ?_, ?_, hs.sts, hs.chs⟩
    · intro i v g hw
      have g : a.get i = some v := g
      by_cases ei : i = o
      · exact ⟨o', ei ▸ ho⟩
      · rw [get_modify m1, if_neg ei] at g; exact hs.objL i v g hw
    · intro i v g hw
      have g : a'.get i = some v := g
      by_cases ei : i = o'
      · exact ⟨o, ei ▸ ho⟩
      · rw [get_modify m2, if_neg ei] at g; exact hs.objR i v g hw

theorem same_rel {S : Scope} {N : Names} {b b' : Baseline} (hs : PairedOn S N b b') {x x' y y' : Held} (hx : RelHeld N x x') (hy : RelHeld N y y') :
    x.same y = x'.same y' := by
  cases x <;> cases x' <;> first | exact hx.elim | skip
  all_goals cases y <;> cases y' <;> first | exact hy.elim | rfl | skip
  · simp only [Held.same, hs.cons.eq_iff hx hy]
  · simp only [Held.same, hs.objs.eq_iff hx hy]
  · obtain ⟨rfl, hx⟩ := hx
    obtain ⟨rfl, hy⟩ := hy
    simp only [Held.same]
    split
    · rename_i et; subst et; simp only [(hs.sts _).eq_iff hx hy]
    · rfl
  · obtain ⟨rfl, hx⟩ := hx
    obtain ⟨rfl, hy⟩ := hy
    simp only [Held.same]
    split
    · rename_i et; subst et; simp only [(hs.chs _).eq_iff hx hy]
    · rfl

theorem keep_rel {N : Names} {e e' : Env} (he : RelEnv N e e') (xs : List Nat) : RelEnv N (xs.filterMap fun k => e[k]?) (xs.filterMap fun k => e'[k]?) := by
  induction xs with
  | nil => exact .nil
  | cons k ks ih =>
    have := he.get k
    cases h1 : e[k]? with
    | none =>
      cases h2 : e'[k]? with
      | none => simpa only [List.filterMap_cons, h1, h2] using ih
      | some y => rw [h1, h2] at this; cases this
    | some x =>
      cases h2 : e'[k]? with
      | none => rw [h1, h2] at this; cases this
      | some y =>
        rw [h1, h2] at this
        cases this with
        | some hr => simp only [List.filterMap_cons, h1, h2]; exact .cons hr ih

/-- The two variables hold corresponding things, or neither exists. -/
theorem RelEnv.cases {N : Names} {e e' : Env} (he : RelEnv N e e') (k : Nat) :
    (e[k]? = none ∧ e'[k]? = none) ∨ (∃ C h h', e[k]? = some (.inst C h) ∧ e'[k]? = some (.inst C h') ∧ N.con C h h') ∨
      (∃ h h', e[k]? = some (.con h) ∧ e'[k]? = some (.con h') ∧ ∃ C, N.con C h h') ∨
      (∃ o o', e[k]? = some (.obj o) ∧ e'[k]? = some (.obj o') ∧ N.obj o o') ∨
      (∃ t i j, e[k]? = some (.state t i) ∧ e'[k]? = some (.state t j) ∧ N.st t i j) ∨
      ∃ t i j, e[k]? = some (.channel t i) ∧ e'[k]? = some (.channel t j) ∧ N.ch t i j := by
  have := he.get k
  revert this
  generalize e[k]? = x; generalize e'[k]? = y
  intro h
  cases h with
  | none => exact .inl ⟨rfl, rfl⟩
  | @some p q hr =>
    right
    cases p <;> cases q <;> first | exact hr.elim | skip
    · obtain ⟨rfl, hr⟩ := hr; exact .inl ⟨_, _, _, rfl, rfl, hr⟩
    · exact .inr (.inl ⟨_, _, rfl, rfl, hr⟩)
    · exact .inr (.inr (.inl ⟨_, _, rfl, rfl, hr⟩))
    · obtain ⟨rfl, hr⟩ := hr; exact .inr (.inr (.inr (.inl ⟨_, _, _, rfl, rfl, hr⟩)))
    · obtain ⟨rfl, hr⟩ := hr; exact .inr (.inr (.inr (.inr ⟨_, _, _, rfl, rfl, hr⟩)))

theorem optRel_cases {α β : Type} {R : α → β → Prop} {x : Option α} {y : Option β} (h : Option.Rel R x y) :
    (x = none ∧ y = none) ∨ ∃ v w, x = some v ∧ y = some w ∧ R v w := by
  cases h with
  | none => exact .inl ⟨rfl, rfl⟩
  | some h => exact .inr ⟨_, _, rfl, rfl, h⟩

theorem step_agree_on {S : Scope} {N : Names} {b b' : Baseline} {e e' : Env} (hs : PairedOn S N b b') (he : RelEnv N e e') (ord ord' : HashOrder) (i : Instr)
    (hreg : ∀ C : ContractTy, i = .register C → S.own C.id) (hcnt : i = .countObjects → S.all) :
    Agree S N b' (i.step ord e b) (i.step ord' e' b') := by
  cases i with
  | register C => exact register_agree hs he ord ord' C (hreg C rfl)
  | unregister C k =>
    rcases he.cases k with ⟨h1, h2⟩ | ⟨C', h, h', h1, h2, hr⟩ | ⟨h, h', h1, h2, hr⟩ | ⟨o, o', h1, h2, hr⟩ | ⟨t, i, j, h1, h2, hr⟩ | ⟨t, i, j, h1, h2, hr⟩ <;>
      simp only [Instr.step, h1, h2]
    case inr.inr.inl => exact unregister_agree hs he ord ord' C hr
    all_goals exact agree_same hs he _
  | handle k =>
    rcases he.cases k with ⟨h1, h2⟩ | ⟨C', h, h', h1, h2, hr⟩ | ⟨h, h', h1, h2, hr⟩ | ⟨o, o', h1, h2, hr⟩ | ⟨t, i, j, h1, h2, hr⟩ | ⟨t, i, j, h1, h2, hr⟩ <;>
      simp only [Instr.step, h1, h2]
    case inr.inl => exact ⟨rfl, fun _ => ⟨N, .refl _ N, hs, he.push ⟨C', hr⟩⟩⟩
    all_goals exact agree_same hs he _
  | create k ss cs =>
    rcases he.cases k with ⟨h1, h2⟩ | ⟨C', h, h', h1, h2, hr⟩ | ⟨h, h', h1, h2, hr⟩ | ⟨o, o', h1, h2, hr⟩ | ⟨t, i, j, h1, h2, hr⟩ | ⟨t, i, j, h1, h2, hr⟩ <;>
      simp only [Instr.step, h1, h2]
    case inr.inl =>
      rcases optRel_cases (evalProps_rel he ss) with ⟨v1, v2⟩ | ⟨v, w, v1, v2, v3⟩
      · simp only [v1, v2]; exact agree_same hs he _
      · rcases optRel_cases (evalChans_rel he cs) with ⟨w1, w2⟩ | ⟨v', w', w1, w2, w3⟩
        · simp only [v1, v2, w1, w2]; exact agree_same hs he _
        · simp only [v1, v2, w1, w2]; exact create_agree hs he hr v3 w3
    all_goals exact agree_same hs he _
  | remove C k =>
    rcases he.cases k with ⟨h1, h2⟩ | ⟨C', h, h', h1, h2, hr⟩ | ⟨h, h', h1, h2, hr⟩ | ⟨o, o', h1, h2, hr⟩ | ⟨t, i, j, h1, h2, hr⟩ | ⟨t, i, j, h1, h2, hr⟩ <;>
      simp only [Instr.step, h1, h2]
    case inr.inr.inr.inl => exact remove_agree hs he C hr
    all_goals exact agree_same hs he _
  | bindState k n ko =>
    rcases he.cases k with ⟨h1, h2⟩ | ⟨C', h, h', h1, h2, hr⟩ | ⟨h, h', h1, h2, hr⟩ | ⟨o, o', h1, h2, hr⟩ | ⟨t, i, j, h1, h2, hr⟩ | ⟨t, i, j, h1, h2, hr⟩ <;>
      simp only [Instr.step, h1, h2]
    case inr.inl =>
      rcases he.cases ko with ⟨g1, g2⟩ | ⟨C1, g, g', g1, g2, gr⟩ | ⟨g, g', g1, g2, gr⟩ | ⟨o, o', g1, g2, gr⟩ | ⟨t, i, j, g1, g2, gr⟩ | ⟨t, i, j, g1, g2, gr⟩ <;>
        simp only [g1, g2]
      case inr.inr.inr.inl =>
        unfold ContractTy.stateId
        cases ht : C'.stateTypes[n]? with
        | none => exact agree_same hs he _
        | some t => exact bindState_agree hs he hr gr ht
      all_goals exact agree_same hs he _
    all_goals exact agree_same hs he _
  | bindChannel k n ko =>
    rcases he.cases k with ⟨h1, h2⟩ | ⟨C', h, h', h1, h2, hr⟩ | ⟨h, h', h1, h2, hr⟩ | ⟨o, o', h1, h2, hr⟩ | ⟨t, i, j, h1, h2, hr⟩ | ⟨t, i, j, h1, h2, hr⟩ <;>
      simp only [Instr.step, h1, h2]
    case inr.inl =>
      rcases he.cases ko with ⟨g1, g2⟩ | ⟨C1, g, g', g1, g2, gr⟩ | ⟨g, g', g1, g2, gr⟩ | ⟨o, o', g1, g2, gr⟩ | ⟨t, i, j, g1, g2, gr⟩ | ⟨t, i, j, g1, g2, gr⟩ <;>
        simp only [g1, g2]
      case inr.inr.inr.inl =>
        unfold ContractTy.chanId
        cases ht : C'.channelTypes[n]? with
        | none => exact agree_same hs he _
        | some t => exact bindChannel_agree hs he hr gr ht
      all_goals exact agree_same hs he _
    all_goals exact agree_same hs he _
  | readState k =>
    rcases he.cases k with ⟨h1, h2⟩ | ⟨C', h, h', h1, h2, hr⟩ | ⟨h, h', h1, h2, hr⟩ | ⟨o, o', h1, h2, hr⟩ | ⟨t, i, j, h1, h2, hr⟩ | ⟨t, i, j, h1, h2, hr⟩ <;>
      simp only [Instr.step, h1, h2]
    case inr.inr.inr.inr.inl =>
      unfold Baseline.state
      rcases optRel_cases (get_agree hs.sts hr) with ⟨v1, v2⟩ | ⟨v, w, v1, v2, v3⟩
      · simp only [v1, v2]; exact agree_same hs he _
      · simp only [v1, v2]
        obtain ⟨z1, z2⟩ := receiveVal_rel t e e' he v3
        exact ⟨congrArg (Seen.value t) z1, fun _ => ⟨N, .refl _ N, hs, z2⟩⟩
    all_goals exact agree_same hs he _
  | writeState k x =>
    rcases he.cases k with ⟨h1, h2⟩ | ⟨C', h, h', h1, h2, hr⟩ | ⟨h, h', h1, h2, hr⟩ | ⟨o, o', h1, h2, hr⟩ | ⟨t, i, j, h1, h2, hr⟩ | ⟨t, i, j, h1, h2, hr⟩ <;>
      simp only [Instr.step, h1, h2]
    case inr.inr.inr.inr.inl =>
      obtain ⟨tx, x⟩ := x
      rcases optRel_cases (evalVal_rel he tx x) with ⟨v1, v2⟩ | ⟨v, w, v1, v2, v3⟩
      · simp only [v1, v2]; exact agree_same hs he _
      · simp only [v1, v2]
        by_cases et : tx = t
        · subst et
          simp only [dif_pos]
          unfold Baseline.stateWrite
          rcases optRel_cases (write_agree hs.sts hr v3) with ⟨w1, w2⟩ | ⟨s1, s2, w1, w2, w3⟩
          · simp only [w1, w2]; exact agree_same hs he _
          · simp only [w1, w2]
            exact ⟨rfl, fun _ => ⟨N, .refl _ N, ⟨hs.kind, hs.cons, hs.ty, hs.conL, hs.conR, hs.objs, hs.objL, hs.objR, w3, hs.chs⟩, he⟩⟩
        · simp only [dif_neg et]; exact agree_same hs he _
    all_goals exact agree_same hs he _
  | readChannel k =>
    rcases he.cases k with ⟨h1, h2⟩ | ⟨C', h, h', h1, h2, hr⟩ | ⟨h, h', h1, h2, hr⟩ | ⟨o, o', h1, h2, hr⟩ | ⟨t, i, j, h1, h2, hr⟩ | ⟨t, i, j, h1, h2, hr⟩ <;>
      simp only [Instr.step, h1, h2]
    case inr.inr.inr.inr.inr =>
      unfold Baseline.channel
      rcases optRel_cases (get_agree hs.chs hr) with ⟨v1, v2⟩ | ⟨v, w, v1, v2, v3⟩
      · simp only [v1, v2]; exact agree_same hs he _
      · simp only [v1, v2]
        obtain ⟨z1, z2⟩ := receiveChan_rel t e e' he v3
        exact ⟨congrArg (Seen.channel t) z1, fun _ => ⟨N, .refl _ N, hs, z2⟩⟩
    all_goals exact agree_same hs he _
  | writeChannel k x =>
    rcases he.cases k with ⟨h1, h2⟩ | ⟨C', h, h', h1, h2, hr⟩ | ⟨h, h', h1, h2, hr⟩ | ⟨o, o', h1, h2, hr⟩ | ⟨t, i, j, h1, h2, hr⟩ | ⟨t, i, j, h1, h2, hr⟩ <;>
      simp only [Instr.step, h1, h2]
    case inr.inr.inr.inr.inr =>
      obtain ⟨tx, x⟩ := x
      rcases optRel_cases (evalChan_rel he tx x) with ⟨v1, v2⟩ | ⟨v, w, v1, v2, v3⟩
      · simp only [v1, v2]; exact agree_same hs he _
      · simp only [v1, v2]
        by_cases et : tx = t
        · subst et
          simp only [dif_pos]
          unfold Baseline.channelWrite
          rcases optRel_cases (write_agree hs.chs hr v3) with ⟨w1, w2⟩ | ⟨s1, s2, w1, w2, w3⟩
          · simp only [w1, w2]; exact agree_same hs he _
          · simp only [w1, w2]
            exact ⟨rfl, fun _ => ⟨N, .refl _ N, ⟨hs.kind, hs.cons, hs.ty, hs.conL, hs.conR, hs.objs, hs.objL, hs.objR, hs.sts, w3⟩, he⟩⟩
        · simp only [dif_neg et]; exact agree_same hs he _
    all_goals exact agree_same hs he _
  | warp k =>
    rcases he.cases k with ⟨h1, h2⟩ | ⟨C', h, h', h1, h2, hr⟩ | ⟨h, h', h1, h2, hr⟩ | ⟨o, o', h1, h2, hr⟩ | ⟨t, i, j, h1, h2, hr⟩ | ⟨t, i, j, h1, h2, hr⟩ <;>
      simp only [Instr.step, h1, h2]
    case inr.inr.inr.inl =>
      unfold Baseline.object
      cases hg : b.objects.get o with
      | none => simp only [hs.objs.none hr hg]; exact agree_same hs he _
      | some ob =>
        obtain ⟨ob', hg', hob⟩ := hs.objs.left hr hg
        simp only [hg', hob.1]; exact agree_same hs he _
    all_goals exact agree_same hs he _
  | setWarp k w =>
    rcases he.cases k with ⟨h1, h2⟩ | ⟨C', h, h', h1, h2, hr⟩ | ⟨h, h', h1, h2, hr⟩ | ⟨o, o', h1, h2, hr⟩ | ⟨t, i, j, h1, h2, hr⟩ | ⟨t, i, j, h1, h2, hr⟩ <;>
      simp only [Instr.step, h1, h2]
    case inr.inr.inr.inl => exact setWarp_agree hs he hr w
    all_goals exact agree_same hs he _
  | contractOf k =>
    rcases he.cases k with ⟨h1, h2⟩ | ⟨C', h, h', h1, h2, hr⟩ | ⟨h, h', h1, h2, hr⟩ | ⟨o, o', h1, h2, hr⟩ | ⟨t, i, j, h1, h2, hr⟩ | ⟨t, i, j, h1, h2, hr⟩ <;>
      simp only [Instr.step, h1, h2]
    case inr.inr.inr.inl =>
      refine returned_agree hs he ?_
      unfold Baseline.object
      cases hg : b.objects.get o with
      | none => rw [hs.objs.none hr hg]; exact .inr ⟨_, rfl, rfl⟩
      | some ob =>
        obtain ⟨ob', hg', _, D, hD, _⟩ := hs.objs.left hr hg
        rw [hg']; exact .inl ⟨ob, ob', rfl, rfl, D, hD⟩
    all_goals exact agree_same hs he _
  | describe k =>
    rcases he.cases k with ⟨h1, h2⟩ | ⟨C', h, h', h1, h2, hr⟩ | ⟨h, h', h1, h2, hr⟩ | ⟨o, o', h1, h2, hr⟩ | ⟨t, i, j, h1, h2, hr⟩ | ⟨t, i, j, h1, h2, hr⟩ <;>
      simp only [Instr.step, h1, h2]
    case inr.inr.inl =>
      unfold Baseline.contractData
      cases hg : b.contracts.get h with
      | none => simp only [hs.cons.none hr hg]; exact agree_same hs he _
      | some cd =>
        obtain ⟨cd', hg', hd⟩ := hs.cons.left hr hg
        simp only [hg', hd.1, RelData.length hs hd]; exact agree_same hs he _
    all_goals exact agree_same hs he _
  | lists k ko =>
    rcases he.cases k with ⟨h1, h2⟩ | ⟨C', h, h', h1, h2, hr⟩ | ⟨h, h', h1, h2, hr⟩ | ⟨o, o', h1, h2, hr⟩ | ⟨t, i, j, h1, h2, hr⟩ | ⟨t, i, j, h1, h2, hr⟩ <;>
      simp only [Instr.step, h1, h2]
    case inr.inr.inl =>
      rcases he.cases ko with ⟨g1, g2⟩ | ⟨C1, g, g', g1, g2, gr⟩ | ⟨g, g', g1, g2, gr⟩ | ⟨o, o', g1, g2, gr⟩ | ⟨t, i, j, g1, g2, gr⟩ | ⟨t, i, j, g1, g2, gr⟩ <;>
        simp only [g1, g2]
      case inr.inr.inr.inl =>
        unfold Baseline.contractData
        cases hg : b.contracts.get h with
        | none => simp only [hs.cons.none hr hg]; exact agree_same hs he _
        | some cd =>
          obtain ⟨cd', hg', hd⟩ := hs.cons.left hr hg
          have : o ∈ cd.objects ↔ o' ∈ cd'.objects := by
            constructor
            · intro hi
              obtain ⟨j', z1, z2⟩ := hd.2.2.2.1 o hi
              exact hs.objs.det o o' j' gr z2 ▸ z1
            · intro hj
              obtain ⟨i', z1, z2⟩ := hd.2.2.2.2 o' hj
              exact hs.objs.inj o i' o' gr z2 ▸ z1
          simp only [hg', this]; exact agree_same hs he _
      all_goals exact agree_same hs he _
    all_goals exact agree_same hs he _
  | countObjects => simp only [Instr.step, hs.count (hcnt rfl)]; exact agree_same hs he _
  | kind => simp only [Instr.step, hs.kind]; exact agree_same hs he _
  | same x y =>
    simp only [Instr.step]
    rcases optRel_cases (he.get x) with ⟨h1, h2⟩ | ⟨p, p', h1, h2, hp⟩
    · simp only [h1, h2]; exact agree_same hs he _
    · rcases optRel_cases (he.get y) with ⟨g1, g2⟩ | ⟨q, q', g1, g2, hq⟩
      · simp only [h1, h2, g1, g2]; exact agree_same hs he _
      · simp only [h1, h2, g1, g2, same_rel hs hp hq]
        split <;> exact agree_same hs he _
  | keep xs => exact ⟨rfl, fun _ => ⟨N, .refl _ N, hs, keep_rel he xs⟩⟩

theorem step_agree {N : Names} {b b' : Baseline} {e e' : Env} (hs : Paired N b b') (he : RelEnv N e e') (ord ord' : HashOrder) (i : Instr) :
    Agree .whole N b' (i.step ord e b) (i.step ord' e' b') := step_agree_on hs he ord ord' i (fun _ _ => trivial) (fun _ => trivial)

/-- The states at the end of a program, if it got there. -/
def AgreeFin (S : Scope) (N : Names) : Option (Env × Baseline) → Option (Env × Baseline) → Prop :=
  Option.Rel fun x y => ∃ N' : Names, N.Le N' ∧ PairedOn S N' x.2 y.2 ∧ RelEnv N' x.1 y.1

theorem run_agree_on {S : Scope} (is : List Instr) : (∀ C : ContractTy, Instr.register C ∈ is → S.own C.id) → (Instr.countObjects ∈ is → S.all) →
    ∀ {N : Names} {b b' : Baseline} {e e' : Env}, PairedOn S N b b' → RelEnv N e e' → ∀ ords ords' : Nat → HashOrder,
    (runProg is ords e b).1 = (runProg is ords' e' b').1 ∧ AgreeFin S N (runProg is ords e b).2 (runProg is ords' e' b').2 := by
  induction is with
  | nil => intro _ _ N b b' e e' hs he ords ords'; exact ⟨rfl, .some ⟨N, .refl N, hs, he⟩⟩
  | cons i is ih =>
    intro hreg hcnt N b b' e e' hs he ords ords'
    obtain ⟨h1, h2⟩ := step_agree_on hs he (ords 0) (ords' 0) i (fun C h => hreg C (h ▸ List.mem_cons_self)) (fun h => hcnt (h ▸ List.mem_cons_self))
    simp only [runProg]
    rw [← h1]
    by_cases hp : (i.step (ords 0) e b).1.isPanic = true
    · rw [if_pos hp, if_pos hp]; exact ⟨rfl, .none⟩
    · rw [if_neg hp, if_neg hp]
      obtain ⟨N', le, hs', he'⟩ := h2 (by simpa using hp)
      obtain ⟨h3, h4⟩ := ih (fun C h => hreg C (List.mem_cons_of_mem _ h)) (fun h => hcnt (List.mem_cons_of_mem _ h)) hs' he'
        (fun k => ords (k + 1)) (fun k => ords' (k + 1))
      refine ⟨congrArg (List.cons _) h3, ?_⟩
      show AgreeFin S N _ _
      rcases optRel_cases h4 with ⟨v1, v2⟩ | ⟨v, w, v1, v2, N2, z1, z2⟩
      · rw [v1, v2]; exact .none
      · rw [v1, v2]; exact .some ⟨N2, le.le.trans z1, z2⟩

theorem run_agree (is : List Instr) {N : Names} {b b' : Baseline} {e e' : Env} (hs : Paired N b b') (he : RelEnv N e e') (ords ords' : Nat → HashOrder) :
    (runProg is ords e b).1 = (runProg is ords' e' b').1 ∧ AgreeFin .whole N (runProg is ords e b).2 (runProg is ords' e' b').2 :=
  run_agree_on is (fun _ _ => trivial) (fun _ => trivial) hs he ords ords'

theorem sim_indistinguishable {N : Names} {b b' : Baseline} {e e' : Env} (hs : Paired N b b') (he : RelEnv N e e') : Indistinguishable e b e' b' :=
  fun is ords ords' => (run_agree is hs he ords ords').1

end Verif
