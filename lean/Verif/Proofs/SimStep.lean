import Verif.Proofs.Sim
/-! # Every call keeps a correspondence -/
namespace Verif
open Arena Store Baseline Spec

/-- `N'` has all pairs of `N`; the others are of handles that the second baseline had not given out before. -/
structure Names.Grow (b' : Baseline) (N N' : Names) : Prop where
  le : N.Le N'
  con : ∀ (C : ContractTy) (i j : Idx), N'.con C i j → N.con C i j ∨ New b'.contracts j
  obj : ∀ i j : Idx, N'.obj i j → N.obj i j ∨ New b'.objects j
  st : ∀ (t : PropType) (i j : Idx), N'.st t i j → N.st t i j ∨ New (b'.states.arenaOf t) j
  ch : ∀ (t : PropType) (i j : Idx), N'.ch t i j → N.ch t i j ∨ New (b'.channels.arenaOf t) j

theorem Names.Grow.refl (b' : Baseline) (N : Names) : N.Grow b' N :=
  ⟨.refl N, fun _ _ _ h => .inl h, fun _ _ h => .inl h, fun _ _ _ h => .inl h, fun _ _ _ h => .inl h⟩

/-- The same is seen, and (unless it is a panic) the correspondence goes on.  `d` is the second baseline before the call. -/
def Agree (S : Scope) (N : Names) (d : Baseline) (x y : Seen × Env × Baseline) : Prop :=
  x.1 = y.1 ∧ (x.1.isPanic = false → ∃ N' : Names, N.Grow d N' ∧ PairedOn S N' x.2.2 y.2.2 ∧ RelEnv N' x.2.1 y.2.1)

theorem agree_same {S : Scope} {N : Names} {b b' : Baseline} {e e' : Env} (hs : PairedOn S N b b') (he : RelEnv N e e') (s : Seen) :
    Agree S N b' (s, e, b) (s, e', b') :=
  ⟨rfl, fun _ => ⟨N, .refl _ N, hs, he⟩⟩

/-! ## The object arena and the contract arena -/

/-- Two lists without repetition that correspond one to one have the same length. -/
theorem length_of_rel {r : Idx → Idx → Prop} (inj : ∀ i i' j : Idx, r i j → r i' j → i = i') {l l' : List Idx} (hn : l.Nodup)
    (h : ∀ i ∈ l, ∃ j ∈ l', r i j) : l.length ≤ l'.length := by
  induction l generalizing l' with
  | nil => exact Nat.zero_le _
  | cons x xs ih =>
    obtain ⟨hx, hn⟩ := List.nodup_cons.1 hn
    obtain ⟨j, hj, hr⟩ := h x List.mem_cons_self
    have := ih (l' := l'.erase j) hn (fun i hi => by
      obtain ⟨j', hj', hr'⟩ := h i (List.mem_cons_of_mem _ hi)
      refine ⟨j', (List.mem_erase_of_ne ?_).2 hj', hr'⟩
      rintro rfl
      exact hx (inj x i j' hr hr' ▸ hi))
    rw [List.length_erase_of_mem hj] at this
    have := List.length_pos_of_mem hj
    simp only [List.length_cons]; omega

theorem RelData.length {S : Scope} {N : Names} {b b' : Baseline} (hs : PairedOn S N b b') {cd cd' : ContractData} (h : RelData N cd cd') :
    cd.objects.length = cd'.objects.length := by
  refine Nat.le_antisymm (length_of_rel (r := N.obj) hs.objs.inj h.2.1 h.2.2.2.1) ?_
  exact length_of_rel (r := fun i j => N.obj j i) (fun i i' j h1 h2 => hs.objs.det j i i' h1 h2) h.2.2.1 h.2.2.2.2

theorem PairedOn.count {S : Scope} {N : Names} {b b' : Baseline} (hs : PairedOn S N b b') (ha : S.all) : b.iterObjects.length = b'.iterObjects.length := by
  have key : ∀ {a a' : Arena ObjectD} {r : Idx → Idx → Prop}, (∀ i i' j : Idx, r i j → r i' j → i = i') →
      (∀ (i : Idx) (v : ObjectD), a.get i = some v → ∃ j w, a'.get j = some w ∧ r i j) → a.iter.length ≤ a'.iter.length := by
    intro a a' r inj h
    have := length_of_rel inj (iter_nodup a) (l' := a'.iter.map Prod.fst) (fun i hi => by
      obtain ⟨⟨i', v⟩, h1, rfl⟩ := List.mem_map.1 hi
      obtain ⟨j, w, h2, h3⟩ := h i' v (mem_iter.1 h1)
      exact ⟨j, List.mem_map.2 ⟨(j, w), mem_iter.2 h2, rfl⟩, h3⟩)
    simpa using this
  refine Nat.le_antisymm (key hs.objs.inj fun i v hv => ?_) (key (r := fun i j => N.obj j i) (fun i i' j h1 h2 => hs.objs.det j i i' h1 h2) fun i v hv => ?_)
  · obtain ⟨j, hj⟩ := hs.objL i v hv ha
    obtain ⟨w, hw, _⟩ := hs.objs.left hj hv
    exact ⟨j, w, hw, hj⟩
  · obtain ⟨j, hj⟩ := hs.objR i v hv ha
    obtain ⟨w, hw, _⟩ := hs.objs.right hj hv
    exact ⟨j, w, hw, hj⟩

/-- The correspondence with a new pair of contracts. -/
def Names.withCon (N : Names) (C : ContractTy) (h h' : Idx) : Names :=
  { N with con := fun D i j => N.con D i j ∨ (D = C ∧ i = h ∧ j = h') }

theorem Names.withCon_le (N : Names) (C : ContractTy) (h h' : Idx) : N.Le (N.withCon C h h') :=
  ⟨fun _ _ _ x => .inl x, fun _ _ x => x, fun _ _ _ x => x, fun _ _ _ x => x⟩

/-- The correspondence with a new pair of objects and more pairs of states and channels. -/
def Names.withObj (N : Names) (o o' : Idx) (st ch : PropType → Idx → Idx → Prop) : Names :=
  ⟨N.con, fun i j => N.obj i j ∨ (i = o ∧ j = o'), st, ch⟩

theorem Names.withObj_le (N : Names) (o o' : Idx) {st ch : PropType → Idx → Idx → Prop}
    (h1 : ∀ (t : PropType) (i j : Idx), N.st t i j → st t i j) (h2 : ∀ (t : PropType) (i j : Idx), N.ch t i j → ch t i j) :
    N.Le (N.withObj o o' st ch) := ⟨fun _ _ _ x => x, fun _ _ x => .inl x, h1, h2⟩

/-- The part of `Paired` about objects and fields, with more names. -/
theorem PairedOn.rest {S : Scope} {N N' : Names} {b b' : Baseline} (hs : PairedOn S N b b') (h : N.Le N') (h1 : N'.st = N.st) (h2 : N'.ch = N.ch) :
    StoreMatched N'.st (RelVal N') b.states b'.states ∧ StoreMatched N'.ch (RelChan N') b.channels b'.channels := by
  rw [h1, h2]
  exact ⟨fun t => (hs.sts t).mono fun _ _ x => RelVal.mono h t x, fun t => (hs.chs t).mono fun _ _ x => RelChan.mono h t x⟩

theorem register_agree {S : Scope} {N : Names} {b b' : Baseline} {e e' : Env} (hs : PairedOn S N b b') (he : RelEnv N e e') (ord ord' : HashOrder) (C : ContractTy)
    (hown : S.own C.id) :
    Agree S N b' (Instr.step ord e b (.register C)) (Instr.step ord' e' b' (.register C)) := by
  rcases registerContract_cases b C with ⟨⟨h, cd, hg, hid⟩, e1⟩ | ⟨hno, e1⟩
  · obtain ⟨D, h', hn⟩ := hs.conL h cd hg (hid ▸ hown)
    obtain ⟨cd', hg', hr⟩ := hs.cons.left ⟨D, hn⟩ hg
    rcases registerContract_cases b' C with ⟨_, e2⟩ | ⟨hno, _⟩
    · simp only [Instr.step, e1, e2, returned]
      exact agree_same hs he _
    · exact absurd (hr.1 ▸ hid) (hno h' cd' hg')
  · rcases registerContract_cases b' C with ⟨⟨h', cd', hg', hid⟩, _⟩ | ⟨_, e2⟩
    · obtain ⟨D, h, hn⟩ := hs.conR h' cd' hg' (hid ▸ hown)
      obtain ⟨cd, hg, hr⟩ := hs.cons.right ⟨D, hn⟩ hg'
      exact absurd (hr.1.trans hid) (hno h cd hg)
    · simp only [Instr.step, e1, e2, returned]
      refine ⟨rfl, fun _ => ?_⟩
      have hd : RelData N ⟨C.id, []⟩ ⟨C.id, []⟩ := ⟨rfl, List.nodup_nil, List.nodup_nil, fun o h => (by cases h), fun o h => (by cases h)⟩
      have hm := hs.cons.insert hd
      generalize hx : b.contracts.insert ⟨C.id, []⟩ = x at hm ⊢
      generalize hx' : b'.contracts.insert ⟨C.id, []⟩ = x' at hm ⊢
      have hle := N.withCon_le C x.2 x'.2
      have hgr : N.Grow b' (N.withCon C x.2 x'.2) := by
        refine ⟨hle, ?_, fun _ _ z => .inl z, fun _ _ _ z => .inl z, fun _ _ _ z => .inl z⟩
        rintro D i j (z | ⟨_, _, z⟩)
        · exact .inl z
        · right; rw [z, ← hx']; exact insert_new hs.cons.rinv _
      refine ⟨N.withCon C x.2 x'.2, hgr, ?_, (he.mono hle).push ⟨rfl, .inr ⟨rfl, rfl, rfl⟩⟩⟩
      obtain ⟨r1, r2⟩ := hs.rest hle rfl rfl
      refine ⟨hs.kind, (hm.mono fun _ _ z => RelData.mono hle z).congr fun i j => ?_, ?_, ?_, ?_,
        hs.objs.mono fun _ _ z => RelObj.mono hle z, hs.objL, hs.objR, r1, r2⟩
      · constructor
        · rintro (⟨D, z⟩ | ⟨z1, z2⟩)
          · exact ⟨D, .inl z⟩
          · exact ⟨C, .inr ⟨rfl, z1, z2⟩⟩
        · rintro ⟨D, z | ⟨_, z1, z2⟩⟩
          · exact .inl ⟨D, z⟩
          · exact .inr ⟨z1, z2⟩
      · rintro D D' i j j' (z | ⟨z1, z2, _⟩) (w | ⟨w1, w2, _⟩)
        · exact hs.ty D D' i j j' z w
        · exact absurd (w2.trans (congrArg Prod.snd hx.symm)) (hs.cons.ne_new ⟨D, z⟩ _)
        · exact absurd (z2.trans (congrArg Prod.snd hx.symm)) (hs.cons.ne_new ⟨D', w⟩ _)
        · rw [z1, w1]
      · intro i cd hg ho
        have hg : x.1.get i = some cd := hg
        by_cases ei : i = x.2
        · exact ⟨C, x'.2, .inr ⟨rfl, ei, rfl⟩⟩
        · rw [← hx, get_insert_ne hs.cons.linv _ (by rw [hx]; exact ei)] at hg
          obtain ⟨D, j, z⟩ := hs.conL i cd hg ho
          exact ⟨D, j, .inl z⟩
      · intro i cd hg ho
        have hg : x'.1.get i = some cd := hg
        by_cases ei : i = x'.2
        · exact ⟨C, x.2, .inr ⟨rfl, rfl, ei⟩⟩
        · rw [← hx', get_insert_ne hs.cons.rinv _ (by rw [hx']; exact ei)] at hg
          obtain ⟨D, j, z⟩ := hs.conR i cd hg ho
          exact ⟨D, j, .inl z⟩

/-! ## Creating objects -/

theorem checkTypes_seen {α : Type} (ty : α → PropType) (ps qs : List α) (ts : List PropType) (h : ps.map ty = qs.map ty) :
    (checkTypes ty ps ts).map (fun _ => ()) = (checkTypes ty qs ts).map (fun _ => ()) := by
  induction ps generalizing qs ts with
  | nil => cases qs with
    | nil => rfl
    | cons q qs => cases h
  | cons p ps ih => cases qs with
    | nil => cases h
    | cons q qs =>
      simp only [List.map_cons, List.cons.injEq] at h
      cases ts with
      | nil => rfl
      | cons t ts =>
        simp only [checkTypes, h.1]
        by_cases hq : ty q = t
        · rw [if_neg (not_not.2 hq), if_neg (not_not.2 hq)]
          have := ih qs ts h.2
          revert this
          generalize checkTypes ty ps ts = x; generalize checkTypes ty qs ts = y
          intro this
          cases x <;> cases y <;> simp_all [Outcome.map, Outcome.bind]
        · rw [if_pos hq, if_pos hq]

theorem contains_congr {α β : Type} {a : Arena α} {a' : Arena β} {i j : Idx} (h : (∃ v, a.get i = some v) ↔ ∃ v, a'.get j = some v) :
    a.contains i = a'.contains j := by
  rw [Bool.eq_iff_iff, contains_iff, contains_iff]; exact h

/-- Rejected creations are rejected with the same message. -/
theorem objectCreate_err_msg {b b' : Baseline} {C : ContractTy} {h h' : Idx} {ss ss' : List DynProp} {cs cs' : List DynChannel}
    (hc : b.contracts.contains h = b'.contracts.contains h') (hS : ss.map DynProp.propType = ss'.map DynProp.propType)
    (hC : cs.map Sigma.fst = cs'.map Sigma.fst)
    (hno : ¬ ((∃ cd, b.contracts.get h = some cd) ∧ ss.map DynProp.propType = C.stateTypes ∧ cs.map Sigma.fst = C.channelTypes)) :
    ∃ m : String, b.objectCreate C h ss cs = (b, .err m) ∧ b'.objectCreate C h' ss' cs' = (b', .err m) := by
  unfold objectCreate
  rw [← hc]
  by_cases h1 : b.contracts.contains h = true
  · rw [h1]
    simp only [Bool.not_true, Bool.false_eq_true, if_false]
    have e1 := checkTypes_seen DynProp.propType ss ss' C.stateTypes hS
    have n1 := checkTypes_no_panic DynProp.propType ss C.stateTypes
    have n1' := checkTypes_no_panic DynProp.propType ss' C.stateTypes
    have e2 := checkTypes_seen Sigma.fst cs cs' C.channelTypes hC
    have n2 := checkTypes_no_panic Sigma.fst cs C.channelTypes
    have n2' := checkTypes_no_panic Sigma.fst cs' C.channelTypes
    cases x1 : checkTypes DynProp.propType ss C.stateTypes with
    | panic m => exact absurd x1 (n1 m)
    | err m =>
      cases y1 : checkTypes DynProp.propType ss' C.stateTypes with
      | panic m => exact absurd y1 (n1' m)
      | ok v => rw [x1, y1] at e1; cases e1
      | err m' => rw [x1, y1] at e1; cases e1; exact ⟨m, rfl, rfl⟩
    | ok v =>
      cases y1 : checkTypes DynProp.propType ss' C.stateTypes with
      | panic m => exact absurd y1 (n1' m)
      | err m => rw [x1, y1] at e1; cases e1
      | ok w =>
        cases x2 : checkTypes Sigma.fst cs C.channelTypes with
        | panic m => exact absurd x2 (n2 m)
        | err m =>
          cases y2 : checkTypes Sigma.fst cs' C.channelTypes with
          | panic m => exact absurd y2 (n2' m)
          | ok v => rw [x2, y2] at e2; cases e2
          | err m' => rw [x2, y2] at e2; cases e2; exact ⟨m, rfl, rfl⟩
        | ok z =>
          refine absurd ⟨contains_iff.1 h1, ?_, ?_⟩ hno
          · exact (checkTypes_ok_iff _ _ _).1 ⟨v, x1⟩
          · exact (checkTypes_ok_iff _ _ _).1 ⟨z, x2⟩
  · have h1' : b.contracts.contains h = false := by simpa using h1
    rw [h1']
    exact ⟨_, rfl, rfl⟩

theorem relDyn_typed {N : Names} {ss ss' : List DynProp} (h : List.Forall₂ (RelDyn N) ss ss') :
    PropsMatched (RelVal N) (ss.map DynProp.typed) (ss'.map DynProp.typed) := by
  induction h with
  | nil => exact .nil
  | cons h _ ih =>
    obtain ⟨t, v, w, rfl, rfl, hr⟩ := h
    refine .cons ⟨t, v, w, ?_, ?_, hr⟩ ih <;> exact DynProp.typed_ofTyped t _

theorem create_agree {S : Scope} {N : Names} {b b' : Baseline} {e e' : Env} (hs : PairedOn S N b b') (he : RelEnv N e e') {C : ContractTy} {h h' : Idx}
    (hc : N.con C h h') {ss ss' : List DynProp} (hS : List.Forall₂ (RelDyn N) ss ss') {cs cs' : List DynChannel}
    (hC : List.Forall₂ (RelDynChan N) cs cs') :
    Agree S N b' ((returned (b.objectCreate C h ss cs).2 Held.obj e).1, (returned (b.objectCreate C h ss cs).2 Held.obj e).2, (b.objectCreate C h ss cs).1)
      ((returned (b'.objectCreate C h' ss' cs').2 Held.obj e').1, (returned (b'.objectCreate C h' ss' cs').2 Held.obj e').2,
        (b'.objectCreate C h' ss' cs').1) := by
  have pS := relDyn_typed hS
  have pC : PropsMatched (RelChan N) cs cs' := hC
  have tS : ss.map DynProp.propType = ss'.map DynProp.propType := by
    rw [← typed_map_fst, ← typed_map_fst]; exact pS.types
  have tC : cs.map Sigma.fst = cs'.map Sigma.fst := pC.types
  have live : (∃ cd, b.contracts.get h = some cd) ↔ ∃ cd, b'.contracts.get h' = some cd :=
    ⟨fun ⟨cd, hg⟩ => (hs.cons.left ⟨C, hc⟩ hg).imp fun _ x => x.1, fun ⟨cd, hg⟩ => (hs.cons.right ⟨C, hc⟩ hg).imp fun _ x => x.1⟩
  by_cases ok : (∃ cd, b.contracts.get h = some cd) ∧ ss.map DynProp.propType = C.stateTypes ∧ cs.map Sigma.fst = C.channelTypes
  · obtain ⟨⟨cd, hg⟩, o1, o2⟩ := ok
    obtain ⟨cd', hg', hd⟩ := hs.cons.left ⟨C, hc⟩ hg
    obtain ⟨cons, m1, e1⟩ := objectCreate_ok hg o1 o2
    obtain ⟨cons', m2, e2⟩ := objectCreate_ok hg' (tS ▸ o1) (tC ▸ o2)
    rw [e1, e2]
    refine ⟨rfl, fun _ => ?_⟩
    obtain ⟨st, s1, s0, s2, s3⟩ := hs.sts.createAll pS
    obtain ⟨ch, c1, c0, c2, c3⟩ := hs.chs.createAll pC
    rw [typed_map_fst, o1] at s3
    rw [o2] at c3
    -- the new objects correspond
    let N1 : Names := ⟨N.con, N.obj, st, ch⟩
    have le1 : N.Le N1 := ⟨fun _ _ _ x => x, fun _ _ x => x, s1, c1⟩
    have hob : RelObj N1 (createdObj b h ss cs) (createdObj b' h' ss' cs') := ⟨rfl, C, hc, s3, c3⟩
    have hm := (hs.objs.mono fun _ _ z => RelObj.mono le1 z).insert hob
    generalize hx : b.objects.insert (createdObj b h ss cs) = x at m1 hm ⊢
    generalize hx' : b'.objects.insert (createdObj b' h' ss' cs') = x' at m2 hm ⊢
    have hle := N.withObj_le x.2 x'.2 s1 c1
    have le2 : N1.Le (N.withObj x.2 x'.2 st ch) := ⟨fun _ _ _ z => z, fun _ _ z => .inl z, fun _ _ _ z => z, fun _ _ _ z => z⟩
    have hgr : N.Grow b' (N.withObj x.2 x'.2 st ch) := by
      refine ⟨hle, fun _ _ _ z => .inl z, ?_, s0, c0⟩
      rintro i j (z | ⟨_, z⟩)
      · exact .inl z
      · right; rw [z, ← hx']; exact insert_new hs.objs.rinv _
    refine ⟨N.withObj x.2 x'.2 st ch, hgr, ?_, (he.mono hle).push (.inr ⟨rfl, rfl⟩)⟩
    refine ⟨hs.kind, ?_, hs.ty, ?_, ?_, hm.mono fun _ _ z => RelObj.mono le2 z, ?_, ?_, fun t => (s2 t).mono fun _ _ z => RelVal.mono hle t z,
      fun t => (c2 t).mono fun _ _ z => RelChan.mono hle t z⟩
    · refine (hs.cons.mono fun _ _ z => RelData.mono hle z).modify ⟨C, hc⟩ m1 m2 fun v w _ _ z => ?_
      refine ⟨z.1, nodup_addObj z.2.1, nodup_addObj z.2.2.1, ?_, ?_⟩
      · intro o ho
        rcases List.mem_insert_iff.1 ho with rfl | ho
        · exact ⟨x'.2, List.mem_insert_self, .inr ⟨rfl, rfl⟩⟩
        · obtain ⟨o', z1, z2⟩ := z.2.2.2.1 o ho
          exact ⟨o', List.mem_insert_of_mem z1, z2⟩
      · intro o ho
        rcases List.mem_insert_iff.1 ho with rfl | ho
        · exact ⟨x.2, List.mem_insert_self, .inr ⟨rfl, rfl⟩⟩
        · obtain ⟨o', z1, z2⟩ := z.2.2.2.2 o ho
          exact ⟨o', List.mem_insert_of_mem z1, z2⟩
    · intro i cd0 g hw
      have g : cons.get i = some cd0 := g
      rw [get_modify m1] at g
      by_cases ei : i = h
      · exact ⟨C, h', ei ▸ hc⟩
      · rw [if_neg ei] at g; exact hs.conL i cd0 g hw
    · intro i cd0 g hw
      have g : cons'.get i = some cd0 := g
      rw [get_modify m2] at g
      by_cases ei : i = h'
      · exact ⟨C, h, ei ▸ hc⟩
      · rw [if_neg ei] at g; exact hs.conR i cd0 g hw
    · intro i ob g hw
      have g : x.1.get i = some ob := g
      by_cases ei : i = x.2
      · exact ⟨x'.2, .inr ⟨ei, rfl⟩⟩
      · rw [← hx, get_insert_ne hs.objs.linv _ (by rw [hx]; exact ei)] at g
        exact (hs.objL i ob g hw).imp fun _ z => .inl z
    · intro i ob g hw
      have g : x'.1.get i = some ob := g
      by_cases ei : i = x'.2
      · exact ⟨x.2, .inr ⟨rfl, ei⟩⟩
      · rw [← hx', get_insert_ne hs.objs.rinv _ (by rw [hx']; exact ei)] at g
        exact (hs.objR i ob g hw).imp fun _ z => .inl z
  · obtain ⟨m, e1, e2⟩ := objectCreate_err_msg (contains_congr live) tS tC ok
    rw [e1, e2]
    exact agree_same hs he _

/-! ## Removing -/

theorem PairedOn.removeObjects {S : Scope} {N : Names} {b b' : Baseline} (hs : PairedOn S N b b') {l l' : List Idx}
    (hl : ∀ i j : Idx, N.obj i j → (i ∈ l ↔ j ∈ l')) :
    PairedOn S N { b with objects := removeList b.objects l } { b' with objects := removeList b'.objects l' } := by
  refine ⟨hs.kind, hs.cons, hs.ty, hs.conL, hs.conR, hs.objs.removeList hl, ?_, ?_, hs.sts, hs.chs⟩
  · intro o ob g hw
    have g : (removeList b.objects l).get o = some ob := g
    rw [get_removeList] at g
    split at g
    · cases g
    · exact hs.objL o ob g hw
  · intro o ob g hw
    have g : (removeList b'.objects l').get o = some ob := g
    rw [get_removeList] at g
    split at g
    · cases g
    · exact hs.objR o ob g hw

theorem remove_agree {S : Scope} {N : Names} {b b' : Baseline} {e e' : Env} (hs : PairedOn S N b b') (he : RelEnv N e e') (C : ContractTy) {o o' : Idx}
    (ho : N.obj o o') : Agree S N b' (.result (b.objectRemove C o).2, e, (b.objectRemove C o).1) (.result (b'.objectRemove C o').2, e', (b'.objectRemove C o').1) := by
  cases hg : b.objects.get o with
  | none =>
    rw [objectRemove_none hg, objectRemove_none (hs.objs.none ho hg)]
    exact agree_same hs he _
  | some ob =>
    obtain ⟨ob', hg', _⟩ := hs.objs.left ho hg
    rw [objectRemove_some hg, objectRemove_some hg']
    refine ⟨rfl, fun _ => ⟨N, .refl _ N, ?_, he⟩⟩
    exact hs.removeObjects (l := [o]) (l' := [o']) (fun i j hr => by simp only [List.mem_singleton]; exact hs.objs.eq_iff hr ho)

theorem removeObjects_result (C : ContractTy) (os : List Idx) (b : Baseline) :
    (removeObjects C os b).2 = .ok () ∨ (removeObjects C os b).2 = .panic "failed to remove object" := by
  induction os generalizing b with
  | nil => exact .inl rfl
  | cons o os ih =>
    cases hg : b.objects.get o with
    | none => right; simp only [Baseline.removeObjects, objectRemove_none hg]
    | some ob =>
      simp only [Baseline.removeObjects, objectRemove_some hg]
      by_cases hn : C.NoFields
      · simp only [if_pos hn]; exact ih _
      · right; simp only [if_neg hn]

theorem unregister_agree {S : Scope} {N : Names} {b b' : Baseline} {e e' : Env} (hs : PairedOn S N b b') (he : RelEnv N e e') (ord ord' : HashOrder) (C : ContractTy)
    {h h' : Idx} (hh : ∃ D, N.con D h h') :
    Agree S N b' (.result (b.unregisterContract C h ord).2, e, (b.unregisterContract C h ord).1)
      (.result (b'.unregisterContract C h' ord').2, e', (b'.unregisterContract C h' ord').1) := by
  cases hg : b.contracts.get h with
  | none =>
    have hg' := hs.cons.none hh hg
    have e1 : b.unregisterContract C h ord = (b, .err "there is no contract with that id to unregister") := by simp only [unregisterContract, hg]
    have e2 : b'.unregisterContract C h' ord' = (b', .err "there is no contract with that id to unregister") := by simp only [unregisterContract, hg']
    rw [e1, e2]; exact agree_same hs he _
  | some cd =>
    obtain ⟨cd', hg', hd⟩ := hs.cons.left hh hg
    by_cases hid : cd.id = C.id
    · have hid' : cd'.id = C.id := hd.1 ▸ hid
      obtain ⟨cons, m1⟩ := modify_isSome hg clearObjs
      obtain ⟨cons', m2⟩ := modify_isSome hg' clearObjs
      rw [unregister_go hg hid m1 ord, unregister_go hg' hid' m2 ord']
      have hp : ∀ o : Idx, o ∈ ord.order cd.objects ↔ o ∈ cd.objects := fun o => (ord.perm _).mem_iff
      have hp' : ∀ o : Idx, o ∈ ord'.order cd'.objects ↔ o ∈ cd'.objects := fun o => (ord'.perm _).mem_iff
      -- the listed objects correspond
      have listed : ∀ i j : Idx, N.obj i j → (i ∈ ord.order cd.objects ↔ j ∈ ord'.order cd'.objects) := by
        intro i j hr
        rw [hp, hp']
        constructor
        · intro hi
          obtain ⟨j', h1, h2⟩ := hd.2.2.2.1 i hi
          exact hs.objs.det i j j' hr h2 ▸ h1
        · intro hj
          obtain ⟨i', h1, h2⟩ := hd.2.2.2.2 j hj
          exact hs.objs.inj i i' j hr h2 ▸ h1
      have nil_iff : ord.order cd.objects = [] ↔ ord'.order cd'.objects = [] := by
        rw [List.eq_nil_iff_forall_not_mem, List.eq_nil_iff_forall_not_mem]
        constructor
        · intro hn o' ho'
          obtain ⟨o, h1, _⟩ := hd.2.2.2.2 o' ((hp' o').1 ho')
          exact hn o ((hp o).2 h1)
        · intro hn o ho
          obtain ⟨o', h1, _⟩ := hd.2.2.2.1 o ((hp o).1 ho)
          exact hn o' ((hp' o').2 h1)
      have live_iff : (∀ o ∈ ord.order cd.objects, ∃ ob, b.objects.get o = some ob) ↔
          ∀ o ∈ ord'.order cd'.objects, ∃ ob, b'.objects.get o = some ob := by
        constructor
        · intro hn o' ho'
          obtain ⟨o, h1, h2⟩ := hd.2.2.2.2 o' ((hp' o').1 ho')
          obtain ⟨ob, h3⟩ := hn o ((hp o).2 h1)
          exact (hs.objs.left h2 h3).imp fun _ z => z.1
        · intro hn o ho
          obtain ⟨o', h1, h2⟩ := hd.2.2.2.1 o ((hp o).1 ho)
          obtain ⟨ob, h3⟩ := hn o' ((hp' o').2 h1)
          exact (hs.objs.right h2 h3).imp fun _ z => z.1
      have okL := removeObjects_ok_iff C (ord.order cd.objects) { b with contracts := cons } ((ord.perm _).nodup_iff.2 hd.2.1)
      have okR := removeObjects_ok_iff C (ord'.order cd'.objects) { b' with contracts := cons' } ((ord'.perm _).nodup_iff.2 hd.2.2.1)
      have both : (Baseline.removeObjects C (ord.order cd.objects) { b with contracts := cons }).2 = .ok () ↔
          (Baseline.removeObjects C (ord'.order cd'.objects) { b' with contracts := cons' }).2 = .ok () := by
        rw [okL, okR, nil_iff]
        exact or_congr_right (and_congr_right fun _ => live_iff)
      rcases removeObjects_result C (ord.order cd.objects) { b with contracts := cons } with r1 | r1
      · have r2 := both.1 r1
        have f1 := removeObjects_ok_fst r1
        have f2 := removeObjects_ok_fst r2
        generalize Baseline.removeObjects C (ord.order cd.objects) { b with contracts := cons } = x at r1 f1
        generalize Baseline.removeObjects C (ord'.order cd'.objects) { b' with contracts := cons' } = y at r2 f2
        obtain ⟨x1, x2⟩ := x
        obtain ⟨y1, y2⟩ := y
        simp only at r1 r2 f1 f2
        subst r1 r2 f1 f2
        refine ⟨rfl, fun _ => ⟨N, .refl _ N, ?_, he⟩⟩
        have hs1 := hs.removeObjects listed
        have hm := (hs.cons.modify hh m1 m2 (fun v w _ _ z => ⟨z.1, List.nodup_nil, List.nodup_nil, fun o ho => (by cases ho), fun o ho => (by cases ho)⟩)).remove hh
        refine ⟨hs.kind, hm, hs.ty, ?_, ?_, hs1.objs, hs1.objL, hs1.objR, hs.sts, hs.chs⟩
        · intro i c0 g hw
          have g : (cons.remove h).1.get i = some c0 := g
          rw [get_remove] at g
          split at g
          · cases g
          · rename_i ei; rw [get_modify m1, if_neg ei] at g; exact hs.conL i c0 g hw
        · intro i c0 g hw
          have g : (cons'.remove h').1.get i = some c0 := g
          rw [get_remove] at g
          split at g
          · cases g
          · rename_i ei; rw [get_modify m2, if_neg ei] at g; exact hs.conR i c0 g hw
      · rcases removeObjects_result C (ord'.order cd'.objects) { b' with contracts := cons' } with r2 | r2
        · rw [both.2 r2] at r1; cases r1
        · generalize Baseline.removeObjects C (ord.order cd.objects) { b with contracts := cons } = x at r1
          generalize Baseline.removeObjects C (ord'.order cd'.objects) { b' with contracts := cons' } = y at r2
          obtain ⟨x1, x2⟩ := x
          obtain ⟨y1, y2⟩ := y
          simp only at r1 r2
          subst r1 r2
          exact ⟨rfl, fun h => by cases h⟩
    · have hid' : cd'.id ≠ C.id := fun z => hid (hd.1.trans z)
      have e1 : b.unregisterContract C h ord = (b, .err "handle did not match the provided contract type") := by simp only [unregisterContract, hg, if_pos hid, ne_eq]
      have e2 : b'.unregisterContract C h' ord' = (b', .err "handle did not match the provided contract type") := by simp only [unregisterContract, hg', if_pos hid', ne_eq]
      rw [e1, e2]; exact agree_same hs he _

end Verif
