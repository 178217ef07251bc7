import Verif.Proofs.FbCreate
/-!
# The byte-level serializer mirrors the table-level one
-/
namespace Verif.Fb
open Verif

theorem wrote_scalarState {f : Fbb} {tag n x : Nat} {slots : List (Nat × Slot)} {v : FbVal}
    (h0 : tag ≠ 0) (hlt : tag < 256) (hw : Wrote f (f.createTable slots) (fun b => rdScalar b n) x)
    (hu : ∀ (b : Bytes) (q : Nat), follow b (rdScalar b n) q = some x → rdUnion b tag q = some v) :
    Wrote f (f.createScalarState tag slots) rdState v := by
  obtain ⟨g, r, h1, e1, i1, s1⟩ := hw
  obtain ⟨g2, r2, h2, e2, i2, s2⟩ := wrote_state i1 h0 hlt s1 hu
  exact ⟨g2, r2, by rw [Fbb.createScalarState, h1]; exact h2, e1.trans e2, i2, s2⟩

theorem wrote_float {f : Fbb} {n x : Nat} (z : Bool) (hi : Inv f) (hw : Width n) (hx : x < 256 ^ n) :
    Wrote f (f.createTable (floatSlot n z x)) (fun b => rdScalar b n) (if z then 0 else x) := by
  cases z with
  | true =>
    have := wrote_scalar (x := 0) hi hw (Nat.pow_pos (by omega))
    exact this
  | false =>
    by_cases h0 : x = 0
    · subst h0
      refine wrote_table hi ?_ ?_ ?_ ?_ ?_
      · intro s m
        simp only [floatSlot, Bool.false_eq_true, if_false, List.mem_singleton] at m
        subst m; exact hw
      · intro v m
        simp only [floatSlot, Bool.false_eq_true, if_false, List.map_cons, List.map_nil, List.mem_singleton] at m
        subst m; decide
      · simp [floatSlot]
      · intro u t m
        simp [floatSlot] at m
      · intro b t p _ ht hf
        show rdScalar b n p = _
        rw [rdScalar, ht, Option.bind_some]
        have h4 : FieldIs b t 4 (some (.scalar n 0)) := hf 4 (by omega) rfl
        rw [scalar_some h4]
        simp
    · have := wrote_scalar hi hw hx
      rw [scalarSlot, if_neg h0] at this
      exact this

theorem wrote_string {f : Fbb} (hi : Inv f) (s : String) : Wrote f (f.createStringState s) rdState (.fbString (some s)) := by
  unfold Fbb.createStringState
  cases h1 : f.createString s with
  | mk g r =>
    obtain ⟨e1, i1, s1⟩ := createString_spec hi h1
    have h2 : Wrote g (g.createTable [(4, .off r)]) rdFbString (some s) := by
      refine wrote_table i1 ?_ ?_ ?_ ?_ ?_
      · intro x m
        simp only [List.mem_singleton] at m
        subst m; trivial
      · intro v m
        simp only [List.map_cons, List.map_nil, List.mem_singleton] at m
        subst m; decide
      · simp
      · intro u t m
        simp only [List.mem_singleton, Prod.mk.injEq, Slot.off.injEq] at m
        rw [m.2]; exact s1.inside
      · intro b t p good ht hf
        have h4 : FieldIs b t 4 (some (.off r)) := hf 4 (by omega) rfl
        rw [rdFbString, ht, Option.bind_some, offset_some h4, s1.reads b good]
        rfl
    obtain ⟨g2, r2, h2, e2, i2, s2⟩ := h2
    obtain ⟨g3, r3, h3, e3, i3, s3⟩ := wrote_state (tag := 12) (v := .fbString (some s)) i2 (by decide) (by decide) s2 (by
      intro b q hq
      show (follow b (rdFbString b) q).map FbVal.fbString = _
      rw [hq]; rfl)
    refine ⟨g3, r3, ?_, (e1.trans e2).trans e3, i3, s3⟩
    simp only
    rw [h2]; exact h3

/-- Writing a value does what its encoding says. -/
theorem createValue_spec {f : Fbb} (hi : Inv f) (v : DynProp) :
    match encodeState v with
    | none => f.createValue v = none
    | some none => f.createValue v = some (some (f, wipDummy))
    | some (some w) => ∃ res, f.createValue v = some res ∧ Wrote f res rdState w := by
  cases v with
  | vec _ => rfl
  | primitive p =>
    have sc : ∀ (tag n x : Nat) (w : FbVal), tag ≠ 0 → tag < 256 → Width n → x < 256 ^ n →
        (∀ (b : Bytes) (q : Nat), follow b (rdScalar b n) q = some x → rdUnion b tag q = some w) →
        Wrote f (f.createScalarState tag (scalarSlot 4 n x)) rdState w :=
      fun tag n x w h0 hl hw hx hu => wrote_scalarState h0 hl (wrote_scalar hi hw hx) hu
    cases p with
    | u8 v =>
      refine ⟨_, rfl, sc _ _ _ _ (by decide) (by decide) (Or.inl rfl) (bv_lt (n := 1) v) ?_⟩
      intro b q hq
      show (follow b (rdScalar b 1) q).map _ = _
      rw [hq]; simp
    | u16 v =>
      refine ⟨_, rfl, sc _ _ _ _ (by decide) (by decide) (Or.inr (Or.inl rfl)) (bv_lt (n := 2) v) ?_⟩
      intro b q hq
      show (follow b (rdScalar b 2) q).map _ = _
      rw [hq]; simp
    | u32 v =>
      refine ⟨_, rfl, sc _ _ _ _ (by decide) (by decide) width4 (bv_lt (n := 4) v) ?_⟩
      intro b q hq
      show (follow b (rdScalar b 4) q).map _ = _
      rw [hq]; simp
    | u64 v =>
      refine ⟨_, rfl, sc _ _ _ _ (by decide) (by decide) (Or.inr (Or.inr (Or.inr rfl))) (bv_lt (n := 8) v) ?_⟩
      intro b q hq
      show (follow b (rdScalar b 8) q).map _ = _
      rw [hq]; simp
    | i8 v =>
      refine ⟨_, rfl, sc _ _ _ _ (by decide) (by decide) (Or.inl rfl) (bv_lt (n := 1) v) ?_⟩
      intro b q hq
      show (follow b (rdScalar b 1) q).map _ = _
      rw [hq]; simp
    | i16 v =>
      refine ⟨_, rfl, sc _ _ _ _ (by decide) (by decide) (Or.inr (Or.inl rfl)) (bv_lt (n := 2) v) ?_⟩
      intro b q hq
      show (follow b (rdScalar b 2) q).map _ = _
      rw [hq]; simp
    | i32 v =>
      refine ⟨_, rfl, sc _ _ _ _ (by decide) (by decide) width4 (bv_lt (n := 4) v) ?_⟩
      intro b q hq
      show (follow b (rdScalar b 4) q).map _ = _
      rw [hq]; simp
    | i64 v =>
      refine ⟨_, rfl, sc _ _ _ _ (by decide) (by decide) (Or.inr (Or.inr (Or.inr rfl))) (bv_lt (n := 8) v) ?_⟩
      intro b q hq
      show (follow b (rdScalar b 8) q).map _ = _
      rw [hq]; simp
    | bool v =>
      refine ⟨_, rfl, sc _ _ _ _ (by decide) (by decide) (Or.inl rfl) (by cases v <;> decide) ?_⟩
      intro b q hq
      show (follow b (rdScalar b 1) q).map _ = _
      rw [hq]; cases v <;> rfl
    | f32 v =>
      refine ⟨_, rfl, wrote_scalarState (by decide) (by decide) (wrote_float _ hi width4 (bv_lt (n := 4) v)) ?_⟩
      intro b q hq
      show (follow b (rdScalar b 4) q).map _ = _
      rw [hq]
      unfold fbF32
      split <;> simp
    | f64 v =>
      refine ⟨_, rfl, wrote_scalarState (by decide) (by decide) (wrote_float _ hi (Or.inr (Or.inr (Or.inr rfl))) (bv_lt (n := 8) v)) ?_⟩
      intro b q hq
      show (follow b (rdScalar b 8) q).map _ = _
      rw [hq]
      unfold fbF64
      split <;> simp
    | string v => exact ⟨_, rfl, wrote_string hi v⟩
    | objectHandle v => rfl
    | contractDataHandle v => rfl

theorem kindOfNo_kindNo (k : FbKind) : kindOfNo (kindNo k) = some k ∧ kindNo k < 256 := by
  cases k <;> exact ⟨rfl, by decide⟩

theorem kinds_agree (ts : List PropType) :
    (SerB.kindNos ts = none ∧ Ser.kindsOf ts = none) ∨
      ∃ ks, SerB.kindNos ts = some ks ∧ Ser.kindsOf ts = some (ks.map kindOfNo) ∧ ∀ k ∈ ks, k < 256 := by
  induction ts with
  | nil => exact Or.inr ⟨[], rfl, rfl, by simp⟩
  | cons t ts ih =>
    cases t with
    | vec _ => exact Or.inl ⟨rfl, rfl⟩
    | prim p =>
      rcases ih with ⟨h1, h2⟩ | ⟨ks, h1, h2, h3⟩
      · exact Or.inl ⟨by simp [SerB.kindNos, h1], by simp [Ser.kindsOf, h2]⟩
      · refine Or.inr ⟨kindNo (FbKind.ofPrim p) :: ks, by simp [SerB.kindNos, h1], ?_, ?_⟩
        · simp [Ser.kindsOf, h2, kindOfNo_kindNo]
        · intro k m
          rcases List.mem_cons.1 m with rfl | m
          · exact (kindOfNo_kindNo _).2
          · exact h3 k m

/-- Same outcome, with related results. -/
inductive OutRel {α β : Type} (R : α → β → Prop) : Outcome α → Outcome β → Prop
  | ok (a : α) (b : β) : R a b → OutRel R (.ok a) (.ok b)
  | err (m : String) : OutRel R (.err m) (.err m)
  | panic (m : String) : OutRel R (.panic m) (.panic m)

theorem contractTable_sim {f : Fbb} (hi : Inv f) (C : ContractTy) :
    Ext f (SerB.contractTable f C).1 ∧ Inv (SerB.contractTable f C).1 ∧
      OutRel (fun t v => Stored (SerB.contractTable f C).1 t rdContract v) (SerB.contractTable f C).2 (Ser.contractTable C) := by
  unfold SerB.contractTable Ser.contractTable
  cases h1 : f.createString C.id.name with
  | mk f1 name =>
    obtain ⟨e1, i1, s1⟩ := createString_spec hi h1
    obtain ⟨f2, cid, h2, e2, i2, s2⟩ := wrote_contractId (v := C.id.version) i1 s1
    simp only [h2]
    cases h3 : f2.createStrings (C.states.map Field.name) with
    | mk f3 ns =>
      obtain ⟨e3, i3, s3⟩ := createStrings_spec _ i2 h3
      simp only
      obtain ⟨⟨f4, names⟩, h4⟩ := createVecOff_some (stored_inside s3)
      obtain ⟨e4, i4, s4⟩ := storedVec i3 s3 h4
      have e14 := ((e1.trans e2).trans e3).trans e4
      simp only [h4]
      rcases kinds_agree C.stateTypes with ⟨k1, k2⟩ | ⟨ks, k1, k2, k3⟩
      · simp only [k1, k2]
        exact ⟨e14, i4, OutRel.err _⟩
      · simp only [k1, k2]
        cases h5 : f4.createVecBytes ks with
        | mk f5 types =>
          obtain ⟨e5, i5, s5⟩ := createVecBytes_spec kindOfNo i4 k3 h5
          simp only
          obtain ⟨f6, cst, h6, e6, i6, s6⟩ := wrote_contractStates i5 (s4.mono e5) s5
          obtain ⟨f7, c, h7, e7, i7, s7⟩ := wrote_contract i6 (s2.mono (((e3.trans e4).trans e5).trans e6)) s6
          simp only [h6, h7]
          exact ⟨((e14.trans e5).trans e6).trans e7, i7, OutRel.ok _ _ s7⟩

/-- The offset of a state, and the slot it stands for. -/
def SlotRel (f : Fbb) (t : Nat) : Option FbVal → Prop
  | none => t = wipDummy
  | some v => Stored f t rdState v

theorem SlotRel.mono {f g : Fbb} (e : Ext f g) {t : Nat} {o : Option FbVal} (h : SlotRel f t o) : SlotRel g t o := by
  cases o with
  | none => exact h
  | some v => exact Stored.mono h e

/-- The byte-level serializer is in the state of the table-level one. -/
structure Mirrors (sb : SerB) (s : Ser) : Prop where
  base : sb.base = s.base
  inv : Inv sb.fbb
  contracts : List.Forall₂ (fun t v => Stored sb.fbb t rdContract v) sb.contracts s.contracts
  states : List.Forall₂ (SlotRel sb.fbb) sb.states s.states
  objects : List.Forall₂ (fun t v => Stored sb.fbb t rdObject v) sb.objects s.objects
  hObjects : sb.hObjects = s.hObjects
  hContracts : sb.hContracts = s.hContracts
  hContractStates : sb.hContractStates = s.hContractStates
  hObjectStates : sb.hObjectStates = s.hObjectStates

theorem Mirrors.grow {sb : SerB} {s : Ser} {g : Fbb} (h : Mirrors sb s) (e : Ext sb.fbb g) (i : Inv g) :
    Mirrors { sb with fbb := g } s :=
  ⟨h.base, i, h.contracts.imp fun _ _ st => st.mono e, h.states.imp fun _ _ st => st.mono e,
    h.objects.imp fun _ _ st => st.mono e, h.hObjects, h.hContracts, h.hContractStates, h.hObjectStates⟩

theorem mirrors_new (b : Baseline) : Mirrors (SerB.new b) (Ser.new b) :=
  ⟨rfl, (by intro v m; cases m), .nil, .nil, .nil, rfl, rfl, rfl, rfl⟩

theorem mirrors_note {sb : SerB} {s : Ser} (h : Mirrors sb s) (t : PropType) (i : Idx) (n : Nat) :
    Mirrors (SerB.noteHandle sb t i n) (Ser.noteHandle s t i n) ∧ (SerB.noteHandle sb t i n).fbb = sb.fbb := by
  have hO : Mirrors { sb with hObjectStates := sb.hObjectStates.insert i n } { s with hObjectStates := s.hObjectStates.insert i n } :=
    ⟨h.base, h.inv, h.contracts, h.states, h.objects, h.hObjects, h.hContracts, h.hContractStates,
      by show sb.hObjectStates.insert _ _ = _; rw [h.hObjectStates]⟩
  have hC : Mirrors { sb with hContractStates := sb.hContractStates.insert i n } { s with hContractStates := s.hContractStates.insert i n } :=
    ⟨h.base, h.inv, h.contracts, h.states, h.objects, h.hObjects, h.hContracts,
      by show sb.hContractStates.insert _ _ = _; rw [h.hContractStates], h.hObjectStates⟩
  cases t with
  | vec _ => exact ⟨h, rfl⟩
  | prim p =>
    cases p with
    | objectHandle => exact ⟨hO, rfl⟩
    | contractDataHandle => exact ⟨hC, rfl⟩
    | _ => exact ⟨h, rfl⟩

theorem forall₂_snoc {α β : Type} {R : α → β → Prop} {l : List α} {m : List β} {a : α} {b : β} (h : List.Forall₂ R l m) (hab : R a b) :
    List.Forall₂ R (l ++ [a]) (m ++ [b]) := by
  induction h with
  | nil => exact .cons hab .nil
  | cons h1 _ ih => exact .cons h1 ih

/-- One step of the state loop, on both levels. -/
theorem pushState_sim {sb : SerB} {s : Ser} (h : Mirrors sb s) (o : Idx) (d : DynId) :
    Mirrors (sb.pushState o d).1 (s.pushState o d).1 ∧ Ext sb.fbb (sb.pushState o d).1.fbb ∧
      OutRel (fun (t : Nat) (i : BitVec 32) => Stored (sb.pushState o d).1.fbb t (fun b => rdScalar b 4) i.toNat)
        (sb.pushState o d).2 (s.pushState o d).2 := by
  unfold SerB.pushState Ser.pushState
  have hB : sb.base.bindState d.id o = s.base.bindState d.id o := by rw [h.base]
  have hS : ∀ i, sb.base.state d.ty i = s.base.state d.ty i := by rw [h.base]; intro i; rfl
  cases h1 : s.base.bindState d.id o with
  | err m => simp only [hB, h1]; exact ⟨h, Ext.refl _, .err _⟩
  | panic m => simp only [hB, h1]; exact ⟨h, Ext.refl _, .panic _⟩
  | ok i =>
    simp only [hB, h1]
    cases h2 : s.base.state d.ty i with
    | err m => simp only [hS, h2]; exact ⟨h, Ext.refl _, .err _⟩
    | panic m => simp only [hS, h2]; exact ⟨h, Ext.refl _, .panic _⟩
    | ok v =>
      simp only [hS, h2]
      have hv := createValue_spec h.inv (DynProp.ofTyped d.ty v)
      have hlen : sb.states.length = s.states.length := h.states.length_eq
      have fin : ∀ (f1 : Fbb) (off : Nat) (slot : Option FbVal), Ext sb.fbb f1 → Inv f1 → SlotRel f1 off slot →
          ∃ f2 r, (SerB.noteHandle { sb with fbb := f1, states := sb.states ++ [off] } d.ty i s.states.length).fbb.createHandle32
              (BitVec.ofNat 32 s.states.length) = some (f2, r) ∧
            Mirrors { SerB.noteHandle { sb with fbb := f1, states := sb.states ++ [off] } d.ty i s.states.length with fbb := f2 }
              (Ser.noteHandle { s with states := s.states ++ [slot] } d.ty i s.states.length) ∧ Ext sb.fbb f2 ∧
            Stored f2 r (fun b => rdScalar b 4) (BitVec.ofNat 32 s.states.length).toNat := by
        intro f1 off slot e1 i1 sl
        have h' : Mirrors { sb with fbb := f1, states := sb.states ++ [off] } { s with states := s.states ++ [slot] } :=
          have g := h.grow e1 i1
          ⟨g.base, g.inv, g.contracts, forall₂_snoc g.states sl, g.objects, g.hObjects, g.hContracts, g.hContractStates, g.hObjectStates⟩
        obtain ⟨m1, m2⟩ := mirrors_note h' d.ty i s.states.length
        obtain ⟨f2, r, h3, e3, i3, s3⟩ := wrote_handle32 m1.inv (BitVec.ofNat 32 s.states.length)
        refine ⟨f2, r, h3, m1.grow e3 i3, ?_, s3⟩
        rw [m2] at e3
        exact e1.trans e3
      cases he : encodeState (DynProp.ofTyped d.ty v) with
      | none =>
        rw [he] at hv
        simp only [hv]
        exact ⟨h, Ext.refl _, .panic _⟩
      | some slot =>
        cases slot with
        | none =>
          rw [he] at hv
          simp only [hv, hlen]
          obtain ⟨f2, r, c1, c2, c3, c4⟩ := fin sb.fbb wipDummy none (Ext.refl _) h.inv rfl
          simp only [c1]
          exact ⟨c2, c3, .ok _ _ c4⟩
        | some w =>
          rw [he] at hv
          obtain ⟨res, hv, f1, off, hres, e1, i1, s1⟩ := hv
          subst hres
          simp only [hv, hlen]
          obtain ⟨f2, r, c1, c2, c3, c4⟩ := fin f1 off (some w) e1 i1 s1
          simp only [c1]
          exact ⟨c2, c3, .ok _ _ c4⟩

theorem pushStates_sim (o : Idx) (ds : List DynId) : ∀ {sb : SerB} {s : Ser}, Mirrors sb s →
    Mirrors (sb.pushStates o ds).1 (s.pushStates o ds).1 ∧ Ext sb.fbb (sb.pushStates o ds).1.fbb ∧
      OutRel (List.Forall₂ fun (t : Nat) (i : BitVec 32) => Stored (sb.pushStates o ds).1.fbb t (fun b => rdScalar b 4) i.toNat)
        (sb.pushStates o ds).2 (s.pushStates o ds).2 := by
  induction ds with
  | nil => intro sb s h; exact ⟨h, Ext.refl _, .ok _ _ .nil⟩
  | cons d ds ih =>
    intro sb s h
    obtain ⟨m1, e1, o1⟩ := pushState_sim h o d
    unfold SerB.pushStates Ser.pushStates
    cases hb : sb.pushState o d with
    | mk sb1 rb =>
      cases hs : s.pushState o d with
      | mk s1 rs =>
        rw [hb, hs] at m1 o1
        rw [hb] at e1
        simp only at m1 e1 o1
        cases o1 with
        | err m => exact ⟨m1, e1, .err _⟩
        | panic m => exact ⟨m1, e1, .panic _⟩
        | ok t i st =>
          simp only
          obtain ⟨m2, e2, o2⟩ := ih m1
          cases hb2 : sb1.pushStates o ds with
          | mk sb2 rb2 =>
            cases hs2 : s1.pushStates o ds with
            | mk s2 rs2 =>
              rw [hb2, hs2] at m2 o2
              rw [hb2] at e2
              simp only at m2 e2 o2
              cases o2 with
              | err m => exact ⟨m2, e1.trans e2, .err _⟩
              | panic m => exact ⟨m2, e1.trans e2, .panic _⟩
              | ok ts is hts => exact ⟨m2, e1.trans e2, .ok _ _ (.cons (st.mono e2) hts)⟩

theorem map_toNat (is : List (BitVec 32)) : (is.map BitVec.toNat).map (BitVec.ofNat 32) = is := by
  rw [List.map_map]
  conv => rhs; rw [← List.map_id is]
  apply List.map_congr_left
  intro i _
  simp

theorem pushObjects_sim (C : ContractTy) (hd : Idx) (os : List Idx) : ∀ {sb : SerB} {s : Ser} {k : Nat} {kk : BitVec 16}, Mirrors sb s →
    Stored sb.fbb k (fun b => rdScalar b 2) kk.toNat →
    Mirrors (sb.pushObjects C hd k os).1 (s.pushObjects C hd kk os).1 ∧ Ext sb.fbb (sb.pushObjects C hd k os).1.fbb ∧
      OutRel (fun _ _ => True) (sb.pushObjects C hd k os).2 (s.pushObjects C hd kk os).2 := by
  induction os with
  | nil => intro sb s k kk h _; exact ⟨h, Ext.refl _, .ok _ _ trivial⟩
  | cons o os ih =>
    intro sb s k kk h hk
    obtain ⟨m1, e1, o1⟩ := pushStates_sim o (C.stateIds hd) h
    unfold SerB.pushObjects Ser.pushObjects
    cases hb : sb.pushStates o (C.stateIds hd) with
    | mk sb1 rb =>
      cases hs : s.pushStates o (C.stateIds hd) with
      | mk s1 rs =>
        rw [hb, hs] at m1 o1
        rw [hb] at e1
        simp only at m1 e1 o1
        cases o1 with
        | err m => exact ⟨m1, e1, .err _⟩
        | panic m => exact ⟨m1, e1, .panic _⟩
        | ok ts is hts =>
          simp only
          have hts' : List.Forall₂ (fun t v => Stored sb1.fbb t (fun b => rdScalar b 4) v) ts (is.map BitVec.toNat) := by
            rw [List.forall₂_map_right_iff]; exact hts
          obtain ⟨⟨f1, v⟩, h1⟩ := createVecOff_some (stored_inside hts')
          obtain ⟨e2, i2, s2⟩ := storedVec m1.inv hts' h1
          obtain ⟨f2, r, h3, e3, i3, s3⟩ := wrote_object i2 ((hk.mono e1).mono e2) s2
          simp only [h1, h3]
          rw [map_toNat] at s3
          have hkk : BitVec.ofNat 16 kk.toNat = kk := by simp
          rw [hkk] at s3
          have m2 := m1.grow (e2.trans e3) i3
          have hlen : sb1.objects.length = s1.objects.length := m1.objects.length_eq
          have m3 : Mirrors { sb1 with fbb := f2, objects := sb1.objects ++ [r], hObjects := sb1.hObjects.insert o sb1.objects.length }
              { s1 with objects := s1.objects ++ [⟨some kk, some is⟩], hObjects := s1.hObjects.insert o s1.objects.length } :=
            ⟨m2.base, m2.inv, m2.contracts, m2.states, forall₂_snoc m2.objects s3,
              (by show sb1.hObjects.insert _ _ = _; rw [hlen, m1.hObjects]), m2.hContracts, m2.hContractStates, m2.hObjectStates⟩
          obtain ⟨a, b, c⟩ := ih m3 (((hk.mono e1).mono e2).mono e3)
          exact ⟨a, (e1.trans (e2.trans e3)).trans b, c⟩

theorem serialize_sim {sb : SerB} {s : Ser} (h : Mirrors sb s) (C : ContractTy) (hd : Idx) (ord : HashOrder) :
    Mirrors (sb.serialize C hd ord).1 (s.serialize C hd ord).1 ∧ Ext sb.fbb (sb.serialize C hd ord).1.fbb ∧
      OutRel (fun _ _ => True) (sb.serialize C hd ord).2 (s.serialize C hd ord).2 := by
  unfold SerB.serialize Ser.serialize
  have hB : sb.base.contractData hd = s.base.contractData hd := by rw [h.base]
  cases h1 : s.base.contractData hd with
  | err m => simp only [hB, h1]; exact ⟨h, Ext.refl _, .err _⟩
  | panic m => simp only [hB, h1]; exact ⟨h, Ext.refl _, .panic _⟩
  | ok cd =>
    simp only [hB, h1]
    obtain ⟨e1, i1, o1⟩ := contractTable_sim h.inv C
    cases hb : SerB.contractTable sb.fbb C with
    | mk f1 rb =>
      rw [hb] at e1 i1 o1
      simp only at e1 i1 o1
      generalize hs : Ser.contractTable C = rs at o1
      cases o1 with
      | err m => exact ⟨h.grow e1 i1, e1, .err _⟩
      | panic m => exact ⟨h.grow e1 i1, e1, .panic _⟩
      | ok off tbl st =>
        simp only
        have hlen : sb.contracts.length = s.contracts.length := h.contracts.length_eq
        have g := h.grow e1 i1
        have m1 : Mirrors { sb with fbb := f1, contracts := sb.contracts ++ [off], hContracts := sb.hContracts.insert hd sb.contracts.length }
            { s with contracts := s.contracts ++ [tbl], hContracts := s.hContracts.insert hd s.contracts.length } :=
          ⟨g.base, g.inv, forall₂_snoc g.contracts st, g.states, g.objects, g.hObjects,
            (by show sb.hContracts.insert _ _ = _; rw [hlen, h.hContracts]), g.hContractStates, g.hObjectStates⟩
        have hl2 : (sb.contracts ++ [off]).length = (s.contracts ++ [tbl]).length := by simp [hlen]
        simp only [hl2]
        by_cases hz : (s.contracts ++ [tbl]).length % 65536 = 0
        · rw [if_pos hz, if_pos hz]
          exact ⟨m1, e1, .panic _⟩
        · rw [if_neg hz, if_neg hz]
          obtain ⟨f2, k, h3, e3, i3, s3⟩ := wrote_cdHandle i1 (BitVec.ofNat 16 ((s.contracts ++ [tbl]).length % 65536 - 1))
          simp only [h3]
          obtain ⟨a, b, c⟩ := pushObjects_sim C hd (ord.order cd.objects) (m1.grow e3 i3) s3
          exact ⟨a, (e1.trans e3).trans b, c⟩

theorem serializeAll_sim (calls : List (ContractTy × Idx × HashOrder)) : ∀ {sb : SerB} {s : Ser}, Mirrors sb s →
    Mirrors (sb.serializeAll calls).1 (s.serializeAll calls).1 ∧ Ext sb.fbb (sb.serializeAll calls).1.fbb ∧
      OutRel (fun _ _ => True) (sb.serializeAll calls).2 (s.serializeAll calls).2 := by
  induction calls with
  | nil => intro sb s h; exact ⟨h, Ext.refl _, .ok _ _ trivial⟩
  | cons c calls ih =>
    intro sb s h
    obtain ⟨C, hd, ord⟩ := c
    obtain ⟨m1, e1, o1⟩ := serialize_sim h C hd ord
    unfold SerB.serializeAll Ser.serializeAll
    cases hb : sb.serialize C hd ord with
    | mk sb1 rb =>
      cases hs : s.serialize C hd ord with
      | mk s1 rs =>
        rw [hb, hs] at m1 o1
        rw [hb] at e1
        simp only at m1 e1 o1
        cases o1 with
        | err m => exact ⟨m1, e1, .err _⟩
        | panic m => exact ⟨m1, e1, .panic _⟩
        | ok a b _ =>
          simp only
          obtain ⟨m2, e2, o2⟩ := ih m1
          exact ⟨m2, e1.trans e2, o2⟩

end Verif.Fb
