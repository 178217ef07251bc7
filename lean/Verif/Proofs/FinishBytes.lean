import Verif.Proofs.SerBytes
/-!
# Finishing the buffer
-/
namespace Verif.Fb
open Verif

theorem forall₂_get {α β : Type} {R : α → β → Prop} {l : List α} {m : List β} (h : List.Forall₂ R l m) :
    ∀ i : Nat, (l[i]? = none ∧ m[i]? = none) ∨ ∃ a b, l[i]? = some a ∧ m[i]? = some b ∧ R a b := by
  induction h with
  | nil => intro i; exact Or.inl ⟨rfl, rfl⟩
  | cons h1 _ ih =>
    intro i
    cases i with
    | zero => exact Or.inr ⟨_, _, rfl, rfl, h1⟩
    | succ i => simpa using ih i

theorem forall₂_set {α β : Type} {R : α → β → Prop} {l : List α} {m : List β} (h : List.Forall₂ R l m) {a : α} {b : β} (hab : R a b) :
    ∀ i : Nat, List.Forall₂ R (l.set i a) (m.set i b) := by
  induction h with
  | nil => intro i; exact .nil
  | cons h1 h2 ih =>
    intro i
    cases i with
    | zero => exact .cons hab h2
    | succ i => exact .cons h1 (ih i)

theorem patch_sim {b : Baseline} {t : PropType} {as : t.Carrier → Idx} {map : BiMap Idx Nat} {mk : Fbb → Nat → Option (Fbb × Nat)}
    {tag : Nat} {mkT : Nat → FbVal}
    (hw : ∀ (f : Fbb) (r : Nat), Inv f → Wrote f ((mk f r).bind fun e => e.1.createState tag e.2) rdState (mkT r))
    (ps : List (Idx × Nat)) : ∀ {f : Fbb} {sts : List Nat} {stsT : List (Option FbVal)}, Inv f → List.Forall₂ (SlotRel f) sts stsT →
      (∃ f' sts' stsT', SerB.patch b t as map mk tag ps f sts = .ok (f', sts') ∧ Ser.patch b t as map mkT ps stsT = .ok stsT' ∧
        Ext f f' ∧ Inv f' ∧ List.Forall₂ (SlotRel f') sts' stsT') ∨
      ∃ m, SerB.patch b t as map mk tag ps f sts = .panic m ∧ Ser.patch b t as map mkT ps stsT = .panic m := by
  induction ps with
  | nil => intro f sts stsT hi hs; exact Or.inl ⟨_, _, _, rfl, rfl, Ext.refl _, hi, hs⟩
  | cons p ps ih =>
    intro f sts stsT hi hs
    obtain ⟨h, i⟩ := p
    unfold SerB.patch Ser.patch
    cases h1 : b.state t h with
    | err m => exact Or.inr ⟨_, rfl, rfl⟩
    | panic m => exact Or.inr ⟨_, rfl, rfl⟩
    | ok v =>
      simp only
      cases h2 : map.getL (as v) with
      | none => exact Or.inr ⟨_, rfl, rfl⟩
      | some r =>
        simp only
        obtain ⟨f1, off, h3, e3, i3, s3⟩ := hw f r hi
        simp only [h3]
        rcases forall₂_get hs i with ⟨g1, g2⟩ | ⟨a, o, g1, g2, ga⟩
        · simp only [g1, g2]
          exact Or.inr ⟨_, rfl, rfl⟩
        · simp only [g1, g2]
          cases o with
          | none =>
            have ga' : a = wipDummy := ga
            rw [if_pos ga']
            simp only
            have hs' := forall₂_set (hs.imp fun _ _ x => SlotRel.mono e3 x) (a := off) (b := some (mkT r)) s3 i
            rcases ih i3 hs' with ⟨f', sts', stsT', a1, a2, a3, a4, a5⟩ | ⟨m, a1, a2⟩
            · exact Or.inl ⟨f', sts', stsT', a1, a2, e3.trans a3, a4, a5⟩
            · exact Or.inr ⟨m, a1, a2⟩
          | some w =>
            have ga' : Stored f a rdState w := ga
            have hne : a ≠ wipDummy := by
              intro e
              have := ga'.aligned
              rw [e] at this
              revert this
              decide
            rw [if_neg hne]
            exact Or.inr ⟨_, rfl, rfl⟩

theorem wrote_patchC (f : Fbb) (r : Nat) (hi : Inv f) :
    Wrote f ((f.createContractDataHandle (BitVec.ofNat 16 r)).bind fun e => e.1.createState 14 e.2) rdState
      (.contractDataHandle (BitVec.ofNat 16 r)) := by
  obtain ⟨g, p, h1, e1, i1, s1⟩ := wrote_cdHandle hi (BitVec.ofNat 16 r)
  obtain ⟨g2, r2, h2, e2, i2, s2⟩ := wrote_state (tag := 14) (v := .contractDataHandle (BitVec.ofNat 16 r)) i1 (by decide) (by decide) s1 (by
    intro b q hq
    show (follow b (rdScalar b 2) q).map _ = _
    rw [hq, Option.map_some, BitVec.ofNat_toNat, BitVec.setWidth_eq])
  exact ⟨g2, r2, by rw [h1]; exact h2, e1.trans e2, i2, s2⟩

theorem wrote_patchO (f : Fbb) (r : Nat) (hi : Inv f) :
    Wrote f ((f.createHandle32 (BitVec.ofNat 32 r)).bind fun e => e.1.createState 13 e.2) rdState
      (.objectHandle (BitVec.ofNat 32 r)) := by
  obtain ⟨g, p, h1, e1, i1, s1⟩ := wrote_handle32 hi (BitVec.ofNat 32 r)
  obtain ⟨g2, r2, h2, e2, i2, s2⟩ := wrote_state (tag := 13) (v := .objectHandle (BitVec.ofNat 32 r)) i1 (by decide) (by decide) s1 (by
    intro b q hq
    show (follow b (rdScalar b 4) q).map _ = _
    rw [hq, Option.map_some, BitVec.ofNat_toNat, BitVec.setWidth_eq])
  exact ⟨g2, r2, by rw [h1]; exact h2, e1.trans e2, i2, s2⟩

theorem filled_forall {f : Fbb} {sts : List Nat} {stsT : List (Option FbVal)} (h : List.Forall₂ (SlotRel f) sts stsT) :
    (∃ vs, filled stsT = some vs ∧ List.Forall₂ (fun t v => Stored f t rdState v) sts vs) ∨
      (filled stsT = none ∧ wipDummy ∈ sts) := by
  induction h with
  | nil => exact Or.inl ⟨[], rfl, .nil⟩
  | @cons t o ts os h1 _ ih =>
    cases o with
    | none => exact Or.inr ⟨rfl, by rw [show t = wipDummy from h1]; exact List.mem_cons_self ..⟩
    | some v =>
      rcases ih with ⟨vs, h2, h3⟩ | ⟨h2, h3⟩
      · exact Or.inl ⟨v :: vs, by rw [filled, h2]; rfl, .cons h1 h3⟩
      · exact Or.inr ⟨by rw [filled, h2]; rfl, List.mem_cons_of_mem _ h3⟩

theorem mapO_none {α : Type} {k : Nat → Option α} {ts : List Nat} {t : Nat} (m : t ∈ ts) (h : k t = none) : mapO k ts = none := by
  induction ts with
  | nil => cases m
  | cons u us ih =>
    rcases List.mem_cons.1 m with rfl | m
    · rw [mapO, h]; rfl
    · rw [mapO, ih m]
      cases k u <;> rfl

theorem pushOffs_le {ts : List Nat} : ∀ {f g : Fbb}, f.pushOffs ts = some g → ∀ t ∈ ts, t ≤ g.buf.length := by
  induction ts with
  | nil => intro f g _ t m; cases m
  | cons u us ih =>
    intro f g h t m
    unfold Fbb.pushOffs at h
    cases h1 : f.pushOffs us with
    | none => rw [h1] at h; cases h
    | some g1 =>
      rw [h1, Option.bind_some] at h
      rcases List.mem_cons.1 m with rfl | m
      · exact (pushOff_eq h).2
      · exact Nat.le_trans (ih h1 t m) (ext_pushOff h).le

theorem createVecOff_le {f g : Fbb} {r : Nat} {ts : List Nat} (h : f.createVecOff ts = some (g, r)) : ∀ t ∈ ts, t ≤ g.buf.length := by
  unfold Fbb.createVecOff at h
  cases h1 : (f.align (ts.length * 4) 4).pushOffs ts with
  | none => rw [h1] at h; cases h
  | some g1 =>
    rw [h1, Option.map_some, Option.some.injEq, Prod.mk.injEq] at h
    intro t m
    rw [← h.1]
    exact Nat.le_trans (pushOffs_le h1 t m) (ext_push _ _ _ width4).le

/-- The last step: the buffer that comes out is one that everything written can be read from. -/
theorem finish_good {f : Fbb} {r : Nat} {ident : Bytes} (hid : ident.length = 4) (hp : Pow f) (h4 : 4 ≤ f.minAlign) (hr : r ≤ f.buf.length) :
    ∃ bytes, f.finish r ident = some bytes ∧ f.minAlign ∣ bytes.length ∧ bytes.length ≤ f.buf.length + 15 ∧
      (bytes.length < 2 ^ 31 → Good bytes f ∧ ∀ (α : Type) (k : Nat → Option α), follow bytes k 0 = k (bytes.length - r)) := by
  have hm : f.minAlign = 4 ∨ f.minAlign = 8 := by
    rcases hp with h | h | h | h | h <;> omega
  have hA := align_length f 8 f.minAlign
  have hd := padding_dvd (f.buf.length + 8) f.minAlign (by omega)
  have hl := padding_lt (f.buf.length + 8) f.minAlign (by omega)
  obtain ⟨g, hg⟩ := pushOff_some ((f.align 8 f.minAlign).raw ident) r (by
    have : ((f.align 8 f.minAlign).raw ident).buf.length = ident.length + (f.align 8 f.minAlign).buf.length := by simp [Fbb.raw]
    omega)
  obtain ⟨eg, _⟩ := pushOff_eq hg
  have hraw : ((f.align 8 f.minAlign).raw ident).buf.length = 4 + (padding (f.buf.length + 8) f.minAlign + f.buf.length) := by
    simp [Fbb.raw, hid, hA]
  have h4d : 4 ∣ padding (f.buf.length + 8) f.minAlign + (f.buf.length + 8) :=
    Nat.dvd_trans (by rcases hm with h | h <;> rw [h] <;> decide) hd
  have hgl : g.buf.length = padding (f.buf.length + 8) f.minAlign + (f.buf.length + 8) := by
    have := push_exact ((f.align 8 f.minAlign).raw ident) 4 (g.buf.length - r) (by rw [hraw]; omega)
    have h2 := congrArg List.length this
    rw [← eg, List.length_append, le_length, hraw] at h2
    omega
  have hga : g.minAlign = f.minAlign := by
    rw [eg]
    show max (max f.minAlign f.minAlign) 4 = _
    omega
  refine ⟨g.buf, by unfold Fbb.finish; rw [hg]; rfl, hgl ▸ hd, by omega, fun hs => ?_⟩
  have al : ∀ a : Nat, Width a → a ≤ f.minAlign → a ∣ g.buf.length := by
    intro a ha hle
    refine Nat.dvd_trans ?_ (hgl ▸ hd)
    rcases ha with h1 | h1 | h1 | h1 <;> rcases hm with h2 | h2 <;> rw [h1, h2] <;> first | decide | omega
  have gg : Good g.buf g := ⟨⟨[], rfl⟩, by rw [hga]; exact al, hs⟩
  have e : Ext f g := ((ext_align f 8 f.minAlign (by rcases hm with h | h <;> rw [h] <;> simp [Width])).trans (ext_raw _ _)).trans (ext_pushOff hg)
  refine ⟨gg.mono e, fun α k => ?_⟩
  have := follow_at (k := k) (rd_pushOff hg gg) (Nat.le_refl _) (pushOff_eq hg).2
  rw [Nat.sub_self] at this
  exact this

/-- Finishing, on both levels. -/
theorem finish_sim {sb : SerB} {s : Ser} (h : Mirrors sb s) (hp : Pow sb.fbb) {ident : Bytes} (hid : ident.length = 4)
    (ordC ordO : IterOrder (Idx × Nat)) :
    (∃ m, sb.finishWith ident ordC ordO = .panic m ∧ s.finish ordC ordO = .panic m) ∨
      ∃ out, s.finish ordC ordO = .ok out ∧
        ((sb.finishWith ident ordC ordO = .panic overflow ∧ out.decode = none) ∨
          ∃ bytes, sb.finishWith ident ordC ordO = .ok bytes ∧ 4 ∣ bytes.length ∧ (bytes.length < 2 ^ 31 → root bytes = out.decode)) := by
  unfold SerB.finishWith Ser.finish
  rw [h.base, h.hContracts, h.hContractStates, h.hObjects, h.hObjectStates]
  rcases patch_sim (b := s.base) (t := .prim .contractDataHandle) (as := fun v => v) (map := s.hContracts) wrote_patchC
    (ordC.order s.hContractStates.pairs) h.inv h.states with ⟨f1, sts1, stsT1, a1, a2, a3, a4, a5⟩ | ⟨m, a1, a2⟩
  · simp only [a1, a2]
    rcases patch_sim (b := s.base) (t := .prim .objectHandle) (as := fun v => v) (map := s.hObjects) wrote_patchO
      (ordO.order s.hObjectStates.pairs) a4 a5 with ⟨f2, sts2, stsT2, b1, b2, b3, b4, b5⟩ | ⟨m, b1, b2⟩
    · simp only [b1, b2]
      refine Or.inr ⟨_, rfl, ?_⟩
      have e12 := a3.trans b3
      have cs := h.contracts.imp fun _ _ x => Stored.mono x e12
      have os := h.objects.imp fun _ _ x => Stored.mono x e12
      obtain ⟨⟨f3, c⟩, h3⟩ := createVecOff_some (stored_inside cs)
      obtain ⟨e3, i3, s3⟩ := storedVec b4 cs h3
      rw [h3]
      simp only [Option.bind_some]
      cases h4 : f3.createVecOff sts2 with
      | none =>
        refine Or.inl ⟨rfl, ?_⟩
        rcases filled_forall b5 with ⟨vs, _, k2⟩ | ⟨k1, _⟩
        · obtain ⟨e, k3⟩ := createVecOff_some (f := f3) (fun t m => Nat.le_trans (stored_inside k2 t m) e3.le)
          rw [k3] at h4; cases h4
        · show (filled _).map _ = none
          rw [k1]; rfl
      | some e =>
        obtain ⟨f4, sv⟩ := e
        obtain ⟨e4, i4, l4, d4, _, r4⟩ := createVecOff_spec i3 h4
        simp only [Option.bind_some]
        obtain ⟨⟨f5, o⟩, h5⟩ := createVecOff_some (f := f4) (fun t m => Nat.le_trans (stored_inside os t m) (e3.trans e4).le)
        obtain ⟨e5, i5, s5⟩ := storedVec i4 (os.imp fun _ _ x => Stored.mono x (e3.trans e4)) h5
        rw [h5]
        simp only [Option.bind_some]
        obtain ⟨f6, r, h6, e6, i6, l6, _, m6, r6⟩ := createBaseline_spec i5 (Nat.le_trans s3.inside (e4.trans e5).le)
          (Nat.le_trans l4 e5.le) s5.inside
        rw [h6]
        simp only [Option.bind_some]
        have eAll : Ext sb.fbb f6 := e12.trans (e3.trans (e4.trans (e5.trans e6)))
        obtain ⟨bytes, h7, d7, _, r7⟩ := finish_good (ident := ident) hid (eAll.pow hp) m6 l6
        rw [h7]
        have hm : f6.minAlign = 4 ∨ f6.minAlign = 8 := by
          rcases eAll.pow hp with h | h | h | h | h <;> omega
        refine Or.inr ⟨bytes, rfl, Nat.dvd_trans (by rcases hm with h | h <;> rw [h] <;> decide) d7, fun hs => ?_⟩
        obtain ⟨good, hfol⟩ := r7 hs
        have hroot : root bytes = rdBaseline bytes (bytes.length - r) := hfol _ _
        rw [hroot, r6 bytes good, (s3.mono (e4.trans (e5.trans e6))).reads bytes good, r4 FbVal bytes (rdState bytes) (good.mono (e5.trans e6)),
          (s5.mono e6).reads bytes good]
        rcases filled_forall b5 with ⟨vs, k1, k2⟩ | ⟨k1, k2⟩
        · rw [mapO_forall (k2.imp fun t v x => x.reads bytes (good.mono (e3.trans (e4.trans (e5.trans e6)))))]
          show _ = (filled _).map _
          rw [k1]
          rfl
        · have hd : rdState bytes (bytes.length - wipDummy) = none := by
            have hle := createVecOff_le h4 _ k2
            have hle2 := (good.mono (e5.trans e6)).le
            have h4 : 4 ∣ bytes.length := good.aligned 4 width4 m6
            have hrd : rd bytes 4 (bytes.length - wipDummy) = none := by
              unfold rd
              rw [if_neg]
              rw [show wipDummy = 1337 from rfl] at hle ⊢
              omega
            unfold rdState rdTable
            rw [hrd]
            rfl
          rw [mapO_none (k := fun t => rdState bytes (bytes.length - t)) (t := wipDummy) k2 hd]
          show _ = (filled _).map _
          rw [k1]
          rfl
    · simp only [b1, b2]
      exact Or.inl ⟨m, rfl, rfl⟩
  · simp only [a1, a2]
    exact Or.inl ⟨m, rfl, rfl⟩

end Verif.Fb
