import Verif.Proofs.FfiTyped
/-!
# Disciplined programs do not get stuck
-/
namespace Verif.Ffi

theorem passed_moved (bs : List B) (x : Param × Nat) (m : Nat) (b' : B) (h : (passed bs x)[m]? = some b') :
    ∃ b, bs[m]? = some b ∧ b.moved ≤ b'.moved ∧ ((∃ t, x.1 = .refMut t true) → rootOf bs x.2 = m → b.moved < b'.moved) := by
  obtain ⟨q, i⟩ := x
  cases q with
  | ref t => exact ⟨b', h, Nat.le_refl _, by rintro ⟨_, e⟩; cases e⟩
  | refMut t mv =>
    cases mv with
    | false => simp only [passed, Bool.false_eq_true, if_false] at h; exact ⟨b', h, Nat.le_refl _, by rintro ⟨_, e⟩; cases e⟩
    | true =>
      simp only [passed, if_true, modify_get] at h
      split at h
      · rename_i hr
        cases hb : bs[m]? with
        | none => rw [hb] at h; cases h
        | some b => rw [hb] at h; simp only [Option.map_some, Option.some.injEq] at h; subst h; exact ⟨b, rfl, by simp, fun _ _ => by simp⟩
      · rename_i hr
        exact ⟨b', h, Nat.le_refl _, fun _ e => absurd e hr⟩
  | box t =>
    simp only [passed, modify_get] at h
    split at h
    · cases hb : bs[m]? with
      | none => rw [hb] at h; cases h
      | some b => rw [hb] at h; simp only [Option.map_some, Option.some.injEq] at h; subst h; exact ⟨b, rfl, Nat.le_refl _, by rintro ⟨_, e⟩; cases e⟩
    · exact ⟨b', h, Nat.le_refl _, by rintro ⟨_, e⟩; cases e⟩

theorem foldl_passed_moved (xs : List (Param × Nat)) : ∀ (bs : List B) (m : Nat) (b' : B), (xs.foldl passed bs)[m]? = some b' →
    ∃ b, bs[m]? = some b ∧ b.moved ≤ b'.moved := by
  induction xs with
  | nil => intro bs m b' h; exact ⟨b', h, Nat.le_refl _⟩
  | cons x xs ih =>
    intro bs m b' h
    obtain ⟨b1, h1, h2⟩ := ih _ m b' h
    obtain ⟨b, h3, h4, _⟩ := passed_moved bs x m b1 h1
    exact ⟨b, h3, Nat.le_trans h4 h2⟩

/-- The first argument moves. -/
theorem foldl_passed_moved_head (x : Param × Nat) (xs : List (Param × Nat)) (bs : List B) (m : Nat) (b' : B)
    (h : ((x :: xs).foldl passed bs)[m]? = some b') (hx : ∃ t, x.1 = .refMut t true) (hr : rootOf bs x.2 = m) :
    ∃ b, bs[m]? = some b ∧ b.moved < b'.moved := by
  obtain ⟨b1, h1, h2⟩ := foldl_passed_moved xs _ m b' h
  obtain ⟨b, h3, h4, h5⟩ := passed_moved bs x m b1 h1
  exact ⟨b, h3, Nat.lt_of_lt_of_le (h5 hx hr) h2⟩

/-- Cells after a call, before a result is added: the same, or one object replaced. -/
structure Kept (bs : List B) (bs1 : List B) (cells cells' : List Cell) : Prop where
  len : cells'.length = cells.length
  view : ∀ (i r : Nat) (path : List PStep), cells'[i]? = some (.view r path) ↔ cells[i]? = some (.view r path)
  own : ∀ (i : Nat) (o' : NObj), cells'[i]? = some (.own o') → ∃ o, cells[i]? = some (.own o) ∧ (∀ c, o.hasTy c → o'.hasTy c) ∧
    ((∃ b b', bs[i]? = some b ∧ bs1[i]? = some b' ∧ b.moved < b'.moved) ∨
      ∀ (path : List PStep) (y : NObj) (c : NTy), pathGet path o = some y → y.hasTy c → ∃ y', pathGet path o' = some y' ∧ y'.hasTy c)

theorem kept_refl (bs bs1 : List B) (cells : List Cell) : Kept bs bs1 cells cells :=
  ⟨rfl, fun _ _ _ => Iff.rfl, fun i o h => ⟨o, h, fun _ h => h, .inr fun _ y _ h1 h2 => ⟨y, h1, h2⟩⟩⟩

/-- Soundness is kept by such a change. -/
theorem sound_kept {cells cells' : List Cell} {bs bs1 : List B} (hk : Sound cells bs) (hkeep : Kept bs bs1 cells cells')
    (hmeta : ∀ (i : Nat) (b1 : B), bs1[i]? = some b1 → ∃ b, bs[i]? = some b ∧ b1.cls = b.cls ∧ b1.own = b.own ∧ b1.root = b.root ∧
      b1.stamp = b.stamp ∧ b.moved ≤ b1.moved) : Sound cells' bs1 := by
  have hstamp : ∀ (i : Nat) (b r : B), bs1[i]? = some b → b.own ≠ .owned → bs1[b.root]? = some r → b.stamp ≤ r.moved := by
    intro i b r hb ho hr
    obtain ⟨b0, e0, e1, e2, e3, e4, e5⟩ := hmeta i b hb
    obtain ⟨r0, f0, _, _, _, _, f5⟩ := hmeta _ r hr
    rw [e3] at f0
    have := hk.stamp i b0 r0 e0 (by rw [← e2]; exact ho) f0
    rw [e4]; exact Nat.le_trans this f5
  refine ⟨?_, ?_, hstamp, ?_⟩
  · intro i b o hb ho
    obtain ⟨b0, e0, e1, _⟩ := hmeta i b hb
    obtain ⟨o0, f0, f1, _⟩ := hkeep.own i o ho
    rw [e1]; exact f1 _ (hk.own i b0 o0 e0 f0)
  · intro i b r path o hb hbo hv hr hst ho
    obtain ⟨b0, e0, e1, e2, e3, e4, _⟩ := hmeta i b hb
    have hown : b0.own ≠ .owned := by rw [← e2]; exact hbo
    obtain ⟨r0, f0, _, _, _, _, f5⟩ := hmeta _ r hr
    rw [hkeep.view, e3] at hv
    rw [e3] at f0 ho
    obtain ⟨o0, g0, g1, g2⟩ := hkeep.own _ o ho
    have hle := hk.stamp i b0 r0 e0 hown f0
    rw [e4] at hst
    have hst0 : b0.stamp = r0.moved := by omega
    obtain ⟨x, h1, h2⟩ := hk.view i b0 r0 path o0 e0 hown hv f0 hst0 g0
    rcases g2 with ⟨c, c', k1, k2, k3⟩ | g2
    · rw [f0] at k1; injection k1 with k1; subst k1
      rw [e3] at hr; rw [hr] at k2; injection k2 with k2; subst k2
      omega
    · obtain ⟨y, h3, h4⟩ := g2 path x _ h1 h2
      exact ⟨y, h3, by rw [e1]; exact h4⟩
  · intro i b path hb ho hv
    obtain ⟨b0, e0, e1, e2, e3, _⟩ := hmeta i b hb
    rw [hkeep.view, e3] at hv
    rw [e1]
    exact hk.writable i b0 path e0 (by rw [← e2]; exact ho) hv


/-- Adding an owner. -/
theorem sound_box {cells : List Cell} {bs : List B} (hk : Sound cells bs) (hl : cells.length = bs.length)
    (hroot : ∀ (i : Nat) (b : B), bs[i]? = some b → ∃ r, bs[b.root]? = some r)
    (o : NObj) (t : NTy) (ho : o.hasTy t) (nb : B) (hn : nb.cls = t) (hno : nb.own = .owned) :
    Sound (cells ++ [.own o]) (bs ++ [nb]) := by
  have hrt : ∀ (i : Nat) (b : B), bs[i]? = some b → b.root < bs.length := by
    intro i b hb
    obtain ⟨r, hr⟩ := hroot i b hb
    exact (List.getElem?_eq_some_iff.1 hr).1
  refine ⟨?_, ?_, ?_, ?_⟩
  · intro i b x hb hx
    rcases get_append_cases hb with ⟨hb, hlt⟩ | ⟨hi, hb⟩
    · rw [List.getElem?_append_left (by omega)] at hx
      exact hk.own i b x hb hx
    · subst hb; subst hi
      rw [← hl] at hx
      simp at hx
      subst hx; rw [hn]; exact ho
  · intro i b r path x hb hbo hv hr hst hx
    rcases get_append_cases hb with ⟨hb, hlt⟩ | ⟨hi, hb⟩
    · have := hrt i b hb
      rw [List.getElem?_append_left (by omega)] at hv hx hr
      exact hk.view i b r path x hb hbo hv hr hst hx
    · subst hb; exact absurd hno hbo
  · intro i b r hb hbo hr
    rcases get_append_cases hb with ⟨hb, hlt⟩ | ⟨hi, hb⟩
    · have := hrt i b hb
      rw [List.getElem?_append_left (by omega)] at hr
      exact hk.stamp i b r hb hbo hr
    · subst hb; exact absurd hno hbo
  · intro i b path hb hbo hv
    rcases get_append_cases hb with ⟨hb, hlt⟩ | ⟨hi, hb⟩
    · rw [List.getElem?_append_left (by omega)] at hv
      exact hk.writable i b path hb hbo hv
    · subst hb; rw [hno] at hbo; cases hbo

/-- Adding a borrow. -/
theorem sound_borrow {cells : List Cell} {bs : List B} (hk : Sound cells bs) (hl : cells.length = bs.length)
    (hroot : ∀ (i : Nat) (b : B), bs[i]? = some b → ∃ r, bs[b.root]? = some r)
    (nb r0 : B) (o y : NObj) (path : List PStep) (hr0 : bs[nb.root]? = some r0) (hst : nb.stamp = r0.moved)
    (ho : cells[nb.root]? = some (.own o)) (hy : pathGet path o = some y) (hyt : y.hasTy nb.cls) (hno : nb.own ≠ .owned)
    (hm : nb.own = .mutRef → ∃ t h, path = [.state t h] ∧ nb.cls = .state t) :
    Sound (cells ++ [.view nb.root path]) (bs ++ [nb]) := by
  have hrt : ∀ (i : Nat) (b : B), bs[i]? = some b → b.root < bs.length := by
    intro i b hb
    obtain ⟨r, hr⟩ := hroot i b hb
    exact (List.getElem?_eq_some_iff.1 hr).1
  have hnr : nb.root < bs.length := (List.getElem?_eq_some_iff.1 hr0).1
  have hnew : (cells ++ [Cell.view nb.root path])[bs.length]? = some (.view nb.root path) := by rw [← hl]; simp
  refine ⟨?_, ?_, ?_, ?_⟩
  · intro i b x hb hx
    rcases get_append_cases hb with ⟨hb, hlt⟩ | ⟨hi, hb⟩
    · rw [List.getElem?_append_left (by omega)] at hx
      exact hk.own i b x hb hx
    · subst hi; rw [hnew] at hx; simp at hx
  · intro i b r p x hb hbo hv hr hst' hx
    rcases get_append_cases hb with ⟨hb, hlt⟩ | ⟨hi, hb⟩
    · have := hrt i b hb
      rw [List.getElem?_append_left (by omega)] at hv hx hr
      exact hk.view i b r p x hb hbo hv hr hst' hx
    · subst hb; subst hi
      rw [hnew] at hv
      simp only [Option.some.injEq, Cell.view.injEq, true_and] at hv
      subst hv
      rw [List.getElem?_append_left (by omega), ho] at hx
      injection hx with hx; injection hx with hx; subst hx
      exact ⟨y, hy, hyt⟩
  · intro i b r hb hbo hr
    rcases get_append_cases hb with ⟨hb, hlt⟩ | ⟨hi, hb⟩
    · have := hrt i b hb
      rw [List.getElem?_append_left (by omega)] at hr
      exact hk.stamp i b r hb hbo hr
    · subst hb
      rw [List.getElem?_append_left (by omega), hr0] at hr
      injection hr with hr; subst hr; omega
  · intro i b p hb hbo hv
    rcases get_append_cases hb with ⟨hb, hlt⟩ | ⟨hi, hb⟩
    · rw [List.getElem?_append_left (by omega)] at hv
      exact hk.writable i b p hb hbo hv
    · subst hb; subst hi
      rw [hnew] at hv
      simp only [Option.some.injEq, Cell.view.injEq, true_and] at hv
      subst hv
      exact hm hbo

/-- An allowed call returns or ends the process, and soundness is kept. -/
theorem sound_method {s : VWorld} {cells : List Cell} {bs : List B} (hs : Sim s cells bs) (hk : Sound cells bs) (a : Api)
    (hb : a.broken = false) (d : a.Data) (args : List Nat) (ha : allowed bs a.method.sig args) :
    ((∃ n o, (Cell.step cells (.method a d args)).2 = .ok n o) ∨ ∃ m, (Cell.step cells (.method a d args)).2 = .abort m) ∧
    ((Cell.step cells (.method a d args)).2.ends = false →
      Sound (Cell.step cells (.method a d args)).1 (after bs a.method.sig args)) := by
  have ha' := ha
  obtain ⟨hl, hall, hpw⟩ := ha'
  obtain ⟨os, hos, hfit⟩ := sound_reads hs hk a.method.sig.params args hl hall
  have hgood := exec_typed a hb d os hfit
  have hmeta : ∀ (i : Nat) (b1 : B), ((a.method.sig.params.zip args).foldl passed bs)[i]? = some b1 →
      ∃ b, bs[i]? = some b ∧ b1.cls = b.cls ∧ b1.own = b.own ∧ b1.root = b.root ∧ b1.stamp = b.stamp ∧ b.moved ≤ b1.moved := by
    intro i b1 h1
    obtain ⟨b0, e0, e1, e2, e3, e4⟩ := foldl_passed_old _ h1
    obtain ⟨b0', f0, f1⟩ := foldl_passed_moved _ _ _ _ h1
    rw [e0] at f0; injection f0 with f0; subst f0
    exact ⟨b0, e0, e1, e2, e3, e4, f1⟩
  have hfl := foldl_passed_length (a.method.sig.params.zip args) bs
  have hroot1 : ∀ (i : Nat) (b : B), ((a.method.sig.params.zip args).foldl passed bs)[i]? = some b →
      ∃ r, ((a.method.sig.params.zip args).foldl passed bs)[b.root]? = some r := by
    intro i b h1
    obtain ⟨b0, e0, _, _, e3, _⟩ := hmeta i b h1
    obtain ⟨r, hr, _⟩ := hs.inv.borRoot i b0 e0
    have := (List.getElem?_eq_some_iff.1 hr).1
    rw [e3]
    exact ⟨_, List.getElem?_eq_getElem (by rw [hfl]; exact this)⟩
  unfold Cell.step
  simp only [hos]
  cases hex : exec a d os with
  | stuck => rw [hex] at hgood; exact hgood.elim
  | panic m => simp only [hex]; exact ⟨.inr ⟨m, rfl⟩, fun h => by simp [VRes.ends] at h⟩
  | done wr ret =>
    rw [hex] at hgood
    obtain ⟨g1, g2, g3⟩ := hgood
    obtain ⟨hagree, _⟩ := exec_shape a d os wr ret hex
    have hw : ∃ cells', Cell.written cells args wr = some cells' ∧ (wr = none → cells' = cells) ∧
        Kept bs ((a.method.sig.params.zip args).foldl passed bs) cells cells' := by
      cases wr with
      | none => exact ⟨cells, rfl, fun _ => rfl, kept_refl _ _ _⟩
      | some n =>
        obtain ⟨t, mv, hq, hn, hmv⟩ := g1 n rfl
        cases args with
        | nil =>
          have := (List.getElem?_eq_some_iff.1 hq).1
          simp at hl; omega
        | cons i0 rest =>
          cases hps : a.method.sig.params with
          | nil => rw [hps] at hq; simp at hq
          | cons q qs =>
            rw [hps] at hq hall
            simp only [List.getElem?_cons_zero, Option.some.injEq] at hq
            subst hq
            obtain ⟨hu, b, hbi, hf⟩ := hall (.refMut t mv, i0) (by simp)
            obtain ⟨o, o', e1, e2, e3, e4⟩ := sound_write hs hk hu hbi hf n hn hmv
            refine ⟨_, e2, (fun e => by cases e), by simp, ?_, ?_⟩
            · intro i r path
              by_cases hi : b.root = i
              · subst hi
                rw [List.getElem?_set_self (List.getElem?_eq_some_iff.1 e1).1, e1]
                simp
              · rw [List.getElem?_set_ne hi]
            · intro i x hx
              by_cases hi : b.root = i
              · subst hi
                rw [List.getElem?_set_self (List.getElem?_eq_some_iff.1 e1).1] at hx
                simp only [Option.some.injEq, Cell.own.injEq] at hx
                subst hx
                refine ⟨o, e1, e3, ?_⟩
                cases mv with
                | false => exact .inr (e4 rfl)
                | true =>
                  left
                  obtain ⟨r, hr, _⟩ := hs.inv.borRoot i0 b hbi
                  have hlt := (List.getElem?_eq_some_iff.1 hr).1
                  rw [hps] at hfl
                  obtain ⟨r1, hr1⟩ : ∃ r1, (((Param.refMut t true :: qs).zip (i0 :: rest)).foldl passed bs)[b.root]? = some r1 :=
                    ⟨_, List.getElem?_eq_getElem (by rw [hfl]; exact hlt)⟩
                  obtain ⟨r0, k1, k2⟩ := foldl_passed_moved_head (.refMut t true, i0) (qs.zip rest) bs b.root r1 hr1 ⟨t, rfl⟩ (rootOf_eq hbi)
                  exact ⟨r0, r1, k1, hr1, k2⟩
              · rw [List.getElem?_set_ne hi] at hx
                exact ⟨x, hx, fun _ h => h, .inr fun _ y _ h1 h2 => ⟨y, h1, h2⟩⟩
    obtain ⟨cells', hwr, hsame, hkeep⟩ := hw
    have hs1 := sound_kept hk hkeep hmeta
    have hl1 : cells'.length = ((a.method.sig.params.zip args).foldl passed bs).length := by rw [hkeep.len, hs.lenC, hfl]
    have hnothing : a.method.sig.ret = .nothing → Sound cells' (after bs a.method.sig args) := by
      intro hr
      unfold after
      rw [hr]
      exact hs1
    simp only [hex, hwr]
    cases ret with
    | nothing => exact ⟨.inl ⟨none, none, rfl⟩, fun _ => hnothing hagree⟩
    | val o => exact ⟨.inl ⟨none, some o, rfl⟩, fun _ => hnothing hagree⟩
    | box o =>
      obtain ⟨t, hr⟩ := hagree
      refine ⟨.inl ⟨_, none, rfl⟩, fun _ => ?_⟩
      unfold after
      rw [hr]
      exact sound_box hs1 hl1 hroot1 o t (g2 o rfl t hr) _ rfl rfl
    | borrow st =>
      obtain ⟨t, m, hr⟩ := hagree
      obtain ⟨hwn, g4⟩ := g3 st rfl
      obtain ⟨x, y, hx, hy, hyt, hmut⟩ := g4 t m hr
      refine ⟨.inl ⟨_, none, rfl⟩, fun _ => ?_⟩
      have hcc := hsame hwn
      rw [hcc] at hs1 hl1
      rw [hcc]
      cases args with
      | nil => simp only [Cell.reads, Option.some.injEq] at hos; subst hos; simp at hx
      | cons i0 rest =>
        cases hps : a.method.sig.params with
        | nil => rw [hps] at hl; simp at hl
        | cons q qs =>
          obtain ⟨hu, b, hbi, hf⟩ := hall (q, i0) (by rw [hps]; simp)
          -- what the first argument stands for
          obtain ⟨b', r, o, al, path, hb', hr', hro, _, hpth, _, hc, _, hcase⟩ := sim_place hs hu
          rw [hbi] at hb'; injection hb' with hb'; subst hb'
          have hread : Cell.read cells i0 = some x := by
            simp only [Cell.reads] at hos
            split at hos
            · rename_i o1 os1 e1 e2
              injection hos with hos
              subst hos
              simp only [List.getElem?_cons_zero, Option.some.injEq] at hx
              subst hx; exact e1
            · cases hos
          have hpath : pathGet path o = some x := by
            rcases hcase with ⟨h1, h2, _⟩ | ⟨h1, _⟩
            · rw [h1] at hc
              simp only [Cell.read, hc] at hread
              subst h2; exact hread
            · simpa only [Cell.read, h1, hc] using hread
          have hpart : Cell.part cells ((i0 :: rest).headD 0) st = .view b.root (path ++ [st]) := by
            unfold Cell.part
            rw [List.headD_cons]
            rcases hcase with ⟨e1, e2, _⟩ | ⟨e1, _⟩
            · rw [e1] at hc ⊢
              simp only [hc, e2, List.nil_append]
            · simp only [e1]
          have hb1 : ∃ b1, ((a.method.sig.params.zip (i0 :: rest)).foldl passed bs)[i0]? = some b1 ∧ b1.root = b.root := by
            have hlt := (List.getElem?_eq_some_iff.1 hbi).1
            have h1 : ((a.method.sig.params.zip (i0 :: rest)).foldl passed bs)[i0]? = some _ := List.getElem?_eq_getElem (by rw [hfl]; exact hlt)
            obtain ⟨b2, e0, _, _, e3, _⟩ := hmeta _ _ h1
            rw [hbi] at e0; injection e0 with e0; subst e0
            exact ⟨_, h1, e3⟩
          obtain ⟨b1, hb1, hb1r⟩ := hb1
          obtain ⟨r1, hr1⟩ := hroot1 _ _ hb1
          rw [hb1r] at hr1
          unfold after
          rw [hr]
          simp only [returned, List.getElem?_cons_zero, rootOf_eq hb1, hb1r, hr1, Option.map_some, Option.getD_some, hpart]
          refine sound_borrow hs1 hl1 hroot1 ⟨t, if m then .mutRef else .sharedRef, true, b.root, r1.moved, 0⟩ r1 o y (path ++ [st]) hr1 rfl hc
            (by rw [pathGet_append path o x st hpath]; exact hy) hyt (by cases m <;> simp) ?_
          intro hm
          have hmt : m = true := by cases m <;> simp_all
          obtain ⟨t', h', e1, e2, e3⟩ := hmut hmt
          refine ⟨t', h', ?_, e2⟩
          have hpe : path = [] := by
            rw [hps] at e3
            simp only [List.getElem?_cons_zero, Option.some.injEq] at e3
            subst e3
            rcases hcase with ⟨_, e, _⟩ | ⟨e, hno⟩
            · exact e
            · have hmr : b.own = .mutRef := by
                cases hbo : b.own with
                | owned => exact absurd hbo hno
                | sharedRef => exact absurd hbo hf.2
                | mutRef => rfl
              obtain ⟨_, _, _, hcl⟩ := hk.writable i0 b path hbi hmr e
              rw [hf.1] at hcl; cases hcl
          rw [hpe, e1]; rfl

theorem sound_dispose {cells : List Cell} {bs : List B} (hk : Sound cells bs) (i : Nat) :
    Sound cells (bs.modify i fun b => { b with full := false }) := by
  refine sound_kept hk (kept_refl bs _ cells) ?_
  intro j b1 h1
  rw [modify_get] at h1
  split at h1
  · cases hb : bs[j]? with
    | none => rw [hb] at h1; cases h1
    | some b => rw [hb] at h1; simp only [Option.map_some, Option.some.injEq] at h1; subst h1; exact ⟨b, rfl, rfl, rfl, rfl, rfl, Nat.le_refl _⟩
  · exact ⟨b1, h1, rfl, rfl, rfl, rfl, Nat.le_refl _⟩

/-- Every step of a disciplined program returns, or the process ends with a panic. -/
theorem sound_run (cs : List VCall) : ∀ (s : VWorld) (cells : List Cell) (bs bs' : List B), Sim s cells bs → Sound cells bs →
    Disciplined bs (cs.map VCall.erase) bs' → ∀ r ∈ Cell.run cells cs, (∃ n o, r = .ok n o) ∨ ∃ m, r = .abort m := by
  induction cs with
  | nil => intro _ _ _ _ _ _ _ r hr; simp [Cell.run] at hr
  | cons c cs ih =>
    intro s cells bs bs' hs hk hd
    cases c with
    | method a d args =>
      cases hd with
      | method _ _ _ _ _ hb ha hd' =>
        obtain ⟨h1, h2⟩ := sim_method hs a hb d args ha
        obtain ⟨k1, k2⟩ := sound_method hs hk a hb d args ha
        rw [h1] at h2
        cases hcell : Cell.step cells (.method a d args) with
        | mk c1 r2 =>
          rw [hcell] at h2 k1 k2
          simp only at h2 k1 k2
          simp only [Cell.run, hcell]
          cases hr : r2.ends with
          | true => simp only [if_true, List.mem_singleton]; rintro r rfl; exact k1
          | false =>
            simp only [Bool.false_eq_true, if_false, List.mem_cons]
            rintro r (rfl | hr')
            · exact k1
            · exact ih _ c1 _ bs' (h2 hr) (k2 hr) hd' r hr'
    | dispose i =>
      cases hd with
      | dispose _ _ _ _ hl hd' =>
        obtain ⟨h1, h2⟩ := sim_dispose hs i hl
        have e2 : Cell.step cells (.dispose i) = (cells, .ok none none) := rfl
        simp only [Cell.run, e2, VRes.ends, Bool.false_eq_true, if_false, List.mem_cons]
        rintro r (rfl | hr')
        · exact .inl ⟨_, _, rfl⟩
        · exact ih _ cells _ bs' h2 (sound_dispose hk i) hd' r hr'

theorem sound_init : Sound [] [] := ⟨by simp, by simp, by simp, by simp⟩

end Verif.Ffi
