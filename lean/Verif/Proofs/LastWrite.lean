import Verif.Proofs.Database
/-!
# Where the values in a database come from
-/
namespace Verif
open Spec

/-- Handles with a meaning have been given out. -/
def TMap.Known {F : PropType → Type} (m : TMap F) : Prop := ∀ (t : PropType) (h : Idx) (v : F t), (m t).find h = some v → h ∈ (m t).issued

theorem find_add {α : Type} (m : HMap α) (i j : Idx) (v : α) : (m.add i v).find j = if j = i then some v else m.find j := rfl
theorem find_set {α : Type} (m : HMap α) (i j : Idx) (v : α) : (m.set i v).find j = if j = i then some v else m.find j := rfl

theorem alloc_origin {F : PropType → Type} {m m' : TMap F} {ps : List ((t : PropType) × F t)} {is : List Idx} (ha : Alloc m ps is m')
    (hk : TMap.Known m) : TMap.Known m' ∧ (∀ (t : PropType) (h : Idx) (v : F t), (m t).find h = some v → (m' t).find h = some v) ∧
      ∀ (t : PropType) (h : Idx) (v : F t), (m' t).find h = some v →
        (m t).find h = some v ∨ ((m t).find h = none ∧ ∃ n : Nat, ps[n]? = some ⟨t, v⟩ ∧ is[n]? = some h) := by
  induction ha with
  | nil m => exact ⟨hk, fun _ _ _ h => h, fun t h v hv => .inl hv⟩
  | cons m t v i ps is m' fresh rest ih =>
    have hnone : (m t).find i = none := by
      cases hx : (m t).find i with
      | none => rfl
      | some w => exact absurd (hk t i w hx) fresh
    have hk1 : TMap.Known (Function.update m t ((m t).add i v)) := by
      intro t' h w hw
      by_cases ht : t' = t
      · subst ht
        rw [Function.update_self] at hw ⊢
        rw [find_add] at hw
        split at hw
        · rename_i e; subst e; exact List.mem_cons_self
        · exact List.mem_cons_of_mem _ (hk _ h w hw)
      · rw [Function.update_of_ne ht] at hw ⊢
        exact hk t' h w hw
    obtain ⟨k1, k2, k3⟩ := ih hk1
    refine ⟨k1, ?_, ?_⟩
    · intro t' h w hw
      apply k2
      by_cases ht : t' = t
      · subst ht
        rw [Function.update_self, find_add, if_neg (fun e : h = i => by subst e; rw [hnone] at hw; cases hw)]
        exact hw
      · rw [Function.update_of_ne ht]; exact hw
    · intro t' h w hw
      rcases k3 t' h w hw with q | ⟨q1, n, q2, q3⟩
      · by_cases ht : t' = t
        · subst ht
          rw [Function.update_self, find_add] at q
          split at q
          · rename_i e
            subst e
            cases q
            exact .inr ⟨hnone, 0, rfl, rfl⟩
          · exact .inl q
        · rw [Function.update_of_ne ht] at q
          exact .inl q
      · refine .inr ⟨?_, n + 1, by simpa using q2, by simpa using q3⟩
        by_cases ht : t' = t
        · subst ht
          rw [Function.update_self, find_add] at q1
          split at q1
          · cases q1
          · exact q1
        · rw [Function.update_of_ne ht] at q1
          exact q1

theorem update_find {F : PropType → Type} (m : TMap F) (t : PropType) (h : Idx) (v : F t) (t' : PropType) (h' : Idx) (w : F t')
    (hw : (Function.update m t ((m t).set h v) t').find h' = some w) :
    ((⟨t', h'⟩ : PropType × Idx) ≠ ⟨t, h⟩ ∧ (m t').find h' = some w) ∨
      ((⟨t', h'⟩ : PropType × Idx) = ⟨t, h⟩ ∧ HEq w v) := by
  by_cases ht : t' = t
  · subst ht
    rw [Function.update_self, find_set] at hw
    split at hw
    · rename_i e; subst e; cases hw; exact .inr ⟨rfl, HEq.rfl⟩
    · rename_i e; exact .inl ⟨fun q => e (Prod.mk.inj q).2, hw⟩
  · rw [Function.update_of_ne ht] at hw
    exact .inl ⟨fun q => ht (Prod.mk.inj q).1, hw⟩

theorem update_known {F : PropType → Type} (m : TMap F) (t : PropType) (h : Idx) (v old : F t) (hk : TMap.Known m)
    (hl : (m t).find h = some old) : TMap.Known (Function.update m t ((m t).set h v)) := by
  intro t' h' w hw
  by_cases ht : t' = t
  · subst ht
    rw [Function.update_self] at hw ⊢
    rw [find_set] at hw
    split at hw
    · rename_i e; subst e; exact hk _ _ _ hl
    · exact hk _ _ _ hw
  · rw [Function.update_of_ne ht] at hw ⊢
    exact hk _ _ _ hw

/-- One call: where the meaning of a state handle comes from. -/
theorem step_state_origin {db db' : DB} {op : BOp} {out : BOut} (hs : DB.Step db op out db') (hk : TMap.Known db.states) :
    TMap.Known db'.states ∧ ∀ (t : PropType) (h : Idx) (v : t.Carrier), (db'.states t).find h = some v →
      (op = .writeState t h v ∧ out = .ok none) ∨
      ((db.states t).find h = some v ∧ ∀ w : t.Carrier, (op, out) ≠ (.writeState t h w, .ok none)) ∨
      ((db.states t).find h = none ∧ ∃ (C : ContractTy) (k : Idx) (ss : List DynProp) (cs : List DynChannel) (o : Idx) (n : Nat) (ob : ObjectD), op = .create C k ss cs ∧ out = .ok (some o) ∧
        (ss.map DynProp.typed)[n]? = some ⟨t, v⟩ ∧ db'.objects.find o = some ob ∧ ob.contract = k ∧ ob.states[n]? = some h) := by
  cases hs with
  | create C h o ss cs cd is js S K can reg hS hK fresh =>
    obtain ⟨a1, -, a3⟩ := alloc_origin hS hk
    refine ⟨a1, fun t i v hv => ?_⟩
    rcases a3 t i v hv with q | ⟨q1, n, q2, q3⟩
    · exact .inr (.inl ⟨q, fun w e => by cases e⟩)
    · refine .inr (.inr ⟨q1, C, h, ss, cs, o, n, ⟨is, js, h, TimeWarp.default⟩, rfl, rfl, q2, ?_, rfl, q3⟩)
      show (db.objects.add o _).find o = _
      rw [find_add, if_pos rfl]
  | writeState t h v old live =>
    refine ⟨update_known _ t h v old hk live, fun t' h' w hw => ?_⟩
    rcases update_find _ t h v t' h' w hw with ⟨q1, q2⟩ | ⟨q1, q2⟩
    · exact .inr (.inl ⟨q2, fun w' e => q1 (by cases e; rfl)⟩)
    · cases q1
      cases q2
      exact .inl ⟨rfl, rfl⟩
  | _ => exact ⟨hk, fun t i v hv => .inr (.inl ⟨hv, fun w e => by cases e⟩)⟩

/-- The same for channels. -/
theorem step_channel_origin {db db' : DB} {op : BOp} {out : BOut} (hs : DB.Step db op out db') (hk : TMap.Known db.channels) :
    TMap.Known db'.channels ∧ ∀ (t : PropType) (h : Idx) (v : t.Chan), (db'.channels t).find h = some v →
      (op = .writeChannel t h v ∧ out = .ok none) ∨
      ((db.channels t).find h = some v ∧ ∀ w : t.Chan, (op, out) ≠ (.writeChannel t h w, .ok none)) ∨
      ((db.channels t).find h = none ∧ ∃ (C : ContractTy) (k : Idx) (ss : List DynProp) (cs : List DynChannel) (o : Idx) (n : Nat) (ob : ObjectD), op = .create C k ss cs ∧ out = .ok (some o) ∧
        cs[n]? = some ⟨t, v⟩ ∧ db'.objects.find o = some ob ∧ ob.contract = k ∧ ob.channels[n]? = some h) := by
  cases hs with
  | create C h o ss cs cd is js S K can reg hS hK fresh =>
    obtain ⟨a1, -, a3⟩ := alloc_origin hK hk
    refine ⟨a1, fun t i v hv => ?_⟩
    rcases a3 t i v hv with q | ⟨q1, n, q2, q3⟩
    · exact .inr (.inl ⟨q, fun w e => by cases e⟩)
    · refine .inr (.inr ⟨q1, C, h, ss, cs, o, n, ⟨is, js, h, TimeWarp.default⟩, rfl, rfl, q2, ?_, rfl, q3⟩)
      show (db.objects.add o _).find o = _
      rw [find_add, if_pos rfl]
  | writeChannel t h v old live =>
    refine ⟨update_known _ t h v old hk live, fun t' h' w hw => ?_⟩
    rcases update_find _ t h v t' h' w hw with ⟨q1, q2⟩ | ⟨q1, q2⟩
    · exact .inr (.inl ⟨q2, fun w' e => q1 (by cases e; rfl)⟩)
    · cases q1
      cases q2
      exact .inl ⟨rfl, rfl⟩
  | _ => exact ⟨hk, fun t i v hv => .inr (.inl ⟨hv, fun w e => by cases e⟩)⟩

theorem reads_some {α : Type} {a : Outcome α} {m : Option α} (h : Reads a m) (v : α) : a = .ok v ↔ m = some v := by
  cases m with
  | none =>
    refine ⟨fun e => ?_, fun e => by cases e⟩
    subst e
    cases h
  | some w =>
    refine ⟨fun e => ?_, fun e => ?_⟩
    · rw [show a = .ok w from h] at e; cases e; rfl
    · cases e; exact h

theorem reads_none {α : Type} {a : Outcome α} {m : Option α} (h : Reads a m) (e : m = none) : a.isErr = true := by
  subst e; exact h

theorem trace_state_origin {b b' : Baseline} {evs : List Event} (ht : Trace b evs b') : ∀ {P : List Event} {db : DB}, BInv P b → BSim b db →
    TMap.Known db.states → ∀ (t : PropType) (h : Idx) (v : t.Carrier), b'.state t h = .ok v →
    (b.state t h = .ok v ∧ ∀ w : t.Carrier, (BOp.writeState t h w, Outcome.ok none) ∉ evs) ∨
    ∃ before e after b1, evs = before ++ e :: after ∧ Trace b before b1 ∧ (∀ w : t.Carrier, (BOp.writeState t h w, Outcome.ok none) ∉ after) ∧
      (e = (.writeState t h v, .ok none) ∨
       ((b1.state t h).isErr = true ∧ ∃ (C : ContractTy) (k : Idx) (ss : List DynProp) (cs : List DynChannel) (o : Idx) (n : Nat), e = (.create C k ss cs, .ok (some o)) ∧
         (ss.map DynProp.typed)[n]? = some ⟨t, v⟩ ∧ (b1.step e.1).1.bindState ⟨n, k⟩ o = .ok h)) := by
  induction ht with
  | nil b => exact fun _ _ _ t h v hv => .inl ⟨hv, fun _ h => by cases h⟩
  | cons b op evs b' rest ih =>
    intro P db hb hs hk t h v hv
    obtain ⟨db1, d1, d2⟩ := step_sim hb hs op
    obtain ⟨s1, s2⟩ := step_state_origin d1 hk
    rcases ih (step_binv hb op) d2 s1 t h v hv with ⟨q1, q2⟩ | ⟨before, e, after, b2, q1, q2, q3, q4⟩
    · rcases s2 t h v ((reads_some (d2.answers.state t h) v).1 q1) with ⟨e1, e2⟩ | ⟨r1, r2⟩ | ⟨r1, C, k, ss, cs, o, n, ob, e1, e2, r2, r3, r4, r5⟩
      · exact .inr ⟨[], _, evs, b, rfl, .nil b, q2, .inl (by rw [e2, e1])⟩
      · refine .inl ⟨(reads_some (hs.answers.state t h) v).2 r1, fun w hw => ?_⟩
        rcases List.mem_cons.1 hw with e | hw
        · exact r2 w e.symm
        · exact q2 w hw
      · refine .inr ⟨[], _, evs, b, rfl, .nil b, q2, .inr ⟨reads_none (hs.answers.state t h) r1, C, k, ss, cs, o, n, by rw [e2, e1], r2, ?_⟩⟩
        refine (reads_some (d2.answers.bindState ⟨n, k⟩ o) h).2 ?_
        rw [r3]
        show (if ob.contract = k then ob.states[n]? else none) = some h
        rw [if_pos r4, r5]
    · exact .inr ⟨(op, (b.step op).2) :: before, e, after, b2, by rw [q1]; rfl, .cons _ _ _ _ q2, q3, q4⟩

theorem trace_channel_origin {b b' : Baseline} {evs : List Event} (ht : Trace b evs b') : ∀ {P : List Event} {db : DB}, BInv P b → BSim b db →
    TMap.Known db.channels → ∀ (t : PropType) (h : Idx) (v : t.Chan), b'.channel t h = .ok v →
    (b.channel t h = .ok v ∧ ∀ w : t.Chan, (BOp.writeChannel t h w, Outcome.ok none) ∉ evs) ∨
    ∃ before e after b1, evs = before ++ e :: after ∧ Trace b before b1 ∧ (∀ w : t.Chan, (BOp.writeChannel t h w, Outcome.ok none) ∉ after) ∧
      (e = (.writeChannel t h v, .ok none) ∨
       ((b1.channel t h).isErr = true ∧ ∃ (C : ContractTy) (k : Idx) (ss : List DynProp) (cs : List DynChannel) (o : Idx) (n : Nat), e = (.create C k ss cs, .ok (some o)) ∧
         cs[n]? = some ⟨t, v⟩ ∧ (b1.step e.1).1.bindChannel ⟨n, k⟩ o = .ok h)) := by
  induction ht with
  | nil b => exact fun _ _ _ t h v hv => .inl ⟨hv, fun _ h => by cases h⟩
  | cons b op evs b' rest ih =>
    intro P db hb hs hk t h v hv
    obtain ⟨db1, d1, d2⟩ := step_sim hb hs op
    obtain ⟨s1, s2⟩ := step_channel_origin d1 hk
    rcases ih (step_binv hb op) d2 s1 t h v hv with ⟨q1, q2⟩ | ⟨before, e, after, b2, q1, q2, q3, q4⟩
    · rcases s2 t h v ((reads_some (d2.answers.channel t h) v).1 q1) with ⟨e1, e2⟩ | ⟨r1, r2⟩ | ⟨r1, C, k, ss, cs, o, n, ob, e1, e2, r2, r3, r4, r5⟩
      · exact .inr ⟨[], _, evs, b, rfl, .nil b, q2, .inl (by rw [e2, e1])⟩
      · refine .inl ⟨(reads_some (hs.answers.channel t h) v).2 r1, fun w hw => ?_⟩
        rcases List.mem_cons.1 hw with e | hw
        · exact r2 w e.symm
        · exact q2 w hw
      · refine .inr ⟨[], _, evs, b, rfl, .nil b, q2, .inr ⟨reads_none (hs.answers.channel t h) r1, C, k, ss, cs, o, n, by rw [e2, e1], r2, ?_⟩⟩
        refine (reads_some (d2.answers.bindChannel ⟨n, k⟩ o) h).2 ?_
        rw [r3]
        show (if ob.contract = k then ob.channels[n]? else none) = some h
        rw [if_pos r4, r5]
    · exact .inr ⟨(op, (b.step op).2) :: before, e, after, b2, by rw [q1]; rfl, .cons _ _ _ _ q2, q3, q4⟩

theorem empty_known {F : PropType → Type} : TMap.Known (fun _ => HMap.empty : TMap F) := fun _ _ _ h => by cases h

end Verif
