import Verif.Spec.Transparent
import Verif.Proofs.SimRun
import Verif.Props.Lost
import Verif.Proofs.Engine
/-!
# C111: no program can tell a restored baseline from the original
-/
namespace Verif.Props
open Verif Spec Arena Baseline Store

/-- The correspondence of handles that saving and restoring gives. -/
def restoreNames (b : Baseline) (cs : List (ContractTy × Idx)) (b' : Baseline) (φ ψ : Idx → Idx) : Names where
  con C h h' := (C, h) ∈ cs ∧ h' = ψ h
  obj o o' := ∃ C h, (C, h) ∈ cs ∧ o ∈ objectsOf b h ∧ o' = φ o
  st t i j := ∃ C h o n, (C, h) ∈ cs ∧ o ∈ objectsOf b h ∧ C.stateTypes[n]? = some t ∧ b.bindState ⟨n, h⟩ o = .ok i ∧
    b'.bindState ⟨n, ψ h⟩ (φ o) = .ok j
  ch _ _ _ := False

theorem fst_eq {cs : List (ContractTy × Idx)} (hnd : (cs.map Prod.snd).Nodup) {C D : ContractTy} {h : Idx} (h1 : (C, h) ∈ cs)
    (h2 : (D, h) ∈ cs) : C = D := by
  obtain ⟨k, h1⟩ := List.mem_iff_getElem?.1 h1
  obtain ⟨k', h2⟩ := List.mem_iff_getElem?.1 h2
  have e := snd_inj hnd h1 h2
  subst e
  rw [h1] at h2
  injection h2 with h2; injection h2

/-- A listed object of a savable contract: live, of that contract, with the fields of the type. -/
theorem savable_object {kind : Kind} {evs : List Event} {b : Baseline} {cs : List (ContractTy × Idx)} (hS : Savable kind evs b cs)
    {C : ContractTy} {h o : Idx} (hm : (C, h) ∈ cs) (ho : o ∈ objectsOf b h) : ∃ ob, b.objects.get o = some ob ∧ ob.contract = h ∧
      DidCreate evs C h o ∧ FieldsOk b.states C.stateTypes ob.states ∧ FieldsOk b.channels C.channelTypes ob.channels := by
  obtain ⟨ob, hob⟩ := hS.serializable.present C h o hm ho
  have hg := object_ok.1 hob
  have hB := history_binv hS.history
  obtain ⟨cd, hcd, _⟩ := hS.serializable.registered C h hm
  rw [objectsOf_eq hcd] at ho
  have hc : ob.contract = h := by
    rcases hB.c.listed h o cd (contractData_ok.1 hcd) ho with ⟨ob1, g, e⟩ | d
    · rw [hg] at g; cases g; exact e
    · rw [d.1] at hg; cases hg
  obtain ⟨D, hD⟩ := hB.o.origin o ob hg
  rw [hc] at hD
  have e := hS.serializable.typed C D h o hm hD
  subst e
  rcases hB.o.created D h o hD with ⟨ob1, g, _, f1, f2⟩ | d
  · rw [hg] at g; cases g; exact ⟨ob, hg, hc, hD, f1, f2⟩
  · rw [d.1] at hg; cases hg

/-- Who owns the handle a field is bound to. -/
theorem savable_owns {kind : Kind} {evs : List Event} {b : Baseline} {cs : List (ContractTy × Idx)} (hS : Savable kind evs b cs)
    {C : ContractTy} {h o : Idx} (hm : (C, h) ∈ cs) (ho : o ∈ objectsOf b h) {n : Nat} {t : PropType} (ht : C.stateTypes[n]? = some t)
    {i : Idx} (hi : b.bindState ⟨n, h⟩ o = .ok i) : Owns evs b.objects ContractTy.stateTypes ObjectD.states o n t i := by
  obtain ⟨ob, hg, hc, hD, _⟩ := savable_object hS hm ho
  rw [bindState_of_get hg] at hi
  exact ⟨C, h, ob, hD, hg, ht, (bindIdx_ok.1 hi).2⟩

theorem relVal_of_map {b : Baseline} {cs : List (ContractTy × Idx)} {b' : Baseline} {φ ψ : Idx → Idx} {C : ContractTy} {h o : Idx} {n : Nat}
    {f : Field} {p : PrimType} (hp : f.ty = .prim p) (hC : Closed b cs) (hm : (C, h) ∈ cs) (ho : o ∈ objectsOf b h)
    (hf : C.states[n]? = some f) {v v' : f.ty.Carrier} (hv : Holds b h o n f.ty v)
    (hz : ¬ MinusZero (DynProp.ofTyped f.ty v))
    (he : DynProp.ofTyped f.ty v' = asRestored φ ψ (DynProp.ofTyped f.ty v)) : RelVal (restoreNames b cs b' φ ψ) f.ty v v' := by
  obtain ⟨nm, ty⟩ := f
  simp only at hp hv he hz v v'
  subst hp
  cases p
  case objectHandle =>
    obtain ⟨C', h', m, l⟩ := hC.objects C h o n _ v hm ho hf rfl hv
    injection he with he; injection he with he
    exact ⟨C', h', m, l, he⟩
  case contractDataHandle =>
    obtain ⟨C', m⟩ := hC.contracts C h o n _ v hm ho hf rfl hv
    injection he with he; injection he with he
    exact ⟨C', m, he⟩
  case f32 =>
    injection he with he; injection he with he
    exact (he.trans (if_neg fun e => hz (.inl (by rw [← e]; rfl)))).symm
  case f64 =>
    injection he with he; injection he with he
    exact (he.trans (if_neg fun e => hz (.inr (by rw [← e]; rfl)))).symm
  all_goals
    injection he with he; injection he with he
    exact he.symm

/-- The correspondence of a saved part with what is restored from it. -/
theorem restore_part {kind : Kind} {evs : List Event} {b : Baseline} {cs : List (ContractTy × Idx)} (hS : Savable kind evs b cs)
    (hW : ∀ (C : ContractTy) (h o : Idx) (ob : ObjectD), (C, h) ∈ cs → o ∈ objectsOf b h → b.object o = .ok ob → ob.warp = TimeWarp.default)
    (hZ : NoMinusZero b cs) {b' : Baseline} {cs' : List (ContractTy × Idx)} {evs' : List Event} {kind' : Kind} (hS' : Savable kind' evs' b' cs')
    (hk : b.kind = b'.kind) {φ ψ : Idx → Idx} (hE : SameContents b cs b' cs' φ ψ)
    (hb' : ∀ (o : Idx) (ob : ObjectD), b'.object o = .ok ob → ob.warp = TimeWarp.default ∧ ob.channels = []) :
    PairedOn ⟨OwnOrFree b cs, False⟩ (restoreNames b cs b' φ ψ) b b' := by
  have hB := history_binv hS.history
  have hB' := history_binv hS'.history
  refine ⟨hk, ⟨hB.c.inv, hB'.c.inv, ?_, ?_, ?_⟩, ?_, ?_, ?_, ⟨hB.o.inv, hB'.o.inv, ?_, ?_, ?_⟩, ?_, ?_, ?_, ?_⟩
  · rintro i j j' ⟨C, _, h1⟩ ⟨D, _, h2⟩; rw [h1, h2]
  · rintro i i' j ⟨C, m1, h1⟩ ⟨D, m2, h2⟩; exact hE.conInj C D i i' m1 m2 (h1 ▸ h2)
  · rintro h h' ⟨C, m, rfl⟩
    obtain ⟨cd, cd', e1, e2, e3, e4⟩ := hE.contract C h m
    have g1 := contractData_ok.1 e1
    have g2 := contractData_ok.1 e2
    refine .inl ⟨cd, cd', g1, g2, e3.symm, hB.c.nodup h cd g1, hB'.c.nodup _ cd' g2, ?_, ?_⟩
    · intro o ho
      exact ⟨φ o, (e4 _).2 ⟨o, ho, rfl⟩, C, h, m, by rw [objectsOf_eq e1]; exact ho, rfl⟩
    · intro o' ho'
      obtain ⟨o, ho, rfl⟩ := (e4 o').1 ho'
      exact ⟨o, ho, C, h, m, by rw [objectsOf_eq e1]; exact ho, rfl⟩
  · rintro C D h h' h'' ⟨m1, _⟩ ⟨m2, _⟩
    exact fst_eq hS.different m1 m2
  · intro h cd g hw
    rcases hw with ⟨⟨C, k⟩, m, hid⟩ | hw
    · obtain ⟨cd1, g1, e1⟩ := hS.serializable.registered C k m
      have : k = h := hB.c.idUnique k h cd1 cd (contractData_ok.1 g1) g (by rw [e1]; exact hid)
      exact ⟨C, ψ h, this ▸ m, rfl⟩
    · exact absurd rfl (hw h cd (contractData_ok.2 g))
  · intro h' cd g _
    obtain ⟨C, h, m, e⟩ := hE.conOnto h' cd (contractData_ok.2 g)
    exact ⟨C, h, m, e.symm⟩
  · rintro i j j' ⟨C, h, _, _, h1⟩ ⟨D, k, _, _, h2⟩; rw [h1, h2]
  · rintro i i' j ⟨C, h, m1, l1, h1⟩ ⟨D, k, m2, l2, h2⟩; exact hE.objInj C D h k i i' m1 m2 l1 l2 (h1 ▸ h2)
  · rintro o o' ⟨C, h, m, l, rfl⟩
    obtain ⟨ob, hg, hc, hD, f1, f2⟩ := savable_object hS m l
    have m' := same_inst hE m
    have l' : φ o ∈ objectsOf b' (ψ h) := (same_objs hE m _).2 ⟨o, l, rfl⟩
    obtain ⟨ob', hg', hc', hD', f1', f2'⟩ := savable_object hS' m' l'
    obtain ⟨w', c'⟩ := hb' (φ o) ob' (object_ok.2 hg')
    refine .inl ⟨ob, ob', hg, hg', (hW C h o ob m l (object_ok.2 hg)).trans w'.symm, C, ⟨hc ▸ m, by rw [hc, hc']⟩, ⟨f1.1.trans f1'.1.symm, ?_⟩, ?_⟩
    · intro n i j hi hj
      have hn : n < C.stateTypes.length := by rw [← f1.1]; exact (List.getElem?_eq_some_iff.1 hi).1
      refine ⟨C.stateTypes[n], List.getElem?_eq_getElem hn, C, h, o, n, m, l, List.getElem?_eq_getElem hn, ?_, ?_⟩
      · rw [bindState_of_get hg]; exact bindIdx_ok.2 ⟨hc.symm, hi⟩
      · rw [bindState_of_get hg']; exact bindIdx_ok.2 ⟨hc'.symm, hj⟩
    · have hn : ob.channels = [] := by
        by_cases e : C.channels = []
        · have := f2.1
          unfold ContractTy.channelTypes at this
          rw [e] at this
          exact List.eq_nil_of_length_eq_zero this
        · rw [hS.noChannels C h m e] at l; cases l
      refine ⟨by rw [hn, c'], fun n i j hi => ?_⟩
      rw [hn] at hi; cases hi
  · exact fun _ _ _ z => z.elim
  · exact fun _ _ _ z => z.elim
  · intro t
    refine ⟨arenaOf_inv hB.o.sInv t, arenaOf_inv hB'.o.sInv t, ?_, ?_, ?_⟩
    · rintro i j j' ⟨C, h, o, n, m, l, ht, g1, g2⟩ ⟨D, k, o1, n1, m1, l1, ht1, p1, p2⟩
      obtain ⟨rfl, rfl⟩ := hB.o.aliasS o o1 n n1 t i (savable_owns hS m l ht g1) (savable_owns hS m1 l1 ht1 p1)
      obtain ⟨ob, hg, hc, _⟩ := savable_object hS m l
      obtain ⟨ob1, hg1, hc1, _⟩ := savable_object hS m1 l1
      rw [hg] at hg1; cases hg1
      rw [← hc, hc1, p2] at g2
      cases g2; rfl
    · rintro i i' j ⟨C, h, o, n, m, l, ht, g1, g2⟩ ⟨D, k, o1, n1, m1, l1, ht1, p1, p2⟩
      have l' : φ o ∈ objectsOf b' (ψ h) := (same_objs hE m _).2 ⟨o, l, rfl⟩
      have l1' : φ o1 ∈ objectsOf b' (ψ k) := (same_objs hE m1 _).2 ⟨o1, l1, rfl⟩
      obtain ⟨e1, rfl⟩ := hB'.o.aliasS (φ o) (φ o1) n n1 t j (savable_owns hS' (same_inst hE m) l' ht g2)
        (savable_owns hS' (same_inst hE m1) l1' ht1 p2)
      have e2 := hE.objInj C D h k o o1 m m1 l l1 e1
      subst e2
      obtain ⟨ob, hg, hc, _⟩ := savable_object hS m l
      obtain ⟨ob1, hg1, hc1, _⟩ := savable_object hS m1 l1
      rw [hg] at hg1; cases hg1
      rw [← hc, hc1, p1] at g1
      cases g1; rfl
    · rintro i j ⟨C, h, o, n, m, l, ht, g1, g2⟩
      obtain ⟨f, hf, rfl⟩ : ∃ f, C.states[n]? = some f ∧ f.ty = t := by
        unfold ContractTy.stateTypes at ht
        rw [List.getElem?_map, Option.map_eq_some_iff] at ht
        exact ht
      obtain ⟨p, hp⟩ := hS.serializable.primitive C h f m (List.mem_of_getElem? hf)
      obtain ⟨v, v', hv, hv', he⟩ := hE.values C h o n f m l hf
      have hr := relVal_of_map (b' := b') hp hS.closed m l hf hv (hZ C h o n f v m l hf hv) he
      obtain ⟨i1, z1, z2⟩ := hv
      obtain ⟨j1, y1, y2⟩ := hv'
      rw [g1] at z1; cases z1
      rw [g2] at y1; cases y1
      refine .inl ⟨v, v', ?_, ?_, hr⟩
      · rw [← Store.get_eq]; exact state_ok.1 z2
      · rw [← Store.get_eq]; exact state_ok.1 y2
  · intro t
    exact ⟨arenaOf_inv hB.o.cInv t, arenaOf_inv hB'.o.cInv t, fun _ _ _ h => h.elim, fun _ _ _ h => h.elim, fun _ _ h => h.elim⟩

theorem restore_sim {kind : Kind} {evs : List Event} {b : Baseline} {cs : List (ContractTy × Idx)} (hS : Savable kind evs b cs)
    (hW : Whole b cs) {b' : Baseline} {cs' : List (ContractTy × Idx)} {evs' : List Event} {kind' : Kind} (hS' : Savable kind' evs' b' cs')
    (hk : b.kind = b'.kind) {φ ψ : Idx → Idx} (hE : SameContents b cs b' cs' φ ψ)
    (hb' : ∀ (o : Idx) (ob : ObjectD), b'.object o = .ok ob → ob.warp = TimeWarp.default ∧ ob.channels = []) :
    Paired (restoreNames b cs b' φ ψ) b b' := by
  have h := restore_part hS (fun _ _ o ob _ _ => hW.warps o ob) hW.zeros hS' hk hE hb'
  refine ⟨h.kind, h.cons, h.ty, ?_, ?_, h.objs, ?_, ?_, h.sts, h.chs⟩
  · intro h cd g _
    obtain ⟨C, m⟩ := hW.contracts h cd (contractData_ok.2 g)
    exact ⟨C, ψ h, m, rfl⟩
  · intro h' cd g _
    obtain ⟨C, h, m, e⟩ := hE.conOnto h' cd (contractData_ok.2 g)
    exact ⟨C, h, m, e.symm⟩
  · intro o ob g _
    obtain ⟨C, h, m, l⟩ := hW.objects o ob (object_ok.2 g)
    exact ⟨φ o, C, h, m, l, rfl⟩
  · intro o' ob g _
    obtain ⟨C, h, o, m, l, e⟩ := hE.objOnto o' ob (object_ok.2 g)
    exact ⟨o, C, h, m, l, e.symm⟩

/-! ## Indistinguishable pairs -/

theorem indist_symm {e e' : Env} {b b' : Baseline} (h : Indistinguishable e b e' b') : Indistinguishable e' b' e b :=
  fun is ords ords' => (h is ords' ords).symm

theorem indist_trans {e e' e'' : Env} {b b' b'' : Baseline} (h : Indistinguishable e b e' b') (g : Indistinguishable e' b' e'' b'') :
    Indistinguishable e b e'' b'' := fun is ords ords' => (h is ords ords).trans (g is ords ords')

/-- Put two sequences of hash orders after one another. -/
def thenOrds (n : Nat) (f g : Nat → HashOrder) : Nat → HashOrder := fun k => if k < n then f k else g (k - n)

theorem thenOrds_zero (f g : Nat → HashOrder) : thenOrds 0 f g = g := by funext k; simp [thenOrds]

theorem thenOrds_succ (n : Nat) (f g : Nat → HashOrder) : (fun k => thenOrds (n + 1) f g (k + 1)) = thenOrds n (fun k => f (k + 1)) g := by
  funext k; simp only [thenOrds, Nat.add_lt_add_iff_right, Nat.add_sub_add_right]

/-- One program after another. -/
theorem runProg_append (is is' : List Instr) (f g : Nat → HashOrder) (e : Env) (b : Baseline) {ss : List Seen} {e1 : Env} {b1 : Baseline}
    (h : runProg is f e b = (ss, some (e1, b1))) :
    runProg (is ++ is') (thenOrds is.length f g) e b = (ss ++ (runProg is' g e1 b1).1, (runProg is' g e1 b1).2) := by
  induction is generalizing f e b ss with
  | nil =>
    simp only [runProg, Prod.mk.injEq, Option.some.injEq] at h
    obtain ⟨rfl, rfl, rfl⟩ := h
    rw [List.length_nil, thenOrds_zero]; rfl
  | cons i is ih =>
    simp only [runProg] at h
    simp only [List.cons_append, runProg, List.length_cons, thenOrds_succ]
    have e0 : thenOrds (is.length + 1) f g 0 = f 0 := by simp [thenOrds]
    rw [e0]
    by_cases hp : (i.step (f 0) e b).1.isPanic = true
    · rw [if_pos hp] at h; simp at h
    · rw [if_neg hp] at h
      rw [if_neg hp]
      simp only [Prod.mk.injEq] at h
      obtain ⟨rfl, h2⟩ := h
      rw [ih (fun k => f (k + 1)) _ _ (ss := _) (Prod.ext rfl h2)]
      rfl

/-- A program that saw no panic came to its end. -/
theorem runProg_end (is : List Instr) (f : Nat → HashOrder) (e : Env) (b : Baseline) :
    (runProg is f e b).2 = none ↔ ∃ s ∈ (runProg is f e b).1, s.isPanic = true := by
  induction is generalizing f e b with
  | nil => simp [runProg]
  | cons i is ih =>
    simp only [runProg]
    by_cases hp : (i.step (f 0) e b).1.isPanic = true
    · rw [if_pos hp]; simp [hp]
    · rw [if_neg hp]
      have := ih (fun k => f (k + 1)) (i.step (f 0) e b).2.1 (i.step (f 0) e b).2.2
      simp only [List.mem_cons, exists_eq_or_imp, this]
      simp [hp]

/-- What cannot be told apart cannot be told apart after a program has run on both. -/
theorem indist_run {e e' : Env} {b b' : Baseline} (h : Indistinguishable e b e' b') (is : List Instr) (f f' : Nat → HashOrder) {ss : List Seen}
    {e1' : Env} {b1' : Baseline} (h' : runProg is f' e' b' = (ss, some (e1', b1'))) :
    ∃ e1 b1, runProg is f e b = (ss, some (e1, b1)) ∧ Indistinguishable e1 b1 e1' b1' := by
  have hs := h is f f'
  rw [h'] at hs
  have hs : (runProg is f e b).1 = ss := hs
  cases hr : (runProg is f e b).2 with
  | none =>
    obtain ⟨s, m, hp⟩ := (runProg_end is f e b).1 hr
    rw [hs] at m
    have := (runProg_end is f' e' b').2 ⟨s, by rw [h']; exact m, hp⟩
    rw [h'] at this; cases this
  | some x =>
    obtain ⟨e1, b1⟩ := x
    have hr' : runProg is f e b = (ss, some (e1, b1)) := Prod.ext hs hr
    refine ⟨e1, b1, hr', fun is' g g' => ?_⟩
    have := h (is ++ is') (thenOrds is.length f g) (thenOrds is.length f' g')
    rw [runProg_append is is' f g e b hr', runProg_append is is' f' g' e' b' h'] at this
    exact List.append_cancel_left this

/-! ## C111 -/

theorem trace_kind {b b' : Baseline} {evs : List Event} (h : Trace b evs b') : b'.kind = b.kind := by
  induction h with
  | nil => rfl
  | cons b op evs b' _ ih => rw [ih, Baseline.step_kind]

theorem history_kind {kind : Kind} {evs : List Event} {b : Baseline} (h : History kind evs b) : b.kind = kind := trace_kind h

theorem stands_rel {b : Baseline} {cs : List (ContractTy × Idx)} {b' : Baseline} {φ ψ : Idx → Idx} {env env' : Env}
    (he : List.Forall₂ (StandsFor b cs b' φ ψ) env env') : RelEnv (restoreNames b cs b' φ ψ) env env' := by
  refine he.imp fun x y h => ?_
  cases h with
  | inst C h m => exact ⟨rfl, m, rfl⟩
  | con C h m => exact ⟨C, m, rfl⟩
  | obj C h o m l => exact ⟨C, h, m, l, rfl⟩
  | state C h o n f i j m l hf h1 h2 =>
    refine ⟨rfl, C, h, o, n, m, l, ?_, h1, h2⟩
    unfold ContractTy.stateTypes; rw [List.getElem?_map, hf]; rfl

/-- Contracts without float states have no minus zeros. -/
theorem noMinusZero_of_types {b : Baseline} {cs : List (ContractTy × Idx)}
    (h : ∀ e ∈ cs, ∀ f ∈ e.1.states, f.ty ≠ .prim .f32 ∧ f.ty ≠ .prim .f64) : NoMinusZero b cs := by
  intro C k o n f v hm _ hf _ hz
  obtain ⟨h1, h2⟩ := h (C, k) hm f (List.mem_of_getElem? hf)
  obtain ⟨nm, ty⟩ := f
  simp only at h1 h2
  rcases ty with p | p <;> cases p <;> simp_all [MinusZero, DynProp.ofTyped]

/-- As long as no call panicked, saving every contract saves everything but the time warps and the signs of zeros. -/
theorem C111_whole {kind : Kind} {evs : List Event} {b : Baseline} {cs : List (ContractTy × Idx)} (hH : History kind evs b) (hn : NoPanic evs)
    (hc : ∀ (h : Idx) (cd : ContractData), b.contractData h = .ok cd → ∃ C, (C, h) ∈ cs)
    (hw : ∀ (o : Idx) (ob : ObjectD), b.object o = .ok ob → ob.warp = TimeWarp.default) (hz : NoMinusZero b cs) : Whole b cs := by
  refine ⟨hc, fun o ob ho => ?_, hw, hz⟩
  obtain ⟨cd, h1, h2⟩ := trace_covered (new_binv kind) (new_covered kind) hH hn o ob (object_ok.1 ho)
  obtain ⟨C, m⟩ := hc ob.contract cd (contractData_ok.2 h1)
  exact ⟨C, ob.contract, m, by rw [objectsOf_eq (contractData_ok.2 h1)]; exact h2⟩

/-- **C111.** If a whole baseline without time warps and without minus zeros is saved and restored (as main or fork as it was), then no program can tell
the restored baseline from the original: whatever variables it kept, with the ones that stand for them in the restored baseline, and
whatever calls it makes, it sees the same.  The correspondence can be any under which the contents are the same; there is one. -/
theorem C111_transparent {kind : Kind} {evs : List Event} {b : Baseline} {cs : List (ContractTy × Idx)} (hS : Savable kind evs b cs)
    (hW : Whole b cs) (c : Cycle) (hc : c.Fits cs) (hk : c.kind = b.kind) :
    ∃ (cs' : List (ContractTy × Idx)) (b' : Baseline), c.run b = .ok (cs', b') ∧ (∃ φ ψ : Idx → Idx, SameContents b cs b' cs' φ ψ) ∧
      ∀ φ ψ : Idx → Idx, SameContents b cs b' cs' φ ψ → ∀ env env' : Env, List.Forall₂ (StandsFor b cs b' φ ψ) env env' →
        Indistinguishable env b env' b' := by
  obtain ⟨cs', b', φ, ψ, evs', e1, e2, e3⟩ := C78_savable_again hS c hc
  refine ⟨cs', b', e1, ⟨φ, ψ, e2⟩, fun φ ψ hE env env' he => ?_⟩
  have hk' : b.kind = b'.kind := by rw [history_kind e3.history, hk]
  exact sim_indistinguishable (restore_sim hS hW e3 hk' hE (C106_reset_partial e1)) (stands_rel he)

/-- Every variable that can be kept has one that stands for it. -/
theorem C111_all_stand {b : Baseline} {cs : List (ContractTy × Idx)}
    {cs' : List (ContractTy × Idx)} {b' : Baseline} {φ ψ : Idx → Idx} (hE : SameContents b cs b' cs' φ ψ) (C : ContractTy) (h : Idx)
    (hm : (C, h) ∈ cs) (o : Idx) (ho : o ∈ objectsOf b h) (n : Nat) (f : Field) (hf : C.states[n]? = some f) (i : Idx)
    (hi : b.bindState ⟨n, h⟩ o = .ok i) : ∃ j, StandsFor b cs b' φ ψ (.state f.ty i) (.state f.ty j) := by
  obtain ⟨v, v', _, ⟨j, hj, _⟩, _⟩ := hE.values C h o n f hm ho hf
  exact ⟨j, .state C h o n f i j hm ho hf hi hj⟩

theorem life_of_indist {e : Env} {b : Baseline} {is : List Instr} {ss : List Seen} (h : Life e b is ss) :
    ∀ {e0 : Env} {b0 : Baseline}, Indistinguishable e0 b0 e b → ∀ f : Nat → HashOrder, (runProg is f e0 b0).1 = ss := by
  induction h with
  | last e b is ords => intro e0 b0 h f; exact h is f ords
  | restart e b is ords ss e1 b1 kind evs cs c cs' b1' φ ψ e1' is' ss' hr hS hW hc hk hrun hE he _ ih =>
    intro e0 b0 h f
    obtain ⟨e2, b2, h2, hi⟩ := indist_run h is f ords hr
    obtain ⟨cs2, b2', g1, _, g3⟩ := C111_transparent hS hW c hc hk
    rw [hrun] at g1
    injection g1 with g1; injection g1 with g1 g1'; subst g1 g1'
    have h3 := ih (indist_trans hi (g3 φ ψ hE e1 e1' he)) (fun k => f (k + is.length))
    have h4 := runProg_append is is' f (fun k => f (k + is.length)) e0 b0 h2
    have ef : thenOrds is.length f (fun k => f (k + is.length)) = f := by
      funext k
      unfold thenOrds
      split
      · rfl
      · simp only; congr 1; omega
    rw [ef] at h4
    rw [h4, h3]

/-- Nothing to compare. -/
def noNames : Names := ⟨fun _ _ _ => False, fun _ _ => False, fun _ _ _ => False, fun _ _ _ => False⟩

theorem self_sim (kind : Kind) : Paired noNames (Baseline.new kind) (Baseline.new kind) := by
  have hB := new_binv kind
  refine ⟨rfl, ⟨hB.c.inv, hB.c.inv, ?_, ?_, ?_⟩, ?_, ?_, ?_, ⟨hB.o.inv, hB.o.inv, ?_, ?_, ?_⟩, ?_, ?_, ?_, ?_⟩
  · rintro _ _ _ ⟨_, h⟩; exact h.elim
  · rintro _ _ _ ⟨_, h⟩; exact h.elim
  · rintro _ _ ⟨_, h⟩; exact h.elim
  · intro _ _ _ _ _ h; exact h.elim
  · intro h cd g; rw [show (Baseline.new kind).contracts = Arena.new from rfl, get_new] at g; cases g
  · intro h cd g; rw [show (Baseline.new kind).contracts = Arena.new from rfl, get_new] at g; cases g
  · intro _ _ _ h; exact h.elim
  · intro _ _ _ h; exact h.elim
  · intro _ _ h; exact h.elim
  · intro h cd g; rw [show (Baseline.new kind).objects = Arena.new from rfl, get_new] at g; cases g
  · intro h cd g; rw [show (Baseline.new kind).objects = Arena.new from rfl, get_new] at g; cases g
  · intro t
    exact ⟨arenaOf_inv hB.o.sInv t, arenaOf_inv hB.o.sInv t, fun _ _ _ h => h.elim, fun _ _ _ h => h.elim, fun _ _ h => h.elim⟩
  · intro t
    exact ⟨arenaOf_inv hB.o.cInv t, arenaOf_inv hB.o.cInv t, fun _ _ _ h => h.elim, fun _ _ _ h => h.elim, fun _ _ h => h.elim⟩

/-- **C111.** A program that starts with a new baseline, and is stopped, saved, restored and continued any number of times, at any
points where its baseline can be saved as a whole, sees what it would have seen without that, whatever hash orders the runs meet. -/
theorem C111_life (kind : Kind) (is : List Instr) (ss : List Seen) (h : Life [] (Baseline.new kind) is ss) (ords : Nat → HashOrder) :
    (runProg is ords [] (Baseline.new kind)).1 = ss :=
  life_of_indist h (sim_indistinguishable (self_sim kind) .nil) ords

/-- **C93, partial.** A program that uses handles only as handles (it passes and compares them, and ends when a call panics) sees the same
with every hash seed. -/
theorem C93_opaque_programs_partial (kind : Kind) (is : List Instr) (ords ords' : Nat → HashOrder) :
    (runProg is ords [] (Baseline.new kind)).1 = (runProg is ords' [] (Baseline.new kind)).1 :=
  sim_indistinguishable (self_sim kind) .nil is ords ords'

/-! ## Examples -/

/-- A cycle that keeps main or fork. -/
def mainCycle (cs : List (ContractTy × Idx)) : Cycle := { demoCycle cs with kind := .main }

theorem mainCycle_fits (cs : List (ContractTy × Idx)) : (mainCycle cs).Fits cs := demoCycle_fits cs

theorem graph_whole : Whole graphB graphCs := by
  refine C111_whole graph_history ?_ ?_ ?_ (noMinusZero_of_types (by decide))
  · rw [graph_events]; unfold NoPanic; decide +kernel
  · intro h cd hc
    have := mem_iter.2 (contractData_ok.1 hc)
    rw [show graphB.contracts.iter = [(h0, ⟨nodeC.id, [h1, h0]⟩), (h1, ⟨tagC.id, [⟨2, 0⟩]⟩)] from by decide +kernel] at this
    simp only [List.mem_cons, Prod.mk.injEq, List.mem_nil_iff, or_false] at this
    rcases this with ⟨rfl, _⟩ | ⟨rfl, _⟩
    · exact ⟨nodeC, by simp [graphCs]⟩
    · exact ⟨tagC, by simp [graphCs]⟩
  · intro o ob ho
    have := mem_iter.2 (object_ok.1 ho)
    have hw : ∀ x ∈ graphB.objects.iter, x.2.warp = TimeWarp.default := by decide +kernel
    exact hw _ this

/-- No program can tell the restored graph of C48 from the original. -/
example : ∃ (cs' : List (ContractTy × Idx)) (b' : Baseline) (φ ψ : Idx → Idx), (mainCycle graphCs).run graphB = .ok (cs', b') ∧
    Indistinguishable [.inst nodeC h0, .inst tagC h1, .obj h0, .obj h1, .obj ⟨2, 0⟩] graphB
      [.inst nodeC (ψ h0), .inst tagC (ψ h1), .obj (φ h0), .obj (φ h1), .obj (φ ⟨2, 0⟩)] b' := by
  obtain ⟨cs', b', e1, ⟨φ, ψ, hE⟩, e3⟩ := C111_transparent graph_savable graph_whole _ (mainCycle_fits _) (by rfl)
  refine ⟨cs', b', φ, ψ, e1, e3 φ ψ hE _ _ ?_⟩
  refine .cons (.inst nodeC h0 (by simp [graphCs])) (.cons (.inst tagC h1 (by simp [graphCs])) (.cons (.obj nodeC h0 h0 (by simp [graphCs]) ?_)
    (.cons (.obj nodeC h0 h1 (by simp [graphCs]) ?_) (.cons (.obj tagC h1 ⟨2, 0⟩ (by simp [graphCs]) ?_) .nil))))
  · rw [graph_objects.1]; simp
  · rw [graph_objects.1]; simp
  · rw [graph_objects.2]; simp

/-- A program that makes a tag for its own contract and binds both fields. -/
def tagProg : List Instr :=
  [.register tagC, .handle 0, .create 0 [⟨.prim .string, "a"⟩, ⟨.prim .contractDataHandle, (1 : Nat)⟩] [], .bindState 0 0 2, .bindState 0 1 2]

/-- It goes on: read the contract handle, compare it with the one it had, write the label, read it, make a second tag. -/
def tagRest : List Instr :=
  [.readState 4, .same 5 1, .writeState 3 ⟨.prim .string, "b"⟩, .readState 3, .create 0 [⟨.prim .string, "c"⟩, ⟨.prim .contractDataHandle, (5 : Nat)⟩] [],
   .countObjects, .describe 5, .remove tagC 2, .warp 2]

def tagOps : List BOp := [.register tagC, .create tagC h0 [.primitive (.string "a"), .primitive (.contractDataHandle h0)] []]
def tagB : Baseline := ((Baseline.new .main).runOps tagOps).2
def tagEvs : List Event := ((Baseline.new .main).runOps tagOps).1
theorem tag_history : History .main tagEvs tagB := runOps_trace _ _

theorem tag_events : tagEvs = [(.register tagC, .ok (some h0)),
    (.create tagC h0 [.primitive (.string "a"), .primitive (.contractDataHandle h0)] [], .ok (some h0))] := by rfl

theorem tag_run (ords : Nat → HashOrder) : runProg tagProg ords [] (Baseline.new .main) =
    (List.replicate 5 (.result (.ok ())), some ([.inst tagC h0, .con h0, .obj h0, .state (.prim .string) h0,
      .state (.prim .contractDataHandle) h0], tagB)) := by rfl

theorem tag_savable : Savable .main tagEvs tagB [(tagC, h0)] := by
  have hcs : ∀ (C : ContractTy) (h : Idx), (C, h) ∈ [(tagC, h0)] → C = tagC ∧ h = h0 := by
    intro C h hm; simpa using hm
  have hobj : objectsOf tagB h0 = [h0] := by decide +kernel
  refine ⟨tag_history, ⟨?_, ?_, ?_, ?_, by decide⟩, ⟨?_, ?_⟩, by decide, by decide, .of_none (by decide), by decide +kernel⟩
  · intro C h hm
    obtain ⟨rfl, rfl⟩ := hcs C h hm
    exact ⟨⟨tagC.id, [h0]⟩, by decide +kernel, rfl⟩
  · rintro C C' h o hm ⟨ss, cs, hc⟩
    obtain ⟨rfl, rfl⟩ := hcs C h hm
    rw [tag_events] at hc
    simp at hc; grind
  · intro C h o hm ho
    obtain ⟨rfl, rfl⟩ := hcs C h hm
    rw [hobj] at ho
    have : o = h0 := by simpa using ho
    subst this
    exact ⟨_, rfl⟩
  · intro C h f hm hf
    obtain ⟨rfl, rfl⟩ := hcs C h hm
    simp [tagC] at hf
    rcases hf with rfl | rfl <;> exact ⟨_, rfl⟩
  · intro C h o n f v hm _ hf ht
    obtain ⟨rfl, rfl⟩ := hcs C h hm
    have := List.mem_of_getElem? hf
    simp [tagC] at this
    rcases this with rfl | rfl <;> cases ht
  · intro C h o n f v hm ho hf ht hv
    obtain ⟨rfl, rfl⟩ := hcs C h hm
    rw [hobj] at ho
    have : o = h0 := by simpa using ho
    subst this
    match n, hf with
    | 0, hf => cases hf; cases ht
    | 1, hf =>
      obtain ⟨j, h1, h2⟩ := hv
      have : tagB.bindState ⟨1, h0⟩ h0 = .ok h0 := by decide +kernel
      rw [this] at h1; cases h1
      have : tagB.state (.prim .contractDataHandle) h0 = .ok h0 := by rfl
      rw [this] at h2; cases h2
      exact ⟨tagC, by simp⟩
    | n + 2, hf => simp [tagC] at hf

theorem tag_whole : Whole tagB [(tagC, h0)] := by
  refine C111_whole tag_history ?_ ?_ ?_ (noMinusZero_of_types (by decide))
  · rw [tag_events]; unfold NoPanic; decide +kernel
  · intro h cd hc
    have := mem_iter.2 (contractData_ok.1 hc)
    rw [show tagB.contracts.iter = [(h0, ⟨tagC.id, [h0]⟩)] from by decide +kernel] at this
    simp only [List.mem_cons, Prod.mk.injEq, List.mem_nil_iff, or_false] at this
    obtain ⟨rfl, _⟩ := this
    exact ⟨tagC, by simp⟩
  · intro o ob ho
    have := mem_iter.2 (object_ok.1 ho)
    have hw : ∀ x ∈ tagB.objects.iter, x.2.warp = TimeWarp.default := by decide +kernel
    exact hw _ this

/-- What the second part sees. -/
def tagSeen : List Seen :=
  [.value (.prim .contractDataHandle) (5 : Nat), .flag true, .result (.ok ()), .value (.prim .string) "b", .result (.ok ()), .count 2,
   .contract tagC.id 2, .result (tagB.objectRemove tagC h0).2, .result (.err "the given handle doesn't exist in the arena")]

/-- The program is stopped after its first part, saved, restored and continued: this is a life with a restart, and by C111 it sees what
it sees without. -/
example : Life [] (Baseline.new .main) (tagProg ++ tagRest) (List.replicate 5 (.result (.ok ())) ++ tagSeen) := by
  obtain ⟨cs', b', e1, ⟨φ, ψ, hE⟩, e3⟩ := C111_transparent tag_savable tag_whole _ (mainCycle_fits _) (by rfl)
  have hobj : h0 ∈ objectsOf tagB h0 := by decide +kernel
  have hm : (tagC, h0) ∈ [(tagC, h0)] := by simp
  obtain ⟨i, hi⟩ := C111_all_stand hE tagC h0 hm h0 hobj 0 ⟨"label", .prim .string⟩ rfl h0 (by decide +kernel)
  obtain ⟨j, hj⟩ := C111_all_stand hE tagC h0 hm h0 hobj 1 ⟨"of", .prim .contractDataHandle⟩ rfl h0 (by decide +kernel)
  have he : List.Forall₂ (StandsFor tagB [(tagC, h0)] b' φ ψ)
      [.inst tagC h0, .con h0, .obj h0, .state (.prim .string) h0, .state (.prim .contractDataHandle) h0]
      [.inst tagC (ψ h0), .con (ψ h0), .obj (φ h0), .state (.prim .string) i, .state (.prim .contractDataHandle) j] :=
    .cons (.inst tagC h0 hm) (.cons (.con tagC h0 hm) (.cons (.obj tagC h0 h0 hm hobj) (.cons hi (.cons hj .nil))))
  have hseen : (runProg tagRest (fun _ => .id) [.inst tagC (ψ h0), .con (ψ h0), .obj (φ h0), .state (.prim .string) i,
      .state (.prim .contractDataHandle) j] b').1 = tagSeen := by
    rw [← e3 φ ψ hE _ _ he tagRest (fun _ => .id) (fun _ => .id)]; rfl
  refine .restart [] _ tagProg (fun _ => .id) _ _ tagB .main tagEvs [(tagC, h0)] _ cs' b' φ ψ _ tagRest tagSeen (tag_run _) tag_savable tag_whole
    (mainCycle_fits _) (by rfl) e1 hE he ?_
  rw [← hseen]; exact .last _ _ _ _

/-- The condition on time warps is needed: a program that reads the warp of an object that has one sees the difference. -/
theorem C111_warps_show {c : Cycle} {b b' : Baseline} {cs' : List (ContractTy × Idx)} (h : c.run b = .ok (cs', b')) (o o' : Idx) (ob : ObjectD)
    (ho : b.object o = .ok ob) (hw : ob.warp ≠ TimeWarp.default) : ¬ Indistinguishable [.obj o] b [.obj o'] b' := by
  intro hi
  have := hi [.warp 0] (fun _ => .id) (fun _ => .id)
  have hl : (runProg [.warp 0] (fun _ => HashOrder.id) [.obj o] b).1 = [.warp ob.warp] := by
    have e : Instr.step HashOrder.id [.obj o] b (.warp 0) = (.warp ob.warp, [.obj o], b) := by
      simp only [Instr.step, List.getElem?_cons_zero, ho]
    simp only [runProg, e]; rfl
  rw [hl] at this
  cases ho' : b'.object o' with
  | ok ob' =>
    have e : Instr.step HashOrder.id [.obj o'] b' (.warp 0) = (.warp ob'.warp, [.obj o'], b') := by
      simp only [Instr.step, List.getElem?_cons_zero, ho']
    have hr : (runProg [.warp 0] (fun _ => HashOrder.id) [.obj o'] b').1 = [.warp ob'.warp] := by
      simp only [runProg, e]; rfl
    rw [hr] at this
    simp only [List.cons.injEq, Seen.warp.injEq, and_true] at this
    exact hw (this.trans (C106_reset_partial h o' ob' ho').1)
  | err m =>
    have e : Instr.step HashOrder.id [.obj o'] b' (.warp 0) = (.result (.err m), [.obj o'], b') := by
      simp only [Instr.step, List.getElem?_cons_zero, ho']
    have hr : (runProg [.warp 0] (fun _ => HashOrder.id) [.obj o'] b').1 = [.result (.err m)] := by
      simp only [runProg, e]; rfl
    rw [hr] at this; cases this
  | panic m =>
    have e : Instr.step HashOrder.id [.obj o'] b' (.warp 0) = (.result (.panic m), [.obj o'], b') := by
      simp only [Instr.step, List.getElem?_cons_zero, ho']
    have hr : (runProg [.warp 0] (fun _ => HashOrder.id) [.obj o'] b').1 = [.result (.panic m)] := by
      simp only [runProg, e]; rfl
    rw [hr] at this; cases this

example : ∃ ob, warpB.object h0 = .ok ob ∧ ob.warp ≠ TimeWarp.default :=
  ⟨⟨[⟨0, 0⟩], [], h0, fiveLater⟩, by decide +kernel, by decide⟩

end Verif.Props
