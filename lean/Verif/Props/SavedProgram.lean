import Verif.Spec.KeptContracts
import Verif.Props.SameFile
import Verif.Props.Transparent
import Verif.Props.StaysSavable
/-!
# C140: what a program can save depends only on what it did
-/
namespace Verif.Props
open Verif Verif.Spec Verif.Fb Baseline Arena Store

/-- Contracts of corresponding contents, and their saved forms. -/
theorem paired_saved {S : Scope} {N : Names} {b b' : Baseline} (hs : PairedOn S N b b') {kind : Kind} {evs : List Event}
    {cs cs' : List (ContractTy × Idx)} (hS : Savable kind evs b cs)
    (hc : List.Forall₂ (fun e e' => e.1 = e'.1 ∧ N.con e.1 e.2 e'.2) cs cs') : ∃ φ ψ : Idx → Idx, SameSaved b cs b' cs' φ ψ ∧ cs' = cs.map (fun e => (e.1, ψ e.2)) := by
  classical
  let φ : Idx → Idx := fun o => if h : ∃ o', N.obj o o' then h.choose else o
  let ψ : Idx → Idx := fun k => if h : ∃ (k' : Idx) (C : ContractTy), N.con C k k' then h.choose else k
  have hφ : ∀ {o o' : Idx}, N.obj o o' → φ o = o' := by
    intro o o' h
    have hex : ∃ o', N.obj o o' := ⟨o', h⟩
    show (if h : ∃ o', N.obj o o' then h.choose else o) = o'
    rw [dif_pos hex]
    exact hs.objs.det _ _ _ hex.choose_spec h
  have hψ : ∀ {C : ContractTy} {k k' : Idx}, N.con C k k' → ψ k = k' := by
    intro C k k' h
    have hex : ∃ (k' : Idx) (C : ContractTy), N.con C k k' := ⟨k', C, h⟩
    show (if h : ∃ (k' : Idx) (C : ContractTy), N.con C k k' then h.choose else k) = k'
    rw [dif_pos hex]
    exact hs.cons.det _ _ _ hex.choose_spec ⟨C, h⟩
  have con : ∀ {C : ContractTy} {k : Idx}, (C, k) ∈ cs → N.con C k (ψ k) ∧ (C, ψ k) ∈ cs' := by
    intro C k m
    obtain ⟨n, hn⟩ := List.mem_iff_getElem?.1 m
    have hl : n < cs.length := (List.getElem?_eq_some_iff.1 hn).1
    have hl' : n < cs'.length := hc.length_eq ▸ hl
    have h := hc.get hl hl'
    have e : cs.get ⟨n, hl⟩ = (C, k) := by rw [List.getElem?_eq_getElem hl] at hn; injection hn
    rw [e] at h
    obtain ⟨h1, h2⟩ := h
    have e3 := hψ h2
    have : (C, ψ k) = cs'.get ⟨n, hl'⟩ := by rw [e3]; exact Prod.ext h1 rfl
    exact ⟨by rw [e3]; exact h2, by rw [this]; exact List.get_mem _ _⟩
  have con' : ∀ {C : ContractTy} {k' : Idx}, (C, k') ∈ cs' → ∃ k, (C, k) ∈ cs ∧ ψ k = k' := by
    intro C k' m
    obtain ⟨n, hn⟩ := List.mem_iff_getElem?.1 m
    have hl' : n < cs'.length := (List.getElem?_eq_some_iff.1 hn).1
    have hl : n < cs.length := hc.length_eq ▸ hl'
    have h := hc.get hl hl'
    have e : cs'.get ⟨n, hl'⟩ = (C, k') := by rw [List.getElem?_eq_getElem hl'] at hn; injection hn
    rw [e] at h
    obtain ⟨h1, h2⟩ := h
    refine ⟨(cs.get ⟨n, hl⟩).2, ?_, hψ h2⟩
    have : (C, (cs.get ⟨n, hl⟩).2) = cs.get ⟨n, hl⟩ := Prod.ext h1.symm rfl
    rw [this]; exact List.get_mem _ _
  have objs : ∀ {C : ContractTy} {k : Idx}, (C, k) ∈ cs → (∀ o ∈ objectsOf b k, N.obj o (φ o) ∧ φ o ∈ objectsOf b' (ψ k)) ∧
      ∀ o' ∈ objectsOf b' (ψ k), ∃ o ∈ objectsOf b k, φ o = o' := by
    intro C k m
    obtain ⟨cd, h1, _⟩ := hS.serializable.registered C k m
    obtain ⟨cd', h2, _, _, _, r1, r2⟩ := hs.cons.left ⟨C, (con m).1⟩ (contractData_ok.1 h1)
    rw [objectsOf_eq h1, objectsOf_eq (contractData_ok.2 h2)]
    refine ⟨fun o ho => ?_, fun o' ho' => ?_⟩
    · obtain ⟨o', g1, g2⟩ := r1 o ho
      rw [hφ g2]; exact ⟨g2, g1⟩
    · obtain ⟨o, g1, g2⟩ := r2 o' ho'
      exact ⟨o, g1, hφ g2⟩
  refine ⟨φ, ψ, ⟨fun C h2 => ⟨con', ?_⟩, ?_, ?_, ?_, ?_⟩, ?_⟩
  · rintro ⟨h1, m, rfl⟩; exact (con m).2
  · intro C D k k' m m' e
    exact hs.cons.inj _ _ _ ⟨C, (con m).1⟩ ⟨D, e ▸ (con m').1⟩
  · intro C k m o2
    exact ⟨(objs m).2 o2, by rintro ⟨o1, l, rfl⟩; exact ((objs m).1 o1 l).2⟩
  · intro C D k k' o o' m m' l l' e
    exact hs.objs.inj _ _ _ ((objs m).1 o l).1 (e ▸ ((objs m').1 o' l').1)
  · intro C k o n f m l hf
    obtain ⟨_, _, _, _, _, _, hE, _⟩ := C78_savable_again hS (demoCycle cs) (demoCycle_fits cs)
    obtain ⟨v1, _, ⟨i, hb, hv⟩, _⟩ := hE.values C k o n f m l hf
    obtain ⟨ob, g1, g2, g3⟩ := bindState_live hb
    obtain ⟨ob', k1, _, D, k2, k3, _⟩ := hs.objs.left ((objs m).1 o l).1 g1
    simp only at g2 g3
    have hD := hs.ty C D k _ _ (con m).1 (g2 ▸ k2)
    subst hD
    have hlen : n < ob'.states.length := k3.1 ▸ (List.getElem?_eq_some_iff.1 g3).1
    have hj : ob'.states[n]? = some ob'.states[n] := List.getElem?_eq_getElem hlen
    obtain ⟨t, ht, hr⟩ := k3.2 n i _ g3 hj
    have et : C.stateTypes[n]? = some f.ty := by unfold ContractTy.stateTypes; rw [List.getElem?_map, hf]; rfl
    rw [et] at ht; injection ht with ht; subst ht
    have hw := get_agree hs.sts hr
    rw [state_ok.1 hv] at hw
    cases hw2 : b'.states.get f.ty ob'.states[n] with
    | none => rw [hw2] at hw; cases hw
    | some w =>
      rw [hw2] at hw
      cases hw with
      | some hw =>
      refine ⟨v1, w, ⟨i, hb, hv⟩, ⟨ob'.states[n], ?_, state_ok.2 hw2⟩, ?_⟩
      · rw [bindState_of_get k1]
        have ec : ψ k = ob'.contract := by rw [g2]; exact hψ k2
        exact bindIdx_ok.2 ⟨ec, hj⟩
      · obtain ⟨p, hp⟩ := hS.serializable.primitive C k f m (List.mem_of_getElem? hf)
        obtain ⟨nm, ty⟩ := f
        simp only at hp
        subst hp
        clear hE
        cases p <;> first
          | (have e : v1 = w := hw
             subst e; rfl)
          | (have e := hφ hw
             simp only [DynProp.ofTyped, asRestored, e, id])
          | (obtain ⟨D, hw⟩ := hw
             have e := hψ hw
             simp only [DynProp.ofTyped, asRestored, e, id])
  · clear hS con con' objs hφ φ
    induction hc with
    | nil => rfl
    | cons h _ ih =>
      rw [List.map_cons, ← ih]
      exact congrArg (· :: _) (Prod.ext h.1.symm (hψ h.2).symm)

/-! ## The other side can be saved too -/

/-- What a program does is public calls, and objects are created with the instances that it has. -/
theorem step_trace (i : Instr) (ord : HashOrder) (env : Env) (b : Baseline) : ∃ evs : List Event, Trace b evs (i.step ord env b).2.2 ∧
    ∀ (C : ContractTy) (h o : Idx), CreatedAs evs C h o → ∃ k : Nat, env[k]? = some (.inst C h) := by
  have nil : ∀ b : Baseline, ∃ evs : List Event, Trace b evs b ∧ ∀ (C : ContractTy) (h o : Idx), CreatedAs evs C h o → ∃ k : Nat, env[k]? = some (.inst C h) :=
    fun b => ⟨[], .nil b, fun C h o ⟨_, _, m⟩ => by cases m⟩
  have one : ∀ op : BOp, (∀ (C : ContractTy) (h : Idx) (ss : List DynProp) (ch : List DynChannel), op = .create C h ss ch → ∃ k : Nat, env[k]? = some (.inst C h)) →
      ∃ evs : List Event, Trace b evs (b.step op).1 ∧ ∀ (C : ContractTy) (h o : Idx), CreatedAs evs C h o → ∃ k : Nat, env[k]? = some (.inst C h) := by
    intro op ho
    refine ⟨[(op, (b.step op).2)], .cons b op [] _ (.nil _), fun C h o ⟨ss, ch, m⟩ => ?_⟩
    simp only [List.mem_singleton, Prod.mk.injEq] at m
    exact ho C h ss ch m.1.symm
  cases i with
  | register C => exact one (.register C) (fun _ _ _ _ e => by cases e)
  | unregister C k =>
    simp only [Instr.step]
    split
    · rename_i h _; exact one (.unregister C h ord) (fun _ _ _ _ e => by cases e)
    · exact nil b
  | create k ss cs =>
    simp only [Instr.step]
    split
    · rename_i C h ss' cs' h1 _ _
      refine one (.create C h ss' cs') (fun _ _ _ _ e => ?_)
      injection e with e1 e2; subst e1; subst e2; exact ⟨k, h1⟩
    · exact nil b
  | remove C k =>
    simp only [Instr.step]
    split
    · rename_i o _; exact one (.remove C o) (fun _ _ _ _ e => by cases e)
    · exact nil b
  | writeState k x =>
    simp only [Instr.step]
    split
    · rename_i t i v _ _
      split
      · rename_i h; exact one (.writeState t i (h ▸ v)) (fun _ _ _ _ e => by cases e)
      · exact nil b
    · exact nil b
  | writeChannel k x =>
    simp only [Instr.step]
    split
    · rename_i t i v _ _
      split
      · rename_i h; exact one (.writeChannel t i (h ▸ v)) (fun _ _ _ _ e => by cases e)
      · exact nil b
    · exact nil b
  | setWarp k w =>
    simp only [Instr.step]
    split
    · rename_i o _; exact one (.setWarp o w) (fun _ _ _ _ e => by cases e)
    · exact nil b
  | _ => simp only [Instr.step]; (repeat' split) <;> exact nil b

/-- Nothing was created through the second handle of a pair except with the type of the pair. -/
def TypedHistory (N : Names) (evs' : List Event) : Prop :=
  ∀ (C D : ContractTy) (h h' o' : Idx), CreatedAs evs' C h' o' → N.con D h h' → D = C

/-- Two runs of a program, and the history of the second. -/
theorem run_history (is : List Instr) : ∀ {N : Names} {b b' : Baseline} {e e' : Env} {kind : Kind} {evs' : List Event}, Paired N b b' → RelEnv N e e' →
    History kind evs' b' → TypedHistory N evs' → ∀ (ords ords' : Nat → HashOrder) {ss : List Seen} {e1 : Env} {b1 : Baseline},
    runProg is ords e b = (ss, some (e1, b1)) → ∃ (e2 : Env) (b2 : Baseline) (N' : Names) (evs2 : List Event),
      runProg is ords' e' b' = (ss, some (e2, b2)) ∧ Paired N' b1 b2 ∧ RelEnv N' e1 e2 ∧ History kind evs2 b2 ∧ TypedHistory N' evs2 := by
  induction is with
  | nil =>
    intro N b b' e e' kind evs' hs he hH hT ords ords' ss e1 b1 hr
    simp only [runProg, Prod.mk.injEq, Option.some.injEq] at hr
    obtain ⟨rfl, rfl, rfl⟩ := hr
    exact ⟨e', b', N, evs', rfl, hs, he, hH, hT⟩
  | cons i is ih =>
    intro N b b' e e' kind evs' hs he hH hT ords ords' ss e1 b1 hr
    obtain ⟨h1, h2⟩ := step_agree hs he (ords 0) (ords' 0) i
    simp only [runProg] at hr ⊢
    rw [← h1]
    by_cases hp : (i.step (ords 0) e b).1.isPanic = true
    · rw [if_pos hp] at hr; cases hr
    · rw [if_neg hp] at hr ⊢
      obtain ⟨N', le, hs', he'⟩ := h2 (by simpa using hp)
      obtain ⟨evs, t1, t2⟩ := step_trace i (ords' 0) e' b'
      injection hr with hr1 hr2
      have hT' : TypedHistory N' (evs' ++ evs) := by
        rintro C D h h' o' ⟨ss', ch', m⟩ hc
        rcases List.mem_append.1 m with m | m
        · rcases le.con D h h' hc with hc | hn
          · exact hT C D h h' o' ⟨ss', ch', m⟩ hc
          · obtain ⟨E, hE⟩ := trace_create_registered (new_binv kind) hH ⟨ss', ch', m⟩
            rw [List.nil_append] at hE
            rcases (history_binv hH).c.registered E _ hE with ⟨cd, g, _⟩ | d
            · rw [hn.1] at g; cases g
            · exact absurd d hn.2
        · obtain ⟨k, hk⟩ := t2 C h' o' ⟨ss', ch', m⟩
          have hg := he.get k
          rw [hk] at hg
          rcases optRel_cases hg with ⟨_, z⟩ | ⟨p, p', q1, q2, q3⟩
          · cases z
          · injection q2 with q2; subst q2
            cases p <;> try exact q3.elim
            obtain ⟨q3, q4⟩ := q3
            subst q3
            have q5 := le.le.con _ _ _ q4
            have := hs'.cons.inj _ _ _ ⟨_, hc⟩ ⟨_, q5⟩
            subst this
            exact hs'.ty _ _ _ _ _ hc q5
      obtain ⟨e2, b2, N2, evs2, g1, g⟩ := ih hs' he' (Trace.append hH t1) hT' (fun k => ords (k + 1)) (fun k => ords' (k + 1)) (Prod.ext rfl hr2)
      exact ⟨e2, b2, N2, evs2, by rw [g1]; exact Prod.ext hr1 rfl, g⟩

/-- If contracts can be saved, so can the corresponding ones. -/
theorem paired_savable {N : Names} {b b' : Baseline} (hs : Paired N b b') {kind kind' : Kind} {evs evs' : List Event}
    {cs cs' : List (ContractTy × Idx)} (hS : Savable kind evs b cs) (hc : List.Forall₂ (fun e e' => e.1 = e'.1 ∧ N.con e.1 e.2 e'.2) cs cs')
    (hH : History kind' evs' b') (hT : TypedHistory N evs') : Savable kind' evs' b' cs' := by
  obtain ⟨φ, ψ, hss, hmap⟩ := paired_saved hs hS hc
  have pre : ∀ {C : ContractTy} {h' : Idx}, (C, h') ∈ cs' → ∃ h, (C, h) ∈ cs ∧ ψ h = h' := fun m => (hss.instances _ _).1 m
  have con : ∀ {C : ContractTy} {h' : Idx}, (C, h') ∈ cs' → ∃ h, (C, h) ∈ cs ∧ N.con C h h' := by
    intro C h' m
    obtain ⟨n, hn⟩ := List.mem_iff_getElem?.1 m
    have hl' : n < cs'.length := (List.getElem?_eq_some_iff.1 hn).1
    have hl : n < cs.length := hc.length_eq ▸ hl'
    have h := hc.get hl hl'
    have e : cs'.get ⟨n, hl'⟩ = (C, h') := by rw [List.getElem?_eq_getElem hl'] at hn; injection hn
    rw [e] at h
    obtain ⟨h1, h2⟩ := h
    simp only at h1 h2
    refine ⟨(cs.get ⟨n, hl⟩).2, ?_, h1 ▸ h2⟩
    have : (C, (cs.get ⟨n, hl⟩).2) = cs.get ⟨n, hl⟩ := Prod.ext h1.symm rfl
    rw [this]; exact List.get_mem _ _
  have data : ∀ {C : ContractTy} {h' : Idx}, (C, h') ∈ cs' → ∃ cd', b'.contractData h' = .ok cd' ∧ cd'.id = C.id ∧
      ∀ o' ∈ cd'.objects, ∃ ob', b'.object o' = .ok ob' := by
    intro C h' m
    obtain ⟨h, m1, hr⟩ := con m
    obtain ⟨cd, h1, h2⟩ := hS.serializable.registered C h m1
    obtain ⟨cd', k1, k2, _, _, _, k3⟩ := hs.cons.left ⟨C, hr⟩ (contractData_ok.1 h1)
    refine ⟨cd', contractData_ok.2 k1, k2 ▸ h2, fun o' ho' => ?_⟩
    obtain ⟨o, g1, g2⟩ := k3 o' ho'
    obtain ⟨ob, g3⟩ := hS.serializable.present C h o m1 (by rw [objectsOf_eq h1]; exact g1)
    obtain ⟨ob', g4, _⟩ := hs.objs.left g2 (object_ok.1 g3)
    exact ⟨ob', object_ok.2 g4⟩
  have len : ∀ e ∈ cs, (objectsOf b' (ψ e.2)).length = (objectsOf b e.2).length := by
    rintro ⟨C, h⟩ m
    have hp : (objectsOf b' (ψ h)).Perm ((objectsOf b h).map φ) := by
      refine (List.perm_ext_iff_of_nodup (objectsOf_nodup hH _) (List.Nodup.map_on (fun o ho o' ho' => hss.objInj C C h h o o' m m ho ho') (objectsOf_nodup hS.history h))).2
        fun x => ?_
      rw [hss.objects C h m x, List.mem_map]
    rw [hp.length_eq, List.length_map]
  have hcount : savedTables b' cs' = savedTables b cs := by
    have e1 : objectCount b' cs' = objectCount b cs := by
      unfold objectCount
      rw [hmap, List.map_map]
      exact congrArg List.sum (List.map_congr_left fun e he => len e he)
    have e2 : stateCount b' cs' = stateCount b cs := by
      unfold stateCount
      rw [hmap, List.map_map]
      exact congrArg List.sum (List.map_congr_left fun e he => by simp only [Function.comp]; rw [len e he])
    unfold savedTables
    rw [e1, e2, ← hc.length_eq]
  have held : ∀ {C : ContractTy} {h' o' : Idx} {n : Nat} {f : Field}, (C, h') ∈ cs' → o' ∈ objectsOf b' h' → C.states[n]? = some f →
      ∃ h o v1 v2, (C, h) ∈ cs ∧ o ∈ objectsOf b h ∧ Holds b h o n f.ty v1 ∧ Holds b' h' o' n f.ty v2 ∧
        asRestored φ ψ (DynProp.ofTyped f.ty v1) = asRestored id id (DynProp.ofTyped f.ty v2) := by
    intro C h' o' n f m l hf
    obtain ⟨h, m1, rfl⟩ := pre m
    obtain ⟨o, l1, rfl⟩ := (hss.objects C h m1 o').1 l
    obtain ⟨v1, v2, a1, a2, a3⟩ := hss.values C h o n f m1 l1 hf
    exact ⟨h, o, v1, v2, m1, l1, a1, a2, a3⟩
  refine ⟨hH, ⟨?_, ?_, ?_, ?_, ?_⟩, ⟨?_, ?_⟩, ?_, ?_, ?_, ?_⟩
  · intro C h' m
    obtain ⟨cd', h1, h2, _⟩ := data m
    exact ⟨cd', h1, h2⟩
  · intro C C' h' o' m hcr
    obtain ⟨h, _, hr⟩ := con m
    exact (hT C' C h h' o' hcr hr).symm
  · intro C h' o' m l
    obtain ⟨cd', h1, _, h3⟩ := data m
    rw [objectsOf_eq h1] at l
    exact h3 o' l
  · intro C h' f m hf
    obtain ⟨h, m1, _⟩ := pre m
    exact hS.serializable.primitive C h f m1 hf
  · rw [← hc.length_eq]; exact hS.serializable.few
  · intro C h' o' n f v m l hf ht hv
    obtain ⟨h, o, v1, v2, m1, l1, a1, a2, a3⟩ := held m l hf
    obtain ⟨nm, ty⟩ := f
    simp only at ht; subst ht
    obtain ⟨D, k, m2, l2⟩ := hS.closed.objects C h o n _ v1 m1 l1 hf rfl a1
    have : v2 = v := holds_fun a2 hv
    subst this
    simp only [DynProp.ofTyped, asRestored, id] at a3
    refine ⟨D, ψ k, (hss.instances _ _).2 ⟨k, m2, rfl⟩, (hss.objects D k m2 _).2 ⟨v1, l2, ?_⟩⟩
    simpa using a3
  · intro C h' o' n f v m l hf ht hv
    obtain ⟨h, o, v1, v2, m1, l1, a1, a2, a3⟩ := held m l hf
    obtain ⟨nm, ty⟩ := f
    simp only at ht; subst ht
    obtain ⟨D, m2⟩ := hS.closed.contracts C h o n _ v1 m1 l1 hf rfl a1
    have : v2 = v := holds_fun a2 hv
    subst this
    simp only [DynProp.ofTyped, asRestored, id] at a3
    exact ⟨D, (hss.instances _ _).2 ⟨v1, m2, by simpa using a3⟩⟩
  · rw [hmap, List.map_map]
    have : (Prod.snd ∘ fun (e : ContractTy × Idx) => (e.1, ψ e.2)) = ψ ∘ Prod.snd := rfl
    rw [this, ← List.map_map]
    refine List.Nodup.map_on (fun x hx y hy => ?_) hS.different
    obtain ⟨⟨C, x'⟩, m1, rfl⟩ := List.mem_map.1 hx
    obtain ⟨⟨D, y'⟩, m2, rfl⟩ := List.mem_map.1 hy
    exact hss.conInj C D x' y' m1 m2
  · rintro ⟨C, h'⟩ m
    obtain ⟨h, m1, _⟩ := pre m
    exact hS.notNull (C, h) m1
  · intro C h' m hne
    obtain ⟨h, m1, rfl⟩ := pre m
    have := len _ m1
    rw [hS.noChannels C h m1 hne] at this
    exact List.length_eq_zero_iff.1 this
  · rw [hcount]; exact hS.size

/-- Corresponding variables hold corresponding instances. -/
theorem instances_rel {N : Names} {env env' : Env} (he : RelEnv N env env') (ks : List Nat) :
    List.Forall₂ (fun (e e' : ContractTy × Idx) => e.1 = e'.1 ∧ N.con e.1 e.2 e'.2) (instancesAt env ks) (instancesAt env' ks) := by
  induction ks with
  | nil => exact .nil
  | cons k ks ih =>
    have h : Option.Rel (fun (e e' : ContractTy × Idx) => e.1 = e'.1 ∧ N.con e.1 e.2 e'.2) (instanceAt env k) (instanceAt env' k) := by
      unfold instanceAt
      rcases optRel_cases (he.get k) with ⟨h1, h2⟩ | ⟨p, p', h1, h2, hp⟩
      · rw [h1, h2]; exact .none
      · rw [h1, h2]
        cases p <;> cases p' <;> first | exact hp.elim | exact .none | exact .some hp
    unfold instancesAt at ih ⊢
    rcases optRel_cases h with ⟨h1, h2⟩ | ⟨p, p', h1, h2, hp⟩
    · rw [List.filterMap_cons_none h1, List.filterMap_cons_none h2]; exact ih
    · rw [List.filterMap_cons_some h1, List.filterMap_cons_some h2]; exact .cons hp ih

/-- Two runs of a program, from paired baselines, with any hash orders: what can be saved at the end is the same. -/
theorem paired_files {N : Names} {b b' : Baseline} {env env' : Env} {kind' : Kind} {evs' : List Event} (hs : Paired N b b') (he : RelEnv N env env')
    (hH : History kind' evs' b') (hT : TypedHistory N evs') (is : List Instr)
    (ords ords' : Nat → HashOrder) {ss : List Seen} {e1 : Env} {b1 : Baseline} (hr : runProg is ords env b = (ss, some (e1, b1))) :
    ∃ (e2 : Env) (b2 : Baseline), runProg is ords' env' b' = (ss, some (e2, b2)) ∧
      ∀ (ks : List Nat) (kind1 : Kind) (evs1 : List Event), Savable kind1 evs1 b1 (instancesAt e1 ks) →
        (∃ evs2 : List Event, Savable kind' evs2 b2 (instancesAt e2 ks)) ∧ ∀ out : Outcome Bytes,
        (∃ c : Cycle, c.Fits (instancesAt e1 ks) ∧ c.save b1 = out) ↔ (∃ c : Cycle, c.Fits (instancesAt e2 ks) ∧ c.save b2 = out) := by
  obtain ⟨e2, b2, N', evs2, g1, hp, hv, g2, g3⟩ := run_history is hs he hH hT ords ords' hr
  refine ⟨e2, b2, g1, fun ks kind1 evs1 hS1 => ?_⟩
  have hS2 := paired_savable hp hS1 (instances_rel hv ks) g2 g3
  obtain ⟨φ, ψ, hss, _⟩ := paired_saved hp hS1 (instances_rel hv ks)
  exact ⟨⟨evs2, hS2⟩, fun out => C138_same_files hS1 hS2 hss out⟩

/-- **C140.** The files that the contracts of a program can be saved as, at any point, do not depend on the hash seeds of the calls before. -/
theorem C140_seeds (kind : Kind) (is : List Instr) (ords ords' : Nat → HashOrder) {ss : List Seen} {e1 : Env} {b1 : Baseline}
    (hr : runProg is ords [] (Baseline.new kind) = (ss, some (e1, b1))) :
    ∃ (e2 : Env) (b2 : Baseline), runProg is ords' [] (Baseline.new kind) = (ss, some (e2, b2)) ∧
      ∀ (ks : List Nat) (kind1 : Kind) (evs1 : List Event), Savable kind1 evs1 b1 (instancesAt e1 ks) →
        (∃ evs2 : List Event, Savable kind evs2 b2 (instancesAt e2 ks)) ∧ ∀ out : Outcome Bytes,
        (∃ c : Cycle, c.Fits (instancesAt e1 ks) ∧ c.save b1 = out) ↔ (∃ c : Cycle, c.Fits (instancesAt e2 ks) ∧ c.save b2 = out) :=
  paired_files (self_sim kind) .nil (.nil _) (fun _ _ _ _ _ ⟨_, _, m⟩ => by cases m) is ords ords' hr

/-- **C140.** Nor on whether the program was saved, restored and continued in between (the whole baseline, as in C111): after any calls, the contracts of the
program that went on in the restored baseline can be saved as exactly the files that those of the program that just went on can. -/
theorem C140_restarts {kind : Kind} {evs : List Event} {b : Baseline} {cs : List (ContractTy × Idx)} (hS : Savable kind evs b cs)
    (hW : Whole b cs) {c : Cycle} (hc : c.Fits cs) (hk : c.kind = b.kind) {cs' : List (ContractTy × Idx)} {b' : Baseline}
    (hrun : c.run b = .ok (cs', b')) {φ ψ : Idx → Idx} (hE : SameContents b cs b' cs' φ ψ) {env env' : Env}
    (he : List.Forall₂ (StandsFor b cs b' φ ψ) env env') (is : List Instr) (ords ords' : Nat → HashOrder) {ss : List Seen} {e1 : Env} {b1 : Baseline}
    (hr : runProg is ords env b = (ss, some (e1, b1))) :
    ∃ (e2 : Env) (b2 : Baseline), runProg is ords' env' b' = (ss, some (e2, b2)) ∧
      ∀ (ks : List Nat) (kind1 : Kind) (evs1 : List Event), Savable kind1 evs1 b1 (instancesAt e1 ks) →
        (∃ evs2 : List Event, Savable c.kind evs2 b2 (instancesAt e2 ks)) ∧ ∀ out : Outcome Bytes,
        (∃ c : Cycle, c.Fits (instancesAt e1 ks) ∧ c.save b1 = out) ↔ (∃ c : Cycle, c.Fits (instancesAt e2 ks) ∧ c.save b2 = out) := by
  obtain ⟨cs2, b2, _, _, evs', r1, _, r3⟩ := C78_savable_again hS c hc
  rw [hrun] at r1
  injection r1 with r1; injection r1 with ra rb; subst ra; subst rb
  have hk' : b.kind = b'.kind := by rw [history_kind r3.history, hk]
  refine paired_files (restore_sim hS hW r3 hk' hE (C106_reset_partial hrun)) (stands_rel he) r3.history (fun C D h h' o' hcr hr => ?_) is ords ords' hr
  obtain ⟨m, rfl⟩ := hr
  exact (r3.serializable.typed D C _ o' ((hE.instances D _).2 ⟨h, m, rfl⟩) hcr).symm

/-! ## Examples -/

theorem singleton_of_mem {α : Type} {a : α} {l : List α} (hn : l.Nodup) (h : ∀ x : α, x ∈ l ↔ x = a) : l = [a] := by
  rcases l with _ | ⟨b, _ | ⟨c, l⟩⟩
  · exact absurd ((h a).2 rfl) (by simp)
  · rw [(h b).1 (by simp)]
  · have h1 := (h b).1 (by simp)
    have h2 := (h c).1 (by simp)
    subst h1; subst h2
    simp at hn

/-- The program that makes a tag is stopped, saved, restored and writes the label: it can save its contract as exactly the files as if it had never been stopped. -/
example : ∃ (b' b2 : Baseline) (e2 : Env), (mainCycle [(tagC, h0)]).run tagB = .ok (instancesAt e2 [0], b') ∧
    (∃ j : Idx, b'.stateWrite (.prim .string) j "b" = (b2, .ok ())) ∧ ∀ out : Outcome Bytes,
      (∃ c : Cycle, c.Fits [(tagC, h0)] ∧ c.save (tagB.stateWrite (.prim .string) h0 "b").1 = out) ↔
        (∃ c : Cycle, c.Fits (instancesAt e2 [0]) ∧ c.save b2 = out) := by
  obtain ⟨cs', b', e1, ⟨φ, ψ, hE⟩, _⟩ := C111_transparent tag_savable tag_whole _ (mainCycle_fits _) (by rfl)
  obtain ⟨cs2, b2, _, _, evs', r1, _, r3⟩ := C78_savable_again tag_savable _ (mainCycle_fits _)
  rw [e1] at r1
  injection r1 with r1; injection r1 with ra rb; subst ra; subst rb
  have hcs : cs' = [(tagC, ψ h0)] := by
    refine singleton_of_mem r3.different.of_map (fun x => ?_)
    obtain ⟨C, k⟩ := x
    rw [hE.instances]
    simp only [List.mem_singleton, Prod.mk.injEq]
    constructor
    · rintro ⟨h, ⟨rfl, rfl⟩, rfl⟩; exact ⟨rfl, rfl⟩
    · rintro ⟨rfl, rfl⟩; exact ⟨h0, ⟨rfl, rfl⟩, rfl⟩
  have hobj : h0 ∈ objectsOf tagB h0 := by decide +kernel
  have hm : (tagC, h0) ∈ [(tagC, h0)] := by simp
  obtain ⟨j, hj⟩ := C111_all_stand hE tagC h0 hm h0 hobj 0 ⟨"label", .prim .string⟩ rfl h0 (by decide +kernel)
  have he : List.Forall₂ (StandsFor tagB [(tagC, h0)] b' φ ψ) [.inst tagC h0, .state (.prim .string) h0] [.inst tagC (ψ h0), .state (.prim .string) j] :=
    .cons (.inst tagC h0 hm) (.cons hj .nil)
  obtain ⟨e2, b2, g1, g2⟩ := C140_restarts tag_savable tag_whole (mainCycle_fits _) (by rfl) e1 hE he [.writeState 1 ⟨.prim .string, "b"⟩]
    (fun _ => .id) (fun _ => .id) (ss := [.result (.ok ())])
    (e1 := [.inst tagC h0, .state (.prim .string) h0]) (b1 := (tagB.stateWrite (.prim .string) h0 "b").1) (by rfl)
  obtain ⟨b3, o3, k3⟩ : ∃ (b3 : Baseline) (o3 : Outcome Unit), b'.stateWrite (.prim .string) j "b" = (b3, o3) := ⟨_, _, rfl⟩
  have hrun : runProg [.writeState 1 ⟨.prim .string, "b"⟩] (fun _ => .id) [.inst tagC (ψ h0), .state (.prim .string) j] b' =
      ([.result o3], if (Seen.result o3).isPanic then none else some ([.inst tagC (ψ h0), .state (.prim .string) j], b3)) := by
    simp [runProg, Instr.step, evalVal, evalPrim, k3]
    split <;> rfl
  rw [hrun] at g1
  simp only [Prod.mk.injEq, List.cons.injEq, Seen.result.injEq, and_true] at g1
  obtain ⟨rfl, g1⟩ := g1
  simp only [Seen.isPanic, Outcome.isPanic, Bool.false_eq_true, if_false, Option.some.injEq, Prod.mk.injEq] at g1
  obtain ⟨rfl, rfl⟩ := g1
  refine ⟨b', b3, [.inst tagC (ψ h0), .state (.prim .string) j], by rw [e1, hcs]; rfl, ⟨j, k3⟩, ?_⟩
  refine (g2 [0] _ _ (write_savable tag_savable (i := h0) (t := .prim .string) (v := "b") (by rfl) ?_ ?_)).2
  all_goals intro _ h; simp [DynProp.ofTyped] at h

end Verif.Props
