import Verif.Proofs.Commute
import Verif.Spec.Commute
/-! # Independent calls, call by call -/
namespace Verif
open Arena Store Baseline Spec

/-- A call with its arguments evaluated. -/
inductive Act where
  | register (C : ContractTy)
  | create (C : ContractTy) (h : Idx) (ss : List DynProp) (cs : List DynChannel)
  | ws (t : PropType) (i : Idx) (v : t.Carrier)
  | wc (t : PropType) (i : Idx) (v : t.Chan)
  | sw (o : Idx) (w : TimeWarp)
  | rm (C : ContractTy) (o : Idx)

/-- What it does, and the variables it returns. -/
def Act.run (b : Baseline) : Act → Baseline × Outcome (List Held)
  | .register C => ((b.registerContract C).1, (b.registerContract C).2.map fun h => [.inst C h])
  | .create C h ss cs => ((b.objectCreate C h ss cs).1, (b.objectCreate C h ss cs).2.map fun o => [.obj o])
  | .ws t i v => ((b.stateWrite t i v).1, (b.stateWrite t i v).2.map fun _ => [])
  | .wc t i v => ((b.channelWrite t i v).1, (b.channelWrite t i v).2.map fun _ => [])
  | .sw o w => ((b.setWarp o w).1, (b.setWarp o w).2.map fun _ => [])
  | .rm C o => ((b.objectRemove C o).1, (b.objectRemove C o).2.map fun _ => [])

/-- What is seen of a result, and the variables after it. -/
def seenOf (r : Outcome (List Held)) (env : Env) : Seen × Env :=
  match r with
  | .ok l => (.result (.ok ()), env ++ l)
  | .err m => (.result (.err m), env)
  | .panic m => (.result (.panic m), env)

theorem env_ext {env : Env} {k : Nat} {x : Held} (h : env[k]? = some x) (l : Env) : (env ++ l)[k]? = some x := by
  rw [List.getElem?_append_left (List.getElem?_eq_some_iff.1 h).1]; exact h

theorem evalPrim_ext {env : Env} {p : PrimType} {s : PrimSym p} {v : p.Carrier} (h : evalPrim env p s = some v) (l : Env) :
    evalPrim (env ++ l) p s = some v := by
  cases p
  case objectHandle =>
    simp only [evalPrim] at h ⊢
    cases hk : env[s]? with
    | none => simp only [hk] at h; cases h
    | some x => rw [env_ext hk]; simpa only [hk] using h
  case contractDataHandle =>
    simp only [evalPrim] at h ⊢
    cases hk : env[s]? with
    | none => simp only [hk] at h; cases h
    | some x => rw [env_ext hk]; simpa only [hk] using h
  all_goals exact h

theorem evalList_ext {α β : Type} {f g : α → Option β} (hfg : ∀ (x : α) (y : β), f x = some y → g x = some y) {l : List α} {m : List β}
    (h : evalList f l = some m) : evalList g l = some m := by
  induction l generalizing m with
  | nil => exact h
  | cons x xs ih =>
    simp only [evalList] at h ⊢
    cases h1 : f x with
    | none => simp only [h1] at h; cases h
    | some y =>
      cases h2 : evalList f xs with
      | none => simp only [h1, h2] at h; cases h
      | some ys => simp only [h1, h2] at h; rw [hfg x y h1, ih h2]; exact h

theorem evalVal_ext {env : Env} {t : PropType} {s : Sym t} {v : t.Carrier} (h : evalVal env t s = some v) (l : Env) :
    evalVal (env ++ l) t s = some v := by
  cases t with
  | prim p => exact evalPrim_ext h l
  | vec p => exact evalList_ext (fun x y z => evalPrim_ext z l) h

theorem evalChan_ext {env : Env} {t : PropType} {s : ChanSym t} {v : t.Chan} (h : evalChan env t s = some v) (l : Env) :
    evalChan (env ++ l) t s = some v := by
  refine evalList_ext (fun x y z => ?_) h
  unfold evalKey at z ⊢
  cases hv : evalVal env t x.1 with
  | none => rw [hv] at z; cases z
  | some w => rw [hv] at z; rw [evalVal_ext hv l]; exact z

theorem evalProps_ext {env : Env} {s : List ((t : PropType) × Sym t)} {v : List DynProp} (h : evalList (evalProp env) s = some v) (l : Env) :
    evalList (evalProp (env ++ l)) s = some v := by
  refine evalList_ext (fun x y z => ?_) h
  unfold evalProp at z ⊢
  cases hv : evalVal env x.1 x.2 with
  | none => rw [hv] at z; cases z
  | some w => rw [hv] at z; rw [evalVal_ext hv l]; exact z

theorem evalChans_ext {env : Env} {s : List ((t : PropType) × ChanSym t)} {v : List DynChannel} (h : evalList (evalDynChan env) s = some v) (l : Env) :
    evalList (evalDynChan (env ++ l)) s = some v := by
  refine evalList_ext (fun x y z => ?_) h
  unfold evalDynChan at z ⊢
  cases hv : evalChan env x.1 x.2 with
  | none => rw [hv] at z; cases z
  | some w => rw [hv] at z; rw [evalChan_ext hv l]; exact z

/-- The call `i` of the program, with the variables `env`, is `a`. -/
inductive Is (env : Env) : Instr → Act → Prop
  | register (C : ContractTy) : Is env (.register C) (.register C)
  | create (k : Nat) (ss : List ((t : PropType) × Sym t)) (cs : List ((t : PropType) × ChanSym t)) (C : ContractTy) (h : Idx)
      (ss' : List DynProp) (cs' : List DynChannel) : env[k]? = some (.inst C h) → evalList (evalProp env) ss = some ss' →
      evalList (evalDynChan env) cs = some cs' → Is env (.create k ss cs) (.create C h ss' cs')
  | ws (k : Nat) (t : PropType) (s : Sym t) (i : Idx) (v : t.Carrier) : env[k]? = some (.state t i) → evalVal env t s = some v →
      Is env (.writeState k ⟨t, s⟩) (.ws t i v)
  | wc (k : Nat) (t : PropType) (s : ChanSym t) (i : Idx) (v : t.Chan) : env[k]? = some (.channel t i) → evalChan env t s = some v →
      Is env (.writeChannel k ⟨t, s⟩) (.wc t i v)
  | sw (k : Nat) (o : Idx) (w : TimeWarp) : env[k]? = some (.obj o) → Is env (.setWarp k w) (.sw o w)
  | rm (C : ContractTy) (k : Nat) (o : Idx) : env[k]? = some (.obj o) → Is env (.remove C k) (.rm C o)

theorem is_step {env : Env} {i : Instr} {a : Act} (h : Is env i a) (ord : HashOrder) (l : Env) (b : Baseline) :
    i.step ord (env ++ l) b = ((seenOf (a.run b).2 (env ++ l)).1, (seenOf (a.run b).2 (env ++ l)).2, (a.run b).1) := by
  cases h with
  | register C =>
    simp only [Instr.step, Act.run]
    cases (b.registerContract C).2 <;> rfl
  | create k ss cs C h ss' cs' h1 h2 h3 =>
    simp only [Instr.step, Act.run, env_ext h1 l, evalProps_ext h2 l, evalChans_ext h3 l]
    cases (b.objectCreate C h ss' cs').2 <;> rfl
  | ws k t s i v h1 h2 =>
    simp only [Instr.step, Act.run, env_ext h1 l, evalVal_ext h2 l, dif_pos]
    cases (b.stateWrite t i v).2 <;> simp [seenOf, Outcome.map, Outcome.bind]
  | wc k t s i v h1 h2 =>
    simp only [Instr.step, Act.run, env_ext h1 l, evalChan_ext h2 l, dif_pos]
    cases (b.channelWrite t i v).2 <;> simp [seenOf, Outcome.map, Outcome.bind]
  | sw k o w h1 =>
    simp only [Instr.step, Act.run, env_ext h1 l]
    cases (b.setWarp o w).2 <;> simp [seenOf, Outcome.map, Outcome.bind]
  | rm C k o h1 =>
    simp only [Instr.step, Act.run, env_ext h1 l]
    cases (b.objectRemove C o).2 <;> simp [seenOf, Outcome.map, Outcome.bind]

theorem step_is {env : Env} {b : Baseline} {i : Instr} {ord : HashOrder} (hu : i.updates) (h : (i.step ord env b).1 ≠ .stuck) : ∃ a, Is env i a := by
  cases i with
  | register C => exact ⟨_, .register C⟩
  | create k ss cs =>
    simp only [Instr.step] at h
    split at h
    · rename_i h1 h2 h3; exact ⟨_, .create k ss cs _ _ _ _ h1 h2 h3⟩
    · exact absurd rfl h
  | writeState k x =>
    simp only [Instr.step] at h
    split at h
    · rename_i t i v h1 h2
      by_cases e : x.1 = t
      · subst e; exact ⟨_, .ws k x.1 x.2 i v h1 h2⟩
      · rw [dif_neg e] at h; exact absurd rfl h
    · exact absurd rfl h
  | writeChannel k x =>
    simp only [Instr.step] at h
    split at h
    · rename_i t i v h1 h2
      by_cases e : x.1 = t
      · subst e; exact ⟨_, .wc k x.1 x.2 i v h1 h2⟩
      · rw [dif_neg e] at h; exact absurd rfl h
    · exact absurd rfl h
  | setWarp k w =>
    simp only [Instr.step] at h
    split at h
    · rename_i o h1; exact ⟨_, .sw k o w h1⟩
    · exact absurd rfl h
  | remove C k =>
    simp only [Instr.step] at h
    split at h
    · rename_i o h1; exact ⟨_, .rm C k o h1⟩
    · exact absurd rfl h
  | _ => exact hu.elim

/-! ## Calls that leave exactly the same baseline in both orders -/

/-- In both orders: the same results and the same baseline. -/
def Commute (b : Baseline) (f g : Act) : Prop :=
  (g.run (f.run b).1).2 = (g.run b).2 ∧ (f.run (g.run b).1).2 = (f.run b).2 ∧ (g.run (f.run b).1).1 = (f.run (g.run b).1).1

theorem Commute.symm {b : Baseline} {f g : Act} (h : Commute b f g) : Commute b g f := ⟨h.2.1, h.1, h.2.2.symm⟩

/-- A call that does nothing to the baseline. -/
theorem Commute.of_noop {b : Baseline} {f g : Act} (h1 : (f.run b).1 = b) (h2 : (f.run (g.run b).1).1 = (g.run b).1)
    (h3 : (f.run (g.run b).1).2 = (f.run b).2) : Commute b f g := ⟨by rw [h1], h3, by rw [h1, h2]⟩

theorem run_ws (b : Baseline) (t : PropType) (i : Idx) (v : t.Carrier) :
    (b.states.get t i = none ∧ (Act.ws t i v).run b = (b, .err "the given handle doesn't exist")) ∨
    ∃ s, b.states.write t i v = some s ∧ (Act.ws t i v).run b = ({ b with states := s }, .ok []) := by
  simp only [Act.run, stateWrite]
  cases h : b.states.write t i v with
  | none => exact .inl ⟨write_eq_none.1 h, rfl⟩
  | some s => exact .inr ⟨s, rfl, rfl⟩

theorem run_wc (b : Baseline) (t : PropType) (i : Idx) (v : t.Chan) :
    (b.channels.get t i = none ∧ (Act.wc t i v).run b = (b, .err "the given handle doesn't exist")) ∨
    ∃ s, b.channels.write t i v = some s ∧ (Act.wc t i v).run b = ({ b with channels := s }, .ok []) := by
  simp only [Act.run, channelWrite]
  cases h : b.channels.write t i v with
  | none => exact .inl ⟨write_eq_none.1 h, rfl⟩
  | some s => exact .inr ⟨s, rfl, rfl⟩

theorem run_sw (b : Baseline) (o : Idx) (w : TimeWarp) :
    (b.objects.get o = none ∧ (Act.sw o w).run b = (b, .err "the given handle doesn't exist in the arena")) ∨
    ∃ s, b.objects.modify o (fun ob => { ob with warp := w }) = some s ∧ (Act.sw o w).run b = ({ b with objects := s }, .ok []) := by
  simp only [Act.run, setWarp]
  cases h : b.objects.modify o (fun ob => { ob with warp := w }) with
  | none => exact .inl ⟨modify_eq_none.1 h, rfl⟩
  | some s => exact .inr ⟨s, rfl, rfl⟩

theorem Store.write_comm' {F : PropType → Type} {s s1 s2 : Store F} {t t' : PropType} {i j : Idx} {v : F t} {w : F t'} (hij : ¬ (t = t' ∧ i = j))
    (h1 : s.write t i v = some s1) (h2 : s1.write t' j w = some s2) :
    ∃ s1', s.write t' j w = some s1' ∧ s1'.write t i v = some s2 := by
  by_cases e : t = t'
  · subst e; exact Store.write_comm (fun x => hij ⟨rfl, x⟩) h1 h2
  · unfold Store.write at h1
    cases ha : s t with
    | none => simp only [ha] at h1; cases h1
    | some a =>
      simp only [ha] at h1
      cases hm : a.modify i (fun _ => v) with
      | none => simp only [hm] at h1; cases h1
      | some a1 =>
        simp only [hm] at h1
        cases h1
        unfold Store.write at h2
        rw [Function.update_of_ne (fun x => e x.symm)] at h2
        cases ha' : s t' with
        | none => simp only [ha'] at h2; cases h2
        | some a' =>
          simp only [ha'] at h2
          cases hm' : a'.modify j (fun _ => w) with
          | none => simp only [hm'] at h2; cases h2
          | some a1' =>
            simp only [hm'] at h2
            cases h2
            refine ⟨Function.update s t' (some a1'), ?_, ?_⟩
            · unfold Store.write; simp only [ha', hm']
            · unfold Store.write
              rw [Function.update_of_ne e]
              simp only [ha, hm]
              rw [Function.update_comm e]

/-- Two writes to a store. -/
theorem writes_comm {F : PropType → Type} (s : Store F) {t t' : PropType} {i j : Idx} (v : F t) (w : F t') (hij : ¬ (t = t' ∧ i = j)) :
    (s.get t i = none ∧ ∀ s2, s.write t' j w = some s2 → s2.get t i = none) ∨ (s.get t' j = none ∧ ∀ s1, s.write t i v = some s1 → s1.get t' j = none) ∨
    ∃ s1 s2 s3, s.write t i v = some s1 ∧ s.write t' j w = some s2 ∧ s1.write t' j w = some s3 ∧ s2.write t i v = some s3 := by
  cases h1 : s.write t i v with
  | none =>
    have h1 := write_eq_none.1 h1
    exact .inl ⟨h1, fun s2 h => by rw [get_write_ne h (fun x => hij ⟨x.1, x.2⟩)]; exact h1⟩
  | some s1 =>
    right
    cases h2 : s.write t' j w with
    | none =>
      have h2 := write_eq_none.1 h2
      exact .inl ⟨h2, fun s1' h => by cases h; rw [get_write_ne h1 (fun x => hij ⟨x.1.symm, x.2.symm⟩)]; exact h2⟩
    | some s2 =>
      right
      cases h3 : s1.write t' j w with
      | none =>
        have h3 := write_eq_none.1 h3
        rw [get_write_ne h1 (fun x => hij ⟨x.1.symm, x.2.symm⟩), ← write_eq_none (v := w), h2] at h3
        cases h3
      | some s3 =>
        obtain ⟨s2', g1, g2⟩ := Store.write_comm' hij h1 h3
        rw [h2] at g1; cases g1
        exact ⟨s1, s2, s3, rfl, rfl, h3, g2⟩

theorem ws_none {b : Baseline} {t : PropType} {i : Idx} (v : t.Carrier) (h : b.states.get t i = none) :
    (Act.ws t i v).run b = (b, .err "the given handle doesn't exist") := by
  simp only [Act.run, stateWrite, write_eq_none.2 h]; rfl

theorem ws_some {b : Baseline} {t : PropType} {i : Idx} {v : t.Carrier} {s : Store PropType.Carrier} (h : b.states.write t i v = some s) :
    (Act.ws t i v).run b = ({ b with states := s }, .ok []) := by
  simp only [Act.run, stateWrite, h]; rfl

theorem wc_none {b : Baseline} {t : PropType} {i : Idx} (v : t.Chan) (h : b.channels.get t i = none) :
    (Act.wc t i v).run b = (b, .err "the given handle doesn't exist") := by
  simp only [Act.run, channelWrite, write_eq_none.2 h]; rfl

theorem wc_some {b : Baseline} {t : PropType} {i : Idx} {v : t.Chan} {s : Store PropType.Chan} (h : b.channels.write t i v = some s) :
    (Act.wc t i v).run b = ({ b with channels := s }, .ok []) := by
  simp only [Act.run, channelWrite, h]; rfl

theorem sw_none {b : Baseline} {o : Idx} (w : TimeWarp) (h : b.objects.get o = none) :
    (Act.sw o w).run b = (b, .err "the given handle doesn't exist in the arena") := by
  simp only [Act.run, setWarp, modify_eq_none.2 h]; rfl

theorem sw_some {b : Baseline} {o : Idx} {w : TimeWarp} {s : Arena ObjectD} (h : b.objects.modify o (fun ob => { ob with warp := w }) = some s) :
    (Act.sw o w).run b = ({ b with objects := s }, .ok []) := by
  simp only [Act.run, setWarp, h]; rfl

theorem ws_ws (b : Baseline) {t t' : PropType} {i j : Idx} (v : t.Carrier) (w : t'.Carrier) (h : ¬ (t = t' ∧ i = j)) :
    Commute b (.ws t i v) (.ws t' j w) := by
  rcases writes_comm b.states v w h with ⟨h1, h2⟩ | ⟨h1, h2⟩ | ⟨s1, s2, s3, h1, h2, h3, h4⟩
  · rcases run_ws b t' j w with ⟨_, e⟩ | ⟨s2, hs, e⟩
    · exact .of_noop (by rw [ws_none v h1]) (by rw [e, ws_none v h1]) (by rw [e])
    · have := ws_none v (b := { b with states := s2 }) (h2 s2 hs)
      exact .of_noop (by rw [ws_none v h1]) (by rw [e, this]) (by rw [e, this, ws_none v h1])
  · refine Commute.symm ?_
    rcases run_ws b t i v with ⟨_, e⟩ | ⟨s2, hs, e⟩
    · exact .of_noop (by rw [ws_none w h1]) (by rw [e, ws_none w h1]) (by rw [e])
    · have := ws_none w (b := { b with states := s2 }) (h2 s2 hs)
      exact .of_noop (by rw [ws_none w h1]) (by rw [e, this]) (by rw [e, this, ws_none w h1])
  · have e1 := ws_some (b := b) h1
    have e2 := ws_some (b := b) h2
    have e3 := ws_some (b := { b with states := s1 }) h3
    have e4 := ws_some (b := { b with states := s2 }) h4
    exact ⟨by rw [e1, e3, e2], by rw [e2, e4, e1], by rw [e1, e3, e2, e4]⟩

theorem wc_wc (b : Baseline) {t t' : PropType} {i j : Idx} (v : t.Chan) (w : t'.Chan) (h : ¬ (t = t' ∧ i = j)) :
    Commute b (.wc t i v) (.wc t' j w) := by
  rcases writes_comm b.channels v w h with ⟨h1, h2⟩ | ⟨h1, h2⟩ | ⟨s1, s2, s3, h1, h2, h3, h4⟩
  · rcases run_wc b t' j w with ⟨_, e⟩ | ⟨s2, hs, e⟩
    · exact .of_noop (by rw [wc_none v h1]) (by rw [e, wc_none v h1]) (by rw [e])
    · have := wc_none v (b := { b with channels := s2 }) (h2 s2 hs)
      exact .of_noop (by rw [wc_none v h1]) (by rw [e, this]) (by rw [e, this, wc_none v h1])
  · refine Commute.symm ?_
    rcases run_wc b t i v with ⟨_, e⟩ | ⟨s2, hs, e⟩
    · exact .of_noop (by rw [wc_none w h1]) (by rw [e, wc_none w h1]) (by rw [e])
    · have := wc_none w (b := { b with channels := s2 }) (h2 s2 hs)
      exact .of_noop (by rw [wc_none w h1]) (by rw [e, this]) (by rw [e, this, wc_none w h1])
  · have e1 := wc_some (b := b) h1
    have e2 := wc_some (b := b) h2
    have e3 := wc_some (b := { b with channels := s1 }) h3
    have e4 := wc_some (b := { b with channels := s2 }) h4
    exact ⟨by rw [e1, e3, e2], by rw [e2, e4, e1], by rw [e1, e3, e2, e4]⟩

theorem sw_sw (b : Baseline) {i j : Idx} (v w : TimeWarp) (h : i ≠ j) : Commute b (.sw i v) (.sw j w) := by
  rcases run_sw b i v with ⟨h1, e1⟩ | ⟨s1, h1, e1⟩
  · rcases run_sw b j w with ⟨h2, e2⟩ | ⟨s2, h2, e2⟩
    · exact .of_noop (by rw [e1]) (by rw [e2, e1]) (by rw [e2])
    · have := sw_none v (b := { b with objects := s2 }) (o := i) (by show s2.get i = none; rw [get_modify h2, if_neg h]; exact h1)
      exact .of_noop (by rw [e1]) (by rw [e2, this]) (by rw [e2, this, e1])
  · rcases run_sw b j w with ⟨h2, e2⟩ | ⟨s2, h2, e2⟩
    · refine Commute.symm ?_
      have := sw_none w (b := { b with objects := s1 }) (o := j) (by show s1.get j = none; rw [get_modify h1, if_neg h.symm]; exact h2)
      exact .of_noop (by rw [e2]) (by rw [e1, this]) (by rw [e1, this, e2])
    · cases h3 : s1.modify j (fun ob => { ob with warp := w }) with
      | none =>
        have h3 := modify_eq_none.1 h3
        rw [get_modify h1, if_neg h.symm, ← modify_eq_none (f := fun ob => { ob with warp := w }), h2] at h3
        cases h3
      | some s3 =>
        obtain ⟨s2', g1, g2⟩ := Arena.modify_comm h h1 h3
        rw [h2] at g1; cases g1
        have e3 := sw_some (b := { b with objects := s1 }) h3
        have e4 := sw_some (b := { b with objects := s2 }) g2
        exact ⟨by rw [e1, e3, e2], by rw [e2, e4, e1], by rw [e1, e3, e2, e4]⟩

/-! Calls on different parts of the baseline. -/

theorem ws_wc (b : Baseline) {t t' : PropType} {i j : Idx} (v : t.Carrier) (w : t'.Chan) : Commute b (.ws t i v) (.wc t' j w) := by
  simp only [Commute, Act.run, stateWrite, channelWrite]
  cases h1 : b.states.write t i v <;> cases h2 : b.channels.write t' j w <;> simp [h1, h2]

theorem ws_sw (b : Baseline) {t : PropType} {i o : Idx} (v : t.Carrier) (w : TimeWarp) : Commute b (.ws t i v) (.sw o w) := by
  simp only [Commute, Act.run, stateWrite, setWarp]
  cases h1 : b.states.write t i v <;> cases h2 : b.objects.modify o (fun ob => { ob with warp := w }) <;> simp [h1, h2]

theorem wc_sw (b : Baseline) {t : PropType} {i o : Idx} (v : t.Chan) (w : TimeWarp) : Commute b (.wc t i v) (.sw o w) := by
  simp only [Commute, Act.run, channelWrite, setWarp]
  cases h1 : b.channels.write t i v <;> cases h2 : b.objects.modify o (fun ob => { ob with warp := w }) <;> simp [h1, h2]

theorem reg_ws (b : Baseline) (C : ContractTy) {t : PropType} {i : Idx} (v : t.Carrier) : Commute b (.register C) (.ws t i v) := by
  simp only [Commute, Act.run, stateWrite, registerContract]
  have h2 := Option.eq_none_or_eq_some (b.states.write t i v)
  rcases h2 with h2 | ⟨s, h2⟩ <;> by_cases h1 : (b.contracts.iter.any fun e => decide (e.2.id = C.id)) = true <;> simp [h1, h2]

theorem reg_wc (b : Baseline) (C : ContractTy) {t : PropType} {i : Idx} (v : t.Chan) : Commute b (.register C) (.wc t i v) := by
  simp only [Commute, Act.run, channelWrite, registerContract]
  have h2 := Option.eq_none_or_eq_some (b.channels.write t i v)
  rcases h2 with h2 | ⟨s, h2⟩ <;> by_cases h1 : (b.contracts.iter.any fun e => decide (e.2.id = C.id)) = true <;> simp [h1, h2]

theorem reg_sw (b : Baseline) (C : ContractTy) {o : Idx} (w : TimeWarp) : Commute b (.register C) (.sw o w) := by
  simp only [Commute, Act.run, setWarp, registerContract]
  have h2 := Option.eq_none_or_eq_some (b.objects.modify o (fun ob => { ob with warp := w }))
  rcases h2 with h2 | ⟨s, h2⟩ <;> by_cases h1 : (b.contracts.iter.any fun e => decide (e.2.id = C.id)) = true <;> simp [h1, h2]

/-! Creating an object. -/

/-- The object can be created. -/
def Fits (b : Baseline) (C : ContractTy) (h : Idx) (ss : List DynProp) (cs : List DynChannel) : Prop :=
  (∃ cd, b.contracts.get h = some cd) ∧ ss.map DynProp.propType = C.stateTypes ∧ cs.map Sigma.fst = C.channelTypes

/-- It cannot, in two baselines that both have, or both do not have, the contract. -/
theorem create_no {b b' : Baseline} {C : ContractTy} {h : Idx} {ss : List DynProp} {cs : List DynChannel} (hno : ¬ Fits b C h ss cs)
    (hb : (∃ cd, b.contracts.get h = some cd) ↔ ∃ cd, b'.contracts.get h = some cd) :
    ∃ m : String, (Act.create C h ss cs).run b = (b, .err m) ∧ (Act.create C h ss cs).run b' = (b', .err m) := by
  obtain ⟨m, e1, e2⟩ := objectCreate_err_msg (b := b) (b' := b') (contains_congr hb) rfl rfl hno
  exact ⟨m, by simp only [Act.run, e1]; rfl, by simp only [Act.run, e2]; rfl⟩

theorem create_yes {b : Baseline} {C : ContractTy} {h : Idx} {ss : List DynProp} {cs : List DynChannel} (hf : Fits b C h ss cs) :
    ∃ contracts, b.contracts.modify h (addObj (b.objects.insert (createdObj b h ss cs)).2) = some contracts ∧
      (Act.create C h ss cs).run b =
        (⟨b.kind, (b.objects.insert (createdObj b h ss cs)).1, contracts,
            (createAll b.states (ss.map DynProp.typed)).1, (createAll b.channels cs).1⟩,
          .ok [.obj (b.objects.insert (createdObj b h ss cs)).2]) := by
  obtain ⟨⟨cd, hg⟩, o1, o2⟩ := hf
  obtain ⟨cons, m, e⟩ := objectCreate_ok (b := b) hg o1 o2
  exact ⟨cons, m, by simp only [Act.run, e]; rfl⟩

theorem createAll_write {F : PropType → Type} {s s1 : Store F} {t : PropType} {i : Idx} {v : F t} (h : s.write t i v = some s1)
    (ps : List ((t : PropType) × F t)) :
    (createAll s ps).1.write t i v = some (createAll s1 ps).1 ∧ (createAll s1 ps).2 = (createAll s ps).2 := by
  induction ps generalizing s s1 with
  | nil => exact ⟨h, rfl⟩
  | cons p ps ih =>
    have key : (s.create p.1 p.2).1.write t i v = some (s1.create p.1 p.2).1 ∧ (s1.create p.1 p.2).2 = (s.create p.1 p.2).2 := by
      unfold Store.write at h
      cases ha : s t with
      | none => simp only [ha] at h; cases h
      | some a =>
        simp only [ha] at h
        cases hm : a.modify i (fun _ => v) with
        | none => simp only [hm] at h; cases h
        | some a1 =>
          simp only [hm] at h
          cases h
          rw [create_eq, create_eq]
          unfold Store.write
          by_cases e : t = p.1
          · subst e
            rw [arenaOf_update_self]
            have e1 : s.arenaOf p.1 = a := by unfold arenaOf; rw [ha]
            obtain ⟨h1, h2⟩ := Arena.insert_modify hm p.2
            simp only [e1, Function.update_self, h1, Function.update_idem, h2, and_self]
          · rw [arenaOf_update_ne s (fun x => e x.symm)]
            simp only [Function.update_of_ne e, ha, hm]
            rw [Function.update_comm e]
            exact ⟨rfl, trivial⟩
    obtain ⟨k1, k2⟩ := key
    obtain ⟨h1, h2⟩ := ih k1
    exact ⟨h1, by simp only [createAll]; rw [k2, h2]⟩

theorem create_ws {b : Baseline} {C : ContractTy} {h : Idx} {ss : List DynProp} {cs : List DynChannel} {t : PropType} {i : Idx} (v : t.Carrier)
    (hd : b.states.get t i = none → (createAll b.states (ss.map DynProp.typed)).1.get t i = none) :
    Commute b (.create C h ss cs) (.ws t i v) := by
  by_cases hf : Fits b C h ss cs
  · obtain ⟨cons, m, e1⟩ := create_yes hf
    rcases run_ws b t i v with ⟨hg, e2⟩ | ⟨s, hs, e2⟩
    · have e3 := ws_none (b := ((Act.create C h ss cs).run b).1) v (by rw [e1]; exact hd hg)
      exact Commute.symm (.of_noop (by rw [e2]) (by rw [e3]) (by rw [e3, e2]))
    · obtain ⟨w1, w2⟩ := createAll_write hs (ss.map DynProp.typed)
      have e3 := ws_some (b := ((Act.create C h ss cs).run b).1) (by rw [e1]; exact w1)
      obtain ⟨cons', m', e4⟩ := create_yes (b := { b with states := s }) hf
      have ec : createdObj { b with states := s } h ss cs = createdObj b h ss cs := by simp only [createdObj, w2]
      rw [ec] at m' e4
      have m' : b.contracts.modify h (addObj (b.objects.insert (createdObj b h ss cs)).2) = some cons' := m'
      rw [m] at m'; cases m'
      exact ⟨by rw [e3, e2], by rw [e2, e4, e1], by rw [e3, e2, e4, e1]⟩
  · rcases run_ws b t i v with ⟨hg, e2⟩ | ⟨s, hs, e2⟩
    · obtain ⟨m, e1, _⟩ := create_no (b' := b) hf Iff.rfl
      exact .of_noop (by rw [e1]) (by rw [e2, e1]) (by rw [e2])
    · obtain ⟨m, e1, e3⟩ := create_no (b' := { b with states := s }) hf Iff.rfl
      exact .of_noop (by rw [e1]) (by rw [e2, e3]) (by rw [e2, e3, e1])

theorem create_wc {b : Baseline} {C : ContractTy} {h : Idx} {ss : List DynProp} {cs : List DynChannel} {t : PropType} {i : Idx} (v : t.Chan)
    (hd : b.channels.get t i = none → (createAll b.channels cs).1.get t i = none) :
    Commute b (.create C h ss cs) (.wc t i v) := by
  by_cases hf : Fits b C h ss cs
  · obtain ⟨cons, m, e1⟩ := create_yes hf
    rcases run_wc b t i v with ⟨hg, e2⟩ | ⟨s, hs, e2⟩
    · have e3 := wc_none (b := ((Act.create C h ss cs).run b).1) v (by rw [e1]; exact hd hg)
      exact Commute.symm (.of_noop (by rw [e2]) (by rw [e3]) (by rw [e3, e2]))
    · obtain ⟨w1, w2⟩ := createAll_write hs cs
      have e3 := wc_some (b := ((Act.create C h ss cs).run b).1) (by rw [e1]; exact w1)
      obtain ⟨cons', m', e4⟩ := create_yes (b := { b with channels := s }) hf
      have ec : createdObj { b with channels := s } h ss cs = createdObj b h ss cs := by simp only [createdObj, w2]
      rw [ec] at m' e4
      have m' : b.contracts.modify h (addObj (b.objects.insert (createdObj b h ss cs)).2) = some cons' := m'
      rw [m] at m'; cases m'
      exact ⟨by rw [e3, e2], by rw [e2, e4, e1], by rw [e3, e2, e4, e1]⟩
  · rcases run_wc b t i v with ⟨hg, e2⟩ | ⟨s, hs, e2⟩
    · obtain ⟨m, e1, _⟩ := create_no (b' := b) hf Iff.rfl
      exact .of_noop (by rw [e1]) (by rw [e2, e1]) (by rw [e2])
    · obtain ⟨m, e1, e3⟩ := create_no (b' := { b with channels := s }) hf Iff.rfl
      exact .of_noop (by rw [e1]) (by rw [e2, e3]) (by rw [e2, e3, e1])

theorem create_sw {b : Baseline} {C : ContractTy} {h : Idx} {ss : List DynProp} {cs : List DynChannel} {o : Idx} (w : TimeWarp)
    (hd : b.objects.get o = none → ∀ ob : ObjectD, (b.objects.insert ob).1.get o = none) : Commute b (.create C h ss cs) (.sw o w) := by
  by_cases hf : Fits b C h ss cs
  · obtain ⟨cons, m, e1⟩ := create_yes hf
    rcases run_sw b o w with ⟨hg, e2⟩ | ⟨s, hs, e2⟩
    · have e3 := sw_none (b := ((Act.create C h ss cs).run b).1) (o := o) w (by rw [e1]; exact hd hg _)
      exact Commute.symm (.of_noop (by rw [e2]) (by rw [e3]) (by rw [e3, e2]))
    · obtain ⟨w1, w2⟩ := Arena.insert_modify hs (createdObj b h ss cs)
      have e3 := sw_some (b := ((Act.create C h ss cs).run b).1) (by rw [e1]; exact w1)
      obtain ⟨cons', m', e4⟩ := create_yes (b := { b with objects := s }) hf
      have ec : createdObj { b with objects := s } h ss cs = createdObj b h ss cs := rfl
      rw [ec] at m' e4
      have m' : b.contracts.modify h (addObj (s.insert (createdObj b h ss cs)).2) = some cons' := m'
      rw [w2, m] at m'; cases m'
      have e4 : (Act.create C h ss cs).run { b with objects := s } = (⟨b.kind, (s.insert (createdObj b h ss cs)).1, cons,
            (createAll b.states (ss.map DynProp.typed)).1, (createAll b.channels cs).1⟩, .ok [.obj (s.insert (createdObj b h ss cs)).2]) := e4
      rw [w2] at e4
      exact ⟨by rw [e3, e2], by rw [e2, e4, e1], by rw [e3, e2, e4, e1]⟩
  · rcases run_sw b o w with ⟨hg, e2⟩ | ⟨s, hs, e2⟩
    · obtain ⟨m, e1, _⟩ := create_no (b' := b) hf Iff.rfl
      exact .of_noop (by rw [e1]) (by rw [e2, e1]) (by rw [e2])
    · obtain ⟨m, e1, e3⟩ := create_no (b' := { b with objects := s }) hf Iff.rfl
      exact .of_noop (by rw [e1]) (by rw [e2, e3]) (by rw [e2, e3, e1])

theorem run_register (b : Baseline) (C : ContractTy) :
    ((∃ h cd, b.contracts.get h = some cd ∧ cd.id = C.id) ∧ (Act.register C).run b = (b, .err "contract already added")) ∨
    ((∀ (k : Idx) (cd : ContractData), b.contracts.get k = some cd → cd.id ≠ C.id) ∧
      (Act.register C).run b = ({ b with contracts := (b.contracts.insert ⟨C.id, []⟩).1 }, .ok [.inst C (b.contracts.insert ⟨C.id, []⟩).2])) := by
  rcases registerContract_cases b C with ⟨h, e⟩ | ⟨h, e⟩
  · exact .inl ⟨h, by simp only [Act.run, e]; rfl⟩
  · exact .inr ⟨h, by simp only [Act.run, e]; rfl⟩

theorem register_create {b : Baseline} {C D : ContractTy} {h : Idx} {ss : List DynProp} {cs : List DynChannel}
    (hinv : Arena.Inv b.contracts)
    (hd : b.contracts.get h = none → ∀ cd : ContractData, (b.contracts.insert cd).1.get h = none) :
    Commute b (.register D) (.create C h ss cs) := by
  by_cases hf : Fits b C h ss cs
  · obtain ⟨cons, m, e1⟩ := create_yes hf
    rcases run_register b D with ⟨⟨k, cd, hg, hid⟩, e2⟩ | ⟨hno, e2⟩
    · rcases run_register ((Act.create C h ss cs).run b).1 D with ⟨_, e3⟩ | ⟨hno, _⟩
      · exact .of_noop (by rw [e2]) (by rw [e3]) (by rw [e3, e2])
      · rw [e1] at hno
        have hk : cons.get k = if k = h then (b.contracts.get h).map (addObj (b.objects.insert (createdObj b h ss cs)).2) else b.contracts.get k := get_modify m k
        by_cases ek : k = h
        · subst ek
          rw [if_pos rfl, hg] at hk
          exact (hno k (addObj _ cd) hk hid).elim
        · rw [if_neg ek, hg] at hk
          exact absurd hid (hno k _ hk)
    · obtain ⟨w1, w2⟩ := Arena.insert_modify m ⟨D.id, []⟩
      rcases run_register ((Act.create C h ss cs).run b).1 D with ⟨⟨k, cd, hg, hid⟩, _⟩ | ⟨_, e3⟩
      · rw [e1] at hg
        have hg : cons.get k = some cd := hg
        rw [get_modify m] at hg
        by_cases ek : k = h
        · subst ek
          rw [if_pos rfl] at hg
          cases hx : b.contracts.get k with
          | none => rw [hx] at hg; cases hg
          | some cd0 => rw [hx] at hg; cases hg; exact absurd hid (hno k cd0 hx)
        · rw [if_neg ek] at hg; exact absurd hid (hno k cd hg)
      · rw [e1] at e3
        have e3 : (Act.register D).run ⟨b.kind, (b.objects.insert (createdObj b h ss cs)).1, cons,
            (createAll b.states (ss.map DynProp.typed)).1, (createAll b.channels cs).1⟩ = (⟨b.kind, (b.objects.insert (createdObj b h ss cs)).1, (cons.insert ⟨D.id, []⟩).1,
            (createAll b.states (ss.map DynProp.typed)).1, (createAll b.channels cs).1⟩, .ok [.inst D (cons.insert ⟨D.id, []⟩).2]) := e3
        rw [w2] at e3
        have hf' : Fits { b with contracts := (b.contracts.insert ⟨D.id, []⟩).1 } C h ss cs :=
          ⟨hf.1.imp fun cd g => get_insert_of_some hinv _ cd g, hf.2⟩
        obtain ⟨cons', m', e4⟩ := create_yes hf'
        have m' : (b.contracts.insert ⟨D.id, []⟩).1.modify h (addObj (b.objects.insert (createdObj b h ss cs)).2) = some cons' := m'
        rw [w1] at m'; cases m'
        have e4 : (Act.create C h ss cs).run { b with contracts := (b.contracts.insert ⟨D.id, []⟩).1 } = (⟨b.kind, (b.objects.insert (createdObj b h ss cs)).1, (cons.insert ⟨D.id, []⟩).1,
            (createAll b.states (ss.map DynProp.typed)).1, (createAll b.channels cs).1⟩, .ok [.obj (b.objects.insert (createdObj b h ss cs)).2]) := e4
        exact ⟨by rw [e2, e4, e1], by rw [e1, e3, e2], by rw [e2, e4, e1, e3]⟩
  · refine Commute.symm ?_
    rcases run_register b D with ⟨_, e2⟩ | ⟨_, e2⟩
    · obtain ⟨m, e1, _⟩ := create_no (b' := b) hf Iff.rfl
      exact .of_noop (by rw [e1]) (by rw [e2, e1]) (by rw [e2])
    · obtain ⟨m, e1, e3⟩ := create_no (b' := { b with contracts := (b.contracts.insert ⟨D.id, []⟩).1 }) hf ⟨fun ⟨cd, g⟩ => ⟨cd, get_insert_of_some hinv _ cd g⟩, fun ⟨cd, g⟩ => by
        cases hx : b.contracts.get h with
        | none => rw [show (b.contracts.insert _).1.get h = none from hd hx _] at g; cases g
        | some cd0 => exact ⟨cd0, rfl⟩⟩
      exact .of_noop (by rw [e1]) (by rw [e2, e3]) (by rw [e2, e3, e1])

/-! ## Two registrations, two creations -/

theorem nodup_rel_insert {N : Names} {cd cd' : ContractData} {o o' : Idx} (h : RelData N cd cd') (ho : N.obj o o') :
    RelData N (addObj o cd) (addObj o' cd') := by
  refine ⟨h.1, nodup_addObj h.2.1, nodup_addObj h.2.2.1, ?_, ?_⟩
  · intro x hx
    rcases List.mem_insert_iff.1 hx with rfl | hx
    · exact ⟨o', List.mem_insert_self, ho⟩
    · exact (h.2.2.2.1 x hx).imp fun _ z => ⟨List.mem_insert_of_mem z.1, z.2⟩
  · intro x hx
    rcases List.mem_insert_iff.1 hx with rfl | hx
    · exact ⟨o, List.mem_insert_self, ho⟩
    · exact (h.2.2.2.2 x hx).imp fun _ z => ⟨List.mem_insert_of_mem z.1, z.2⟩

theorem nodup_of_addObj {cd : ContractData} {o : Idx} (h : (addObj o cd).objects.Nodup) : cd.objects.Nodup := by
  simp only [addObj] at h
  by_cases hx : o ∈ cd.objects
  · rwa [List.insert_of_mem hx] at h
  · rw [List.insert_of_not_mem hx] at h; exact (List.nodup_cons.1 h).2

theorem RelData.exchange {N : Names} {cd cd' : ContractData} {o o' : Idx} (h : RelData N cd (addObj o (addObj o' cd'))) :
    RelData N cd (addObj o' (addObj o cd')) := by
  have hm : ∀ x : Idx, x ∈ (addObj o (addObj o' cd')).objects ↔ x ∈ (addObj o' (addObj o cd')).objects := by
    intro x
    simp only [addObj, List.mem_insert_iff]
    constructor
    · rintro (e | e | e)
      · exact .inr (.inl e)
      · exact .inl e
      · exact .inr (.inr e)
    · rintro (e | e | e)
      · exact .inr (.inl e)
      · exact .inl e
      · exact .inr (.inr e)
  refine ⟨h.1, h.2.1, ?_, fun x hx => (h.2.2.2.1 x hx).imp fun _ z => ⟨(hm _).1 z.1, z.2⟩, fun x hx => h.2.2.2.2 x ((hm x).2 hx)⟩
  have : (addObj o (addObj o' cd')).objects.Nodup := h.2.2.1
  exact nodup_addObj (nodup_addObj (nodup_of_addObj (nodup_of_addObj this)))

theorem Matched.modify2 {α β : Type} {r : Idx → Idx → Prop} {R : α → β → Prop} {a a1 a2 : Arena α} {b b1 b2 : Arena β} (h : Matched r R a b)
    {i i' j j' : Idx} (hi : r i j) (hi' : r i' j') {f f' : α → α} {g g' : β → β} (ha : a.modify i f = some a1) (ha2 : a1.modify i' f' = some a2)
    (hb : b.modify j' g' = some b1) (hb2 : b1.modify j g = some b2) (h1 : ∀ (v : α) (w : β), R v w → R (f v) (g w))
    (h2 : ∀ (v : α) (w : β), R v w → R (f' v) (g' w)) (h3 : ∀ (v : α) (w : β), R v w → R (f' (f v)) (g (g' w))) : Matched r R a2 b2 := by
  refine ⟨modify_inv (modify_inv h.linv ha) ha2, modify_inv (modify_inv h.rinv hb) hb2, h.det, h.inj, fun x y hr => ?_⟩
  rcases h.pair x y hr with ⟨v, w, g1, g2, g3⟩ | ⟨g1, g2⟩
  · left
    have e1 := h.eq_iff hr hi
    have e2 := h.eq_iff hr hi'
    have p1 := get_modify ha x
    have p2 := get_modify ha2 x
    have q1 := get_modify hb y
    have q2 := get_modify hb2 y
    by_cases x1 : x = i
    · have y1 := e1.1 x1
      subst x1; subst y1
      rw [if_pos rfl, g1] at p1
      by_cases x2 : x = i'
      · have y2 := e2.1 x2
        subst x2; subst y2
        rw [if_pos rfl, g2] at q1
        rw [if_pos rfl, p1] at p2
        rw [if_pos rfl, q1] at q2
        exact ⟨_, _, p2, q2, h3 v w g3⟩
      · rw [if_neg (fun e => x2 (e2.2 e)), g2] at q1
        rw [if_neg x2, p1] at p2
        rw [if_pos rfl, q1] at q2
        exact ⟨_, _, p2, q2, h1 v w g3⟩
    · rw [if_neg x1, g1] at p1
      by_cases x2 : x = i'
      · have y2 := e2.1 x2
        subst x2; subst y2
        rw [if_pos rfl, g2] at q1
        rw [if_pos rfl, p1] at p2
        rw [if_neg (fun e => x1 (e1.2 e)), q1] at q2
        exact ⟨_, _, p2, q2, h2 v w g3⟩
      · rw [if_neg (fun e => x2 (e2.2 e)), g2] at q1
        rw [if_neg x2, p1] at p2
        rw [if_neg (fun e => x1 (e1.2 e)), q1] at q2
        exact ⟨_, _, p2, q2, g3⟩
  · exact .inr ⟨modify_dead (modify_dead g1 ha) ha2, modify_dead (modify_dead g2 hb) hb2⟩

/-- Two objects created in the one and in the other order. -/
theorem create_create {N : Names} {b : Baseline} (hb : Paired N b b) (hsi : b.states.Inv) (hci : b.channels.Inv)
    {C C' : ContractTy} {h h' : Idx} (hc : N.con C h h) (hc' : N.con C' h' h')
    {ss ss' : List DynProp} {cs cs' : List DynChannel}
    (hS : List.Forall₂ (RelDyn N) ss ss) (hC : List.Forall₂ (RelDynChan N) cs cs)
    (hS' : List.Forall₂ (RelDyn N) ss' ss') (hC' : List.Forall₂ (RelDynChan N) cs' cs')
    (hf : Fits b C h ss cs) (hf' : Fits b C' h' ss' cs') :
    ∃ (N' : Names) (b1 b2 d1 d2 : Baseline) (o1 o2 p1 p2 : Idx), N.Le N' ∧
      (Act.create C h ss cs).run b = (b1, .ok [.obj o1]) ∧ (Act.create C' h' ss' cs').run b1 = (b2, .ok [.obj o2]) ∧
      (Act.create C' h' ss' cs').run b = (d1, .ok [.obj p2]) ∧ (Act.create C h ss cs).run d1 = (d2, .ok [.obj p1]) ∧
      N'.obj o1 p1 ∧ N'.obj o2 p2 ∧ Paired N' b2 d2 := by
  obtain ⟨cons1, m1, e1⟩ := create_yes hf
  obtain ⟨dons1, w1, u1⟩ := create_yes hf'
  have keep : ∀ (D : ContractTy) (x : Idx) (xs : List DynProp) (ys : List DynChannel) (c : Arena ContractData) (y : Idx) (g : ContractData → ContractData) (b' : Baseline),
      b.contracts.modify y g = some c → b'.contracts = c → Fits b D x xs ys → Fits b' D x xs ys := by
    intro D x xs ys c y g b' hm hb' hx
    refine ⟨?_, hx.2⟩
    obtain ⟨cd, hg⟩ := hx.1
    rw [hb', get_modify hm]
    by_cases e : x = y
    · rw [if_pos e, ← e, hg]; exact ⟨_, rfl⟩
    · rw [if_neg e]; exact ⟨cd, hg⟩
  generalize hx1 : b.objects.insert (createdObj b h ss cs) = x1 at m1 e1
  generalize hy1 : b.objects.insert (createdObj b h' ss' cs') = y1 at w1 u1
  generalize hb1 : (⟨b.kind, x1.1, cons1, (createAll b.states (ss.map DynProp.typed)).1, (createAll b.channels cs).1⟩ : Baseline) = b1 at e1
  generalize hd1 : (⟨b.kind, y1.1, dons1, (createAll b.states (ss'.map DynProp.typed)).1, (createAll b.channels cs').1⟩ : Baseline) = d1 at u1
  obtain ⟨cons2, m2, e2⟩ := create_yes (keep C' h' ss' cs' cons1 h _ b1 m1 (by rw [← hb1]) hf')
  obtain ⟨dons2, w2, u2⟩ := create_yes (keep C h ss cs dons1 h' _ d1 w1 (by rw [← hd1]) hf)
  obtain ⟨st, s1, s2, s3, s4⟩ := hb.sts.swap hsi (relDyn_typed hS) (relDyn_typed hS')
  obtain ⟨ch, c1, c2, c3, c4⟩ := hb.chs.swap hci (show PropsMatched (RelChan N) cs cs from hC) (show PropsMatched (RelChan N) cs' cs' from hC')
  rw [typed_map_fst, hf.2.1] at s3
  rw [typed_map_fst, hf'.2.1] at s4
  rw [hf.2.2] at c3
  rw [hf'.2.2] at c4
  let N1 : Names := ⟨N.con, N.obj, st, ch⟩
  have le1 : N.Le N1 := ⟨fun _ _ _ x => x, fun _ _ x => x, s1, c1⟩
  have r1 : RelObj N1 (createdObj b h ss cs) (createdObj d1 h ss cs) := ⟨rfl, C, hc, by subst hd1; exact s3, by subst hd1; exact c3⟩
  have r2 : RelObj N1 (createdObj b1 h' ss' cs') (createdObj b h' ss' cs') := ⟨rfl, C', hc', by subst hb1; exact s4, by subst hb1; exact c4⟩
  have hm := (hb.objs.mono fun _ _ z => RelObj.mono le1 z).swap r1 r2
  have ob1 : b1.objects = x1.1 := by rw [← hb1]
  have od1 : d1.objects = y1.1 := by rw [← hd1]
  rw [hx1, hy1] at hm
  rw [ob1] at m2 e2
  rw [od1] at w2 u2
  have li : Arena.Inv x1.1 := by rw [← hx1]; exact insert_inv hb.objs.linv _
  have ri : Arena.Inv y1.1 := by rw [← hy1]; exact insert_inv hb.objs.linv _
  generalize hx2 : x1.1.insert (createdObj b1 h' ss' cs') = x2 at m2 e2 hm
  generalize hy2 : y1.1.insert (createdObj d1 h ss cs) = y2 at w2 u2 hm
  let N' : Names := ⟨N.con, fun i j => (N.obj i j ∨ (i = x2.2 ∧ j = y1.2)) ∨ (i = x1.2 ∧ j = y2.2), st, ch⟩
  have le2 : N1.Le N' := ⟨fun _ _ _ x => x, fun _ _ x => .inl (.inl x), fun _ _ _ x => x, fun _ _ _ x => x⟩
  have le := le1.trans le2
  refine ⟨N', b1, _, d1, _, _, _, _, _, le, e1, e2, u1, u2, .inr ⟨rfl, rfl⟩, .inl (.inr ⟨rfl, rfl⟩), ?_⟩
  refine ⟨by subst hb1; subst hd1; rfl, ?_, hb.ty, ?_, ?_, hm.mono fun _ _ z => RelObj.mono le2 z, ?_, ?_, ?_, ?_⟩
  · have bc : b1.contracts = cons1 := by rw [← hb1]
    have dc : d1.contracts = dons1 := by rw [← hd1]
    rw [bc] at m2
    rw [dc] at w2
    have p1 : N'.obj x1.2 y2.2 := .inr ⟨rfl, rfl⟩
    have p2 : N'.obj x2.2 y1.2 := .inl (.inr ⟨rfl, rfl⟩)
    exact (hb.cons.mono fun _ _ z => RelData.mono le z).modify2 ⟨C, hc⟩ ⟨C', hc'⟩ m1 m2 w1 w2
      (fun v w z => nodup_rel_insert z p1) (fun v w z => nodup_rel_insert z p2)
      (fun v w z => (nodup_rel_insert (nodup_rel_insert z p1) p2).exchange)
  · intro i cd g _
    have g : cons2.get i = some cd := g
    have bc : b1.contracts = cons1 := by rw [← hb1]
    rw [bc] at m2
    rw [get_modify m2] at g
    by_cases e : i = h'
    · exact ⟨C', h', e ▸ hc'⟩
    · rw [if_neg e, get_modify m1] at g
      by_cases e : i = h
      · exact ⟨C, h, e ▸ hc⟩
      · rw [if_neg e] at g; exact hb.conL i cd g trivial
  · intro i cd g _
    have g : dons2.get i = some cd := g
    have dc : d1.contracts = dons1 := by rw [← hd1]
    rw [dc] at w2
    rw [get_modify w2] at g
    by_cases e : i = h
    · exact ⟨C, h, e ▸ hc⟩
    · rw [if_neg e, get_modify w1] at g
      by_cases e : i = h'
      · exact ⟨C', h', e ▸ hc'⟩
      · rw [if_neg e] at g; exact hb.conR i cd g trivial
  · intro i ob g _
    have g : x2.1.get i = some ob := g
    by_cases e : i = x2.2
    · exact ⟨y1.2, .inl (.inr ⟨e, rfl⟩)⟩
    · rw [← hx2, get_insert_ne li _ (by rw [hx2]; exact e)] at g
      by_cases e : i = x1.2
      · exact ⟨y2.2, .inr ⟨e, rfl⟩⟩
      · rw [← hx1, get_insert_ne hb.objs.linv _ (by rw [hx1]; exact e)] at g
        exact (hb.objL i ob g trivial).imp fun _ z => .inl (.inl z)
  · intro i ob g _
    have g : y2.1.get i = some ob := g
    by_cases e : i = y2.2
    · exact ⟨x1.2, .inr ⟨rfl, e⟩⟩
    · rw [← hy2, get_insert_ne ri _ (by rw [hy2]; exact e)] at g
      by_cases e : i = y1.2
      · exact ⟨x2.2, .inl (.inr ⟨rfl, e⟩)⟩
      · rw [← hy1, get_insert_ne hb.objs.linv _ (by rw [hy1]; exact e)] at g
        exact (hb.objR i ob g trivial).imp fun _ z => .inl (.inl z)
  · intro t; subst hb1; subst hd1; exact (s2 t).mono fun _ _ z => RelVal.mono le t z
  · intro t; subst hb1; subst hd1; exact (c2 t).mono fun _ _ z => RelChan.mono le t z

/-- A contract is registered while another one with another id was, or was not, registered before. -/
theorem register_after {b : Baseline} (hinv : Arena.Inv b.contracts) {C D : ContractTy} (hid : C.id ≠ D.id) :
    ((∃ h cd, b.contracts.get h = some cd ∧ cd.id = C.id) ↔
      ∃ h cd, (b.contracts.insert ⟨D.id, []⟩).1.get h = some cd ∧ cd.id = C.id) := by
  constructor
  · rintro ⟨h, cd, g, e⟩; exact ⟨h, cd, get_insert_of_some hinv _ cd g, e⟩
  · rintro ⟨h, cd, g, e⟩
    by_cases eh : h = (b.contracts.insert ⟨D.id, []⟩).2
    · rw [eh, get_insert_self hinv] at g; cases g; exact absurd e.symm hid
    · rw [get_insert_ne hinv _ eh] at g; exact ⟨h, cd, g, e⟩

theorem register_yes {b : Baseline} {C : ContractTy} (h : ¬ ∃ h cd, b.contracts.get h = some cd ∧ cd.id = C.id) :
    (Act.register C).run b = ({ b with contracts := (b.contracts.insert ⟨C.id, []⟩).1 }, .ok [.inst C (b.contracts.insert ⟨C.id, []⟩).2]) := by
  rcases run_register b C with ⟨h1, _⟩ | ⟨_, e⟩
  · exact absurd h1 h
  · exact e

theorem register_no {b : Baseline} {C : ContractTy} (h : ∃ h cd, b.contracts.get h = some cd ∧ cd.id = C.id) :
    (Act.register C).run b = (b, .err "contract already added") := by
  rcases run_register b C with ⟨_, e⟩ | ⟨h1, _⟩
  · exact e
  · obtain ⟨k, cd, g, e⟩ := h; exact absurd e (h1 k cd g)

/-- One of the two is registered already. -/
theorem register_noop {b : Baseline} (hinv : Arena.Inv b.contracts) {C D : ContractTy} (hid : C.id ≠ D.id)
    (h : ∃ h cd, b.contracts.get h = some cd ∧ cd.id = C.id) : Commute b (.register C) (.register D) := by
  have e1 := register_no h
  rcases run_register b D with ⟨_, e2⟩ | ⟨_, e2⟩
  · exact .of_noop (by rw [e1]) (by rw [e2, e1]) (by rw [e2])
  · have e3 := register_no (b := { b with contracts := (b.contracts.insert ⟨D.id, []⟩).1 }) ((register_after hinv hid).1 h)
    exact .of_noop (by rw [e1]) (by rw [e2, e3]) (by rw [e2, e3, e1])

/-- Two contracts registered in the one and in the other order. -/
theorem register_register {N : Names} {b : Baseline} (hb : Paired N b b) {C D : ContractTy} (hid : C.id ≠ D.id)
    (hC : ¬ ∃ h cd, b.contracts.get h = some cd ∧ cd.id = C.id) (hD : ¬ ∃ h cd, b.contracts.get h = some cd ∧ cd.id = D.id) :
    ∃ (N' : Names) (b1 b2 d1 d2 : Baseline) (o1 o2 p1 p2 : Idx), N.Le N' ∧
      (Act.register C).run b = (b1, .ok [.inst C o1]) ∧ (Act.register D).run b1 = (b2, .ok [.inst D o2]) ∧
      (Act.register D).run b = (d1, .ok [.inst D p2]) ∧ (Act.register C).run d1 = (d2, .ok [.inst C p1]) ∧
      N'.con C o1 p1 ∧ N'.con D o2 p2 ∧ Paired N' b2 d2 := by
  have hi := hb.cons.linv
  have e1 := register_yes hC
  have u1 := register_yes hD
  have e2 := register_yes (b := { b with contracts := (b.contracts.insert ⟨C.id, []⟩).1 }) (fun z => hD ((register_after hi hid.symm).2 z))
  have u2 := register_yes (b := { b with contracts := (b.contracts.insert ⟨D.id, []⟩).1 }) (fun z => hC ((register_after hi hid).2 z))
  have hn : ∀ c : ContractTy, RelData N ⟨c.id, []⟩ ⟨c.id, []⟩ := fun c => ⟨rfl, List.nodup_nil, List.nodup_nil, fun o h => (by cases h), fun o h => (by cases h)⟩
  have hm := hb.cons.swap (hn C) (hn D)
  have f1 : ∀ (E : ContractTy) (i j : Idx), N.con E i j → i ≠ (b.contracts.insert ⟨C.id, []⟩).2 := fun E i j z => hb.cons.ne_new ⟨E, z⟩ _
  have f2 : ∀ (E : ContractTy) (i j : Idx), N.con E i j → i ≠ ((b.contracts.insert ⟨C.id, []⟩).1.insert ⟨D.id, []⟩).2 := fun E i j z =>
    (hb.cons.insertL ⟨C.id, []⟩).ne_new ⟨E, z⟩ _
  have f3 : (b.contracts.insert ⟨C.id, []⟩).2 ≠ ((b.contracts.insert ⟨C.id, []⟩).1.insert ⟨D.id, []⟩).2 := by
    intro e
    have := insert_fresh (insert_inv hi ⟨C.id, []⟩) (⟨D.id, []⟩ : ContractData)
    rw [← e, get_insert_self hi] at this
    cases this
  have li := insert_inv hi (⟨C.id, []⟩ : ContractData)
  have ri := insert_inv hi (⟨D.id, []⟩ : ContractData)
  have e2 : (Act.register D).run { b with contracts := (b.contracts.insert ⟨C.id, []⟩).1 } = ({ b with contracts := ((b.contracts.insert ⟨C.id, []⟩).1.insert ⟨D.id, []⟩).1 },
      .ok [.inst D ((b.contracts.insert ⟨C.id, []⟩).1.insert ⟨D.id, []⟩).2]) := e2
  have u2 : (Act.register C).run { b with contracts := (b.contracts.insert ⟨D.id, []⟩).1 } = ({ b with contracts := ((b.contracts.insert ⟨D.id, []⟩).1.insert ⟨C.id, []⟩).1 },
      .ok [.inst C ((b.contracts.insert ⟨D.id, []⟩).1.insert ⟨C.id, []⟩).2]) := u2
  generalize hx1 : b.contracts.insert ⟨C.id, []⟩ = x1 at e1 e2 hm f1 f2 f3 li
  generalize hy1 : b.contracts.insert ⟨D.id, []⟩ = y1 at u1 u2 hm ri
  generalize hx2 : x1.1.insert ⟨D.id, []⟩ = x2 at e2 hm f2 f3
  generalize hy2 : y1.1.insert ⟨C.id, []⟩ = y2 at u2 hm
  let N' : Names := ⟨fun E i j => (N.con E i j ∨ (E = D ∧ i = x2.2 ∧ j = y1.2)) ∨ (E = C ∧ i = x1.2 ∧ j = y2.2), N.obj, N.st, N.ch⟩
  have le : N.Le N' := ⟨fun _ _ _ x => .inl (.inl x), fun _ _ x => x, fun _ _ _ x => x, fun _ _ _ x => x⟩
  refine ⟨N', _, _, _, _, _, _, _, _, le, e1, e2, u1, u2, .inr ⟨rfl, rfl, rfl⟩, .inl (.inr ⟨rfl, rfl, rfl⟩), ?_⟩
  obtain ⟨r1, r2⟩ := hb.rest le rfl rfl
  refine ⟨rfl, (hm.mono fun _ _ z => RelData.mono le z).congr fun i j => ?_, ?_, ?_, ?_,
        hb.objs.mono fun _ _ z => RelObj.mono le z, hb.objL, hb.objR, r1, r2⟩
  · constructor
    · rintro ((⟨E, z⟩ | ⟨z1, z2⟩) | ⟨z1, z2⟩)
      · exact ⟨E, .inl (.inl z)⟩
      · exact ⟨D, .inl (.inr ⟨rfl, z1, z2⟩)⟩
      · exact ⟨C, .inr ⟨rfl, z1, z2⟩⟩
    · rintro ⟨E, (z | ⟨_, z1, z2⟩) | ⟨_, z1, z2⟩⟩
      · exact .inl (.inl ⟨E, z⟩)
      · exact .inl (.inr ⟨z1, z2⟩)
      · exact .inr ⟨z1, z2⟩
  · rintro E E' i j j' ((z | ⟨z1, z2, _⟩) | ⟨z1, z2, _⟩) ((w | ⟨w1, w2, _⟩) | ⟨w1, w2, _⟩)
    · exact hb.ty E E' i j j' z w
    · exact absurd w2 (f2 E i j z)
    · exact absurd w2 (f1 E i j z)
    · exact absurd z2 (f2 E' i j' w)
    · rw [z1, w1]
    · exact absurd (w2.symm.trans z2) f3
    · exact absurd z2 (f1 E' i j' w)
    · exact absurd (z2.symm.trans w2) f3
    · rw [z1, w1]
  · intro i cd g _
    have g : x2.1.get i = some cd := g
    by_cases e : i = x2.2
    · exact ⟨D, y1.2, .inl (.inr ⟨rfl, e, rfl⟩)⟩
    · rw [← hx2, get_insert_ne li _ (by rw [hx2]; exact e)] at g
      by_cases e : i = x1.2
      · exact ⟨C, y2.2, .inr ⟨rfl, e, rfl⟩⟩
      · rw [← hx1, get_insert_ne hi _ (by rw [hx1]; exact e)] at g
        obtain ⟨E, j, z⟩ := hb.conL i cd g trivial
        exact ⟨E, j, .inl (.inl z)⟩
  · intro i cd g _
    have g : y2.1.get i = some cd := g
    by_cases e : i = y2.2
    · exact ⟨C, x1.2, .inr ⟨rfl, rfl, e⟩⟩
    · rw [← hy2, get_insert_ne ri _ (by rw [hy2]; exact e)] at g
      by_cases e : i = y1.2
      · exact ⟨D, x2.2, .inl (.inr ⟨rfl, rfl, e⟩)⟩
      · rw [← hy1, get_insert_ne hi _ (by rw [hy1]; exact e)] at g
        obtain ⟨E, j, z⟩ := hb.conR i cd g trivial
        exact ⟨E, j, .inl (.inl z)⟩

/-! ## Removing an object -/

theorem rm_none {b : Baseline} {o : Idx} (C : ContractTy) (h : b.objects.get o = none) : (Act.rm C o).run b = (b, .err "object did not exist") := by
  simp only [Act.run, objectRemove_none h]; rfl

/-- What removing a live object returns. -/
def rmOut (C : ContractTy) : Outcome (List Held) := if C.NoFields then .ok [] else .err "the given ObjectHandle doesn't exist in the arena"

theorem rm_some {b : Baseline} {o : Idx} {ob : ObjectD} (C : ContractTy) (h : b.objects.get o = some ob) :
    (Act.rm C o).run b = ({ b with objects := (b.objects.remove o).1 }, rmOut C) := by
  simp only [Act.run, objectRemove_some h, rmOut]
  by_cases hn : C.NoFields
  · simp only [if_pos hn]; rfl
  · simp only [if_neg hn]; rfl

/-- A call that does not touch objects. -/
theorem rm_other {b : Baseline} (C : ContractTy) (o : Idx) {g : Act} (hg : ∀ c : Baseline, (g.run c).1.objects = c.objects)
    (hi : ∀ (c : Baseline) (os : Arena ObjectD), g.run { c with objects := os } = ({ (g.run c).1 with objects := os }, (g.run c).2)) :
    Commute b (.rm C o) g := by
  cases ho : b.objects.get o with
  | none =>
    have e1 := rm_none C ho
    have e2 := rm_none (b := (g.run b).1) C (by rw [hg]; exact ho)
    exact .of_noop (by rw [e1]) (by rw [e2]) (by rw [e2, e1])
  | some ob =>
    have e1 := rm_some C ho
    have e2 := rm_some (b := (g.run b).1) C (by rw [hg]; exact ho)
    exact ⟨by rw [e1, hi], by rw [e2, e1], by rw [e1, hi, e2, hg]⟩

theorem rm_reg (b : Baseline) (C D : ContractTy) (o : Idx) : Commute b (.rm C o) (.register D) := by
  refine rm_other C o (fun c => ?_) (fun c os => ?_)
  · simp only [Act.run, registerContract]
    by_cases h1 : (c.contracts.iter.any fun e => decide (e.2.id = D.id)) = true <;> simp [h1]
  · simp only [Act.run, registerContract]
    by_cases h1 : (c.contracts.iter.any fun e => decide (e.2.id = D.id)) = true <;> simp [h1]

theorem rm_ws (b : Baseline) (C : ContractTy) (o : Idx) {t : PropType} {i : Idx} (v : t.Carrier) : Commute b (.rm C o) (.ws t i v) := by
  refine rm_other C o (fun c => ?_) (fun c os => ?_) <;> simp only [Act.run, stateWrite] <;> cases h2 : c.states.write t i v <;> simp [h2]

theorem rm_wc (b : Baseline) (C : ContractTy) (o : Idx) {t : PropType} {i : Idx} (v : t.Chan) : Commute b (.rm C o) (.wc t i v) := by
  refine rm_other C o (fun c => ?_) (fun c os => ?_) <;> simp only [Act.run, channelWrite] <;> cases h2 : c.channels.write t i v <;> simp [h2]

theorem Arena.remove_modify {α : Type} {a a' : Arena α} {i j : Idx} {f : α → α} (hij : i ≠ j) {v : α} (hv : a.get i = some v) (hm : a.modify j f = some a') :
    (a.remove i).1.modify j f = some (a'.remove i).1 := by
  unfold Arena.modify at hm
  cases hs : a.slots[j.slot]? with
  | none => simp only [hs] at hm; cases hm
  | some s =>
    cases s with
    | free n => simp only [hs] at hm; cases hm
    | occ g x =>
      simp only [hs] at hm
      by_cases hg : g = j.gen
      · rw [if_pos hg] at hm
        cases hm
        unfold Arena.get at hv
        cases hs' : a.slots[i.slot]? with
        | none => simp only [hs'] at hv; cases hv
        | some s' =>
          cases s' with
          | free n => simp only [hs'] at hv; cases hv
          | occ g' x' =>
            simp only [hs'] at hv
            by_cases hg' : g' = i.gen
            · have hne : i.slot ≠ j.slot := by
                intro e
                rw [e, hs] at hs'
                cases hs'
                apply hij
                cases i; cases j
                simp only [Idx.mk.injEq]
                exact ⟨e, hg'.symm.trans hg⟩
              unfold Arena.remove Arena.modify
              simp only [hs', List.getElem?_set_ne hne.symm, List.getElem?_set_ne hne, hs, if_pos hg, if_pos hg']
              rw [List.set_comm _ _ hne]
            · rw [if_neg hg'] at hv; cases hv
      · rw [if_neg hg] at hm; cases hm

theorem rm_sw (b : Baseline) (C : ContractTy) {o o' : Idx} (w : TimeWarp) (h : o ≠ o') : Commute b (.rm C o) (.sw o' w) := by
  cases ho : b.objects.get o with
  | none =>
    have e1 := rm_none C ho
    rcases run_sw b o' w with ⟨_, e2⟩ | ⟨s, hs, e2⟩
    · exact .of_noop (by rw [e1]) (by rw [e2, e1]) (by rw [e2])
    · have e3 := rm_none (b := { b with objects := s }) (o := o) C (by show s.get o = none; rw [get_modify hs, if_neg h]; exact ho)
      exact .of_noop (by rw [e1]) (by rw [e2, e3]) (by rw [e2, e3, e1])
  | some ob =>
    have e1 := rm_some C ho
    rcases run_sw b o' w with ⟨hn, e2⟩ | ⟨s, hs, e2⟩
    · have e3 := sw_none (b := { b with objects := (b.objects.remove o).1 }) (o := o') w (by
        show (b.objects.remove o).1.get o' = none
        rw [get_remove, if_neg h.symm]; exact hn)
      exact Commute.symm (.of_noop (by rw [e2]) (by rw [e1, e3]) (by rw [e1, e3, e2]))
    · have e3 := sw_some (b := { b with objects := (b.objects.remove o).1 }) (Arena.remove_modify h ho hs)
      have e4 := rm_some (b := { b with objects := s }) (o := o) (ob := ob) C (by show s.get o = some ob; rw [get_modify hs, if_neg h]; exact ho)
      exact ⟨by rw [e1, e3, e2], by rw [e2, e4, e1], by rw [e1, e3, e2, e4]⟩

theorem Matched.symm {α β : Type} {r : Idx → Idx → Prop} {R : α → β → Prop} {a : Arena α} {b : Arena β} (h : Matched r R a b) :
    Matched (fun i j => r j i) (fun v w => R w v) b a :=
  ⟨h.rinv, h.linv, fun i j j' h1 h2 => h.inj j j' i h1 h2, fun i i' j h1 h2 => h.det j i i' h1 h2, fun i j hr => by
    rcases h.pair j i hr with ⟨v, w, h1, h2, h3⟩ | ⟨h1, h2⟩
    · exact .inl ⟨w, v, h2, h1, h3⟩
    · exact .inr ⟨h2, h1⟩⟩

/-- Remove and insert, in one order on the left and in the other on the right. -/
theorem Matched.removeInsert {α β : Type} {r : Idx → Idx → Prop} {R : α → β → Prop} {a : Arena α} {b : Arena β} (h : Matched r R a b) {i j : Idx} (hr : r i j)
    {v : α} {w : β} (hR : R v w) :
    Matched (fun x y => r x y ∨ (x = ((a.remove i).1.insert v).2 ∧ y = (b.insert w).2)) R ((a.remove i).1.insert v).1 ((b.insert w).1.remove j).1 := by
  have h1 := (h.symm.insertL w).symm.remove hr
  have hne : (b.insert w).2 ≠ j := fun e => h.ne_new' hr w e.symm
  have := h1.symm.adopt (i := (b.insert w).2) (v := w) (w := v) (by rw [get_remove, if_neg hne]; exact get_insert_self h.rinv w)
    (fun x z => h.ne_new' z w rfl) hR
  exact this.symm.congr fun x y => ⟨fun z => z.imp id And.symm, fun z => z.imp id And.symm⟩

/-- Results that correspond. -/
def OutRel (N : Names) (r r' : Outcome (List Held)) : Prop :=
  (∃ m, r = .err m ∧ r' = .err m) ∨ ∃ l l' : List Held, r = .ok l ∧ r' = .ok l' ∧ List.Forall₂ (RelHeld N) l l'

theorem rm_rm {N : Names} {b : Baseline} (hb : Paired N b b) (C D : ContractTy) {o o' : Idx} (ho : N.obj o o) (ho' : N.obj o' o') (hne : o ≠ o') :
    Paired N ((Act.rm D o').run ((Act.rm C o).run b).1).1 ((Act.rm C o).run ((Act.rm D o').run b).1).1 ∧
      ((Act.rm D o').run ((Act.rm C o).run b).1).2 = ((Act.rm D o').run b).2 ∧ ((Act.rm C o).run ((Act.rm D o').run b).1).2 = ((Act.rm C o).run b).2 := by
  have fst : ∀ (c : Baseline) (E : ContractTy) (x : Idx), ((Act.rm E x).run c).1 = { c with objects := removeList c.objects [x] } := fun c E x => objectRemove_fst c E x
  have out : ∀ (E F : ContractTy) (x y : Idx), x ≠ y → ((Act.rm E x).run ((Act.rm F y).run b).1).2 = ((Act.rm E x).run b).2 := by
    intro E F x y hxy
    have hg : ((Act.rm F y).run b).1.objects.get x = b.objects.get x := by
      rw [fst]; show (removeList b.objects [y]).get x = _
      rw [get_removeList, if_neg (by simpa using hxy)]
    cases hx : b.objects.get x with
    | none => rw [rm_none E hx, rm_none E (hg.trans hx)]
    | some ob => rw [rm_some E hx, rm_some E (hg.trans hx)]
  refine ⟨?_, out D C o' o hne.symm, out C D o o' hne⟩
  rw [fst, fst, fst, fst]
  have := hb.removeObjects (l := [o, o']) (l' := [o', o]) (fun i j hr => by
    have e1 := hb.objs.eq_iff hr ho
    have e2 := hb.objs.eq_iff hr ho'
    simp only [List.mem_cons, List.not_mem_nil, or_false]
    rw [e1, e2]
    exact or_comm)
  exact this

theorem rm_create {N : Names} {b : Baseline} (hb : Paired N b b) (D : ContractTy) {o : Idx} (ho : N.obj o o) {ob : ObjectD} (hlive : b.objects.get o = some ob)
    {C : ContractTy} {h : Idx} (hc : N.con C h h) {ss : List DynProp} {cs : List DynChannel}
    (hS : List.Forall₂ (RelDyn N) ss ss) (hC : List.Forall₂ (RelDynChan N) cs cs) (hf : Fits b C h ss cs) :
    ∃ (N' : Names) (p q : Idx), N.Le N' ∧
      Paired N' ((Act.create C h ss cs).run ((Act.rm D o).run b).1).1 ((Act.rm D o).run ((Act.create C h ss cs).run b).1).1 ∧
      ((Act.create C h ss cs).run ((Act.rm D o).run b).1).2 = .ok [.obj p] ∧ ((Act.create C h ss cs).run b).2 = .ok [.obj q] ∧ N'.obj p q ∧
      ((Act.rm D o).run b).2 = rmOut D ∧ ((Act.rm D o).run ((Act.create C h ss cs).run b).1).2 = rmOut D := by
  have e1 := rm_some D hlive
  obtain ⟨dons, w1, u1⟩ := create_yes hf
  obtain ⟨cons, m1, e2⟩ := create_yes (b := { b with objects := (b.objects.remove o).1 }) (C := C) (h := h) (ss := ss) (cs := cs) hf
  have ec : createdObj { b with objects := (b.objects.remove o).1 } h ss cs = createdObj b h ss cs := rfl
  rw [ec] at m1 e2
  have m1 : b.contracts.modify h (addObj ((b.objects.remove o).1.insert (createdObj b h ss cs)).2) = some cons := m1
  have e2 : (Act.create C h ss cs).run { b with objects := (b.objects.remove o).1 } =
    (⟨b.kind, ((b.objects.remove o).1.insert (createdObj b h ss cs)).1, cons, (createAll b.states (ss.map DynProp.typed)).1, (createAll b.channels cs).1⟩,
      .ok [.obj ((b.objects.remove o).1.insert (createdObj b h ss cs)).2]) := e2
  obtain ⟨st, s1, _, s2, s3⟩ := hb.sts.createAll (relDyn_typed hS)
  obtain ⟨ch, c1, _, c2, c3⟩ := hb.chs.createAll (show PropsMatched (RelChan N) cs cs from hC)
  rw [typed_map_fst, hf.2.1] at s3
  rw [hf.2.2] at c3
  let N1 : Names := ⟨N.con, N.obj, st, ch⟩
  have le1 : N.Le N1 := ⟨fun _ _ _ x => x, fun _ _ x => x, s1, c1⟩
  have r1 : RelObj N1 (createdObj b h ss cs) (createdObj b h ss cs) := ⟨rfl, C, hc, s3, c3⟩
  have hm := (hb.objs.mono fun _ _ z => RelObj.mono le1 z).removeInsert ho r1
  have hlive' : (b.objects.insert (createdObj b h ss cs)).1.get o = some ob := get_insert_of_some hb.objs.linv _ ob hlive
  have li : Arena.Inv (b.objects.remove o).1 := remove_inv hb.objs.linv o
  generalize hx : (b.objects.remove o).1.insert (createdObj b h ss cs) = x at m1 e2 hm
  generalize hy : b.objects.insert (createdObj b h ss cs) = y at w1 u1 hm hlive'
  have e3 := rm_some (b := ((Act.create C h ss cs).run b).1) (o := o) (ob := ob) D (by rw [u1]; exact hlive')
  rw [u1] at e3
  let N' : Names := ⟨N.con, fun i j => N.obj i j ∨ (i = x.2 ∧ j = y.2), st, ch⟩
  have le2 : N1.Le N' := ⟨fun _ _ _ x => x, fun _ _ x => .inl x, fun _ _ _ x => x, fun _ _ _ x => x⟩
  have le := le1.trans le2
  have pn : N'.obj x.2 y.2 := .inr ⟨rfl, rfl⟩
  refine ⟨N', x.2, y.2, le, ?_, by rw [e1, e2], by rw [u1], pn, by rw [e1], by rw [u1, e3]⟩
  rw [e1, e2, u1, e3]
  refine ⟨rfl, ?_, hb.ty, ?_, ?_, hm.mono fun _ _ z => RelObj.mono le2 z, ?_, ?_, fun t => (s2 t).mono fun _ _ z => RelVal.mono le t z,
      fun t => (c2 t).mono fun _ _ z => RelChan.mono le t z⟩
  · exact (hb.cons.mono fun _ _ z => RelData.mono le z).modify ⟨C, hc⟩ m1 w1 fun v w _ _ z => nodup_rel_insert z pn
  · intro i cd0 g _
    have g : cons.get i = some cd0 := g
    rw [get_modify m1] at g
    by_cases ei : i = h
    · exact ⟨C, h, ei ▸ hc⟩
    · rw [if_neg ei] at g; exact hb.conL i cd0 g trivial
  · intro i cd0 g _
    have g : dons.get i = some cd0 := g
    rw [get_modify w1] at g
    by_cases ei : i = h
    · exact ⟨C, h, ei ▸ hc⟩
    · rw [if_neg ei] at g; exact hb.conR i cd0 g trivial
  · intro i ob' g _
    have g : x.1.get i = some ob' := g
    by_cases ei : i = x.2
    · exact ⟨y.2, .inr ⟨ei, rfl⟩⟩
    · rw [← hx, get_insert_ne li _ (by rw [hx]; exact ei), get_remove] at g
      by_cases eo : i = o
      · rw [if_pos eo] at g; cases g
      · rw [if_neg eo] at g; exact (hb.objL i ob' g trivial).imp fun _ z => .inl z
  · intro i ob' g _
    have g : (y.1.remove o).1.get i = some ob' := g
    rw [get_remove] at g
    by_cases eo : i = o
    · rw [if_pos eo] at g; cases g
    · rw [if_neg eo] at g
      by_cases ei : i = y.2
      · exact ⟨x.2, .inr ⟨rfl, ei⟩⟩
      · rw [← hy, get_insert_ne hb.objs.linv _ (by rw [hy]; exact ei)] at g
        exact (hb.objR i ob' g trivial).imp fun _ z => .inl z

/-! ## All pairs -/

/-- The two calls commute exactly, or up to the names of handles. -/
def Swappable (N : Names) (b : Baseline) (f g : Act) : Prop :=
  Commute b f g ∨ ∃ N' : Names, N.Le N' ∧ Paired N' (g.run (f.run b).1).1 (f.run (g.run b).1).1 ∧
    OutRel N' (f.run b).2 (f.run (g.run b).1).2 ∧ OutRel N' (g.run (f.run b).1).2 (g.run b).2

theorem storeInv_of_matched {F : PropType → Type} {r : PropType → Idx → Idx → Prop} {R : (t : PropType) → F t → F t → Prop} {s s' : Store F}
    (h : StoreMatched r R s s') : s.Inv := by
  intro t a ha
  have := (h t).linv
  unfold arenaOf at this
  rw [ha] at this
  exact this

theorem relHeld_of_get {N : Names} {env : Env} (he : RelEnv N env env) {k : Nat} {x : Held} (h : env[k]? = some x) : RelHeld N x x := by
  have := he.get k
  rw [h] at this
  cases this with
  | some z => exact z

theorem Matched.still {α β : Type} {r : Idx → Idx → Prop} {R : α → β → Prop} {a : Arena α} {b : Arena β} (h : Matched r R a b) {i j : Idx} (hr : r i j)
    (hg : a.get i = Option.none) (v : α) : (a.insert v).1.get i = Option.none := by
  rcases h.pair i j hr with ⟨v', w, h1, _⟩ | ⟨h1, _⟩
  · rw [hg] at h1; cases h1
  · exact (insert_dead h.linv h1 v).1

theorem StoreMatched.still {F : PropType → Type} {r : PropType → Idx → Idx → Prop} {R : (t : PropType) → F t → F t → Prop} {s s' : Store F}
    (h : StoreMatched r R s s') {t : PropType} {i j : Idx} (hr : r t i j) (hg : s.get t i = none) (ps : List ((t : PropType) × F t)) :
    (Baseline.createAll s ps).1.get t i = none := by
  rw [Store.get_eq] at hg ⊢
  rcases (h t).pair i j hr with ⟨v', w, h1, _⟩ | ⟨h1, h2⟩
  · rw [hg] at h1; cases h1
  · rcases (h.createL ps t).pair i j hr with ⟨v', w, _, g, _⟩ | ⟨g, _⟩
    · rw [h2.1] at g; cases g
    · exact g.1

theorem rmOut_rel (N : Names) (C : ContractTy) : OutRel N (rmOut C) (rmOut C) := by
  unfold rmOut
  split
  · exact .inr ⟨[], [], rfl, rfl, .nil⟩
  · exact .inl ⟨_, rfl, rfl⟩

/-- The correspondence the other way. -/
def Names.inv (N : Names) : Names := ⟨fun C i j => N.con C j i, fun i j => N.obj j i, fun t i j => N.st t j i, fun t i j => N.ch t j i⟩

theorem RelPrim.symm {N : Names} {p : PrimType} {v w : p.Carrier} (h : RelPrim N p v w) : RelPrim N.inv p w v := by
  cases p <;> first | exact Eq.symm h | exact h

theorem RelVal.symm {N : Names} {t : PropType} {v w : t.Carrier} (h : RelVal N t v w) : RelVal N.inv t w v := by
  cases t with
  | prim p => exact RelPrim.symm h
  | vec p => exact List.Forall₂.flip (List.Forall₂.imp (fun _ _ z => RelPrim.symm z) h)

theorem RelChan.symm {N : Names} {t : PropType} {v w : t.Chan} (h : RelChan N t v w) : RelChan N.inv t w v :=
  List.Forall₂.flip (R := fun (l k : Keyframe t.Carrier) => RelVal N.inv t l.value k.value ∧ l.time = k.time)
    (List.Forall₂.imp (fun _ _ z => ⟨RelVal.symm z.1, z.2.symm⟩) h)

theorem FieldsMatched.symm {r : PropType → Idx → Idx → Prop} {ts : List PropType} {is js : List Idx} (h : FieldsMatched r ts is js) :
    FieldsMatched (fun t i j => r t j i) ts js is := ⟨h.1.symm, fun n i j h1 h2 => h.2 n j i h2 h1⟩

theorem Paired.symm {N : Names} {b b' : Baseline} (h : Paired N b b') : Paired N.inv b' b := by
  refine ⟨h.kind.symm, ?_, ?_, h.conR, h.conL, ?_, h.objR, h.objL, fun t => (h.sts t).symm.mono fun _ _ z => RelVal.symm z,
    fun t => (h.chs t).symm.mono fun _ _ z => RelChan.symm z⟩
  · exact h.cons.symm.mono fun v w z => ⟨z.1.symm, z.2.2.1, z.2.1, z.2.2.2.2, z.2.2.2.1⟩
  · intro C D i j j' h1 h2
    have h1 : N.con C j i := h1
    have h2 : N.con D j' i := h2
    have := h.cons.inj j j' i ⟨C, h1⟩ ⟨D, h2⟩
    subst this
    exact h.ty C D j i i h1 h2
  · exact h.objs.symm.mono fun v w z => ⟨z.1.symm, z.2.imp fun C y => ⟨y.1, y.2.1.symm, y.2.2.symm⟩⟩

theorem relDyns_symm {N : Names} {ss ss' : List DynProp} (h : List.Forall₂ (RelDyn N) ss ss') : List.Forall₂ (RelDyn N.inv) ss' ss :=
  List.Forall₂.flip (List.Forall₂.imp (fun _ _ ⟨t, v, w, e1, e2, z⟩ => ⟨t, w, v, e2, e1, z.symm⟩) h)

theorem relDynChans_symm {N : Names} {ss ss' : List DynChannel} (h : List.Forall₂ (RelDynChan N) ss ss') : List.Forall₂ (RelDynChan N.inv) ss' ss :=
  List.Forall₂.flip (List.Forall₂.imp (fun _ _ ⟨t, v, w, e1, e2, z⟩ => ⟨t, w, v, e2, e1, z.symm⟩) h)

theorem swap_rm_create {N : Names} {b : Baseline} {env : Env} (hb : Paired N b b) (he : RelEnv N env env) {D : ContractTy} {k : Nat} {o : Idx}
    (ho : env[k]? = some (.obj o)) {k' : Nat} {rs : List ((t : PropType) × Sym t)} {ds : List ((t : PropType) × ChanSym t)} {C : ContractTy} {h : Idx}
    {ss : List DynProp} {cs : List DynChannel} (h1 : env[k']? = some (.inst C h)) (h2 : evalList (evalProp env) rs = some ss)
    (h3 : evalList (evalDynChan env) ds = some cs) : Swappable N b (.rm D o) (.create C h ss cs) ∧ Swappable N b (.create C h ss cs) (.rm D o) := by
  have no : N.obj o o := relHeld_of_get he ho
  have nc : N.con C h h := (relHeld_of_get he h1).2
  have rel1 := evalProps_rel he rs
  have rel2 := evalChans_rel he ds
  rw [h2] at rel1; rw [h3] at rel2
  cases rel1 with
  | some q1 => cases rel2 with
    | some q2 =>
      by_cases hf : Fits b C h ss cs
      · cases hl : b.objects.get o with
        | none =>
          obtain ⟨cons, m, e1⟩ := create_yes hf
          have e2 := rm_none D hl
          have e3 := rm_none (b := ((Act.create C h ss cs).run b).1) (o := o) D (by rw [e1]; exact hb.objs.still no hl _)
          have : Commute b (.rm D o) (.create C h ss cs) := .of_noop (by rw [e2]) (by rw [e3]) (by rw [e3, e2])
          exact ⟨.inl this, .inl this.symm⟩
        | some ob =>
          constructor
          · obtain ⟨N', p, q, le, hp, a1, a2, a3, a4, a5⟩ := rm_create hb D no hl nc q1 q2 hf
            exact .inr ⟨N', le, hp, by rw [a4, a5]; exact rmOut_rel N' D, .inr ⟨_, _, a1, a2, .cons (a := Held.obj p) (b := Held.obj q) a3 .nil⟩⟩
          · obtain ⟨N', p, q, le, hp, a1, a2, a3, a4, a5⟩ := rm_create hb.symm D (show N.inv.obj o o from no) hl (show N.inv.con C h h from nc) (relDyns_symm q1)
              (relDynChans_symm q2) hf
            refine .inr ⟨N'.inv, ⟨fun C i j z => le.con C j i z, fun i j z => le.obj j i z, fun t i j z => le.st t j i z, fun t i j z => le.ch t j i z⟩, hp.symm,
              .inr ⟨_, _, a2, a1, .cons (a := Held.obj q) (b := Held.obj p) a3 .nil⟩, ?_⟩
            rw [a4, a5]; exact rmOut_rel _ D
      · have : Commute b (.create C h ss cs) (.rm D o) := by
          have ec : ((Act.rm D o).run b).1.contracts = b.contracts := by
            show (b.objectRemove D o).1.contracts = _
            rw [objectRemove_fst]
          obtain ⟨m, e1, e2⟩ := create_no (b' := ((Act.rm D o).run b).1) hf (by rw [ec])
          exact .of_noop (by rw [e1]) (by rw [e2]) (by rw [e2, e1])
        exact ⟨.inl this.symm, .inl this⟩

theorem swappable {N : Names} {b : Baseline} {env : Env} (hb : Paired N b b) (he : RelEnv N env env) {i j : Instr} {f g : Act} (hf : Is env i f)
    (hg : Is env j g) (hc : ¬ Collide env i j) : Swappable N b f g := by
  have hsi := storeInv_of_matched hb.sts
  have hci := storeInv_of_matched hb.chs
  have dc : ∀ (C : ContractTy) (h : Idx), N.con C h h → b.contracts.get h = none → ∀ cd : ContractData, (b.contracts.insert cd).1.get h = none :=
    fun C h z1 z2 cd => hb.cons.still ⟨C, z1⟩ z2 cd
  have ds : ∀ (t : PropType) (i : Idx), N.st t i i → ∀ ss : List DynProp, b.states.get t i = none → (createAll b.states (ss.map DynProp.typed)).1.get t i = none :=
    fun t i z1 ss z2 => hb.sts.still z1 z2 _
  have dh : ∀ (t : PropType) (i : Idx), N.ch t i i → ∀ cs : List DynChannel, b.channels.get t i = none → (createAll b.channels cs).1.get t i = none :=
    fun t i z1 cs z2 => hb.chs.still z1 z2 cs
  have dob : ∀ o : Idx, N.obj o o → b.objects.get o = none → ∀ ob : ObjectD, (b.objects.insert ob).1.get o = none :=
    fun o z1 z2 ob => hb.objs.still z1 z2 ob
  cases hf with
  | register C =>
    cases hg with
    | register D =>
      have hid : C.id ≠ D.id := hc
      by_cases h1 : ∃ h cd, b.contracts.get h = some cd ∧ cd.id = C.id
      · exact .inl (register_noop hb.cons.linv hid h1)
      · by_cases h2 : ∃ h cd, b.contracts.get h = some cd ∧ cd.id = D.id
        · exact .inl (register_noop hb.cons.linv hid.symm h2).symm
        · obtain ⟨N', b1, b2, d1, d2, o1, o2, p1, p2, le, e1, e2, u1, u2, z1, z2, hp⟩ := register_register hb hid h1 h2
          exact .inr ⟨N', le, by rw [e1, e2, u1, u2]; exact hp, .inr ⟨_, _, by rw [e1], by rw [u1, u2], .cons (a := Held.inst C o1) (b := Held.inst C p1) ⟨rfl, z1⟩ .nil⟩,
            .inr ⟨_, _, by rw [e1, e2], by rw [u1], .cons (a := Held.inst D o2) (b := Held.inst D p2) ⟨rfl, z2⟩ .nil⟩⟩
    | create k ss cs C' h ss' cs' h1 h2 h3 => exact .inl (register_create hb.cons.linv (dc _ h (relHeld_of_get he h1).2))
    | ws k t s x v h1 h2 => exact .inl (reg_ws b C v)
    | wc k t s x v h1 h2 => exact .inl (reg_wc b C v)
    | sw k o w h1 => exact .inl (reg_sw b C w)
    | rm D k o h1 => exact .inl (rm_reg b D C o).symm
  | create k ss cs C h ss' cs' h1 h2 h3 =>
    have c1 := (relHeld_of_get he h1).2
    cases hg with
    | register D => exact .inl (register_create hb.cons.linv (dc _ h c1)).symm
    | create k' rs ds C' h' rs' ds' g1 g2 g3 =>
      have c2 := (relHeld_of_get he g1).2
      by_cases f1 : Fits b C h ss' cs'
      · by_cases f2 : Fits b C' h' rs' ds'
        · have rel1 := evalProps_rel he ss
          have rel2 := evalChans_rel he cs
          have rel3 := evalProps_rel he rs
          have rel4 := evalChans_rel he ds
          rw [h2] at rel1; rw [h3] at rel2; rw [g2] at rel3; rw [g3] at rel4
          cases rel1 with
          | some q1 => cases rel2 with
            | some q2 => cases rel3 with
              | some q3 => cases rel4 with
                | some q4 =>
                  obtain ⟨N', b1, b2, d1, d2, o1, o2, p1, p2, le, e1, e2, u1, u2, z1, z2, hp⟩ := create_create hb hsi hci c1 c2 q1 q2 q3 q4 f1 f2
                  exact .inr ⟨N', le, by rw [e1, e2, u1, u2]; exact hp, .inr ⟨_, _, by rw [e1], by rw [u1, u2], .cons (a := Held.obj o1) (b := Held.obj p1) z1 .nil⟩,
                    .inr ⟨_, _, by rw [e1, e2], by rw [u1], .cons (a := Held.obj o2) (b := Held.obj p2) z2 .nil⟩⟩
        · obtain ⟨cons, m, e1⟩ := create_yes f1
          obtain ⟨msg, e2, e3⟩ := create_no (b' := ((Act.create C h ss' cs').run b).1) f2 (by
            rw [e1]
            show _ ↔ ∃ cd, cons.get h' = some cd
            rw [get_modify m]
            by_cases e : h' = h
            · subst e; rw [if_pos rfl]; cases b.contracts.get h' <;> simp
            · rw [if_neg e])
          exact .inl (Commute.symm (.of_noop (by rw [e2]) (by rw [e3]) (by rw [e3, e2])))
      · by_cases f2 : Fits b C' h' rs' ds'
        · obtain ⟨cons, m, e1⟩ := create_yes f2
          obtain ⟨msg, e2, e3⟩ := create_no (b' := ((Act.create C' h' rs' ds').run b).1) f1 (by
            rw [e1]
            show _ ↔ ∃ cd, cons.get h = some cd
            rw [get_modify m]
            by_cases e : h = h'
            · subst e; rw [if_pos rfl]; cases b.contracts.get h <;> simp
            · rw [if_neg e])
          exact .inl (.of_noop (by rw [e2]) (by rw [e3]) (by rw [e3, e2]))
        · obtain ⟨m1, e1, _⟩ := create_no (b' := b) f1 Iff.rfl
          obtain ⟨m2, e2, _⟩ := create_no (b' := b) f2 Iff.rfl
          exact .inl (.of_noop (by rw [e1]) (by rw [e2, e1]) (by rw [e2]))
    | ws k t s x v g1 g2 => exact .inl (create_ws v (ds t x (relHeld_of_get he g1).2 ss'))
    | wc k t s x v g1 g2 => exact .inl (create_wc v (dh t x (relHeld_of_get he g1).2 cs'))
    | sw k o w g1 => exact .inl (create_sw w (dob o (relHeld_of_get he g1)))
    | rm D k o g1 => exact (swap_rm_create hb he g1 h1 h2 h3).2
  | ws k t s x v h1 h2 =>
    cases hg with
    | register D => exact .inl (reg_ws b D v).symm
    | create k' rs ds' C' h' rs' ds'' g1 g2 g3 => exact .inl (create_ws v (ds t x (relHeld_of_get he h1).2 rs')).symm
    | ws k' t' s' x' v' g1 g2 => exact .inl (ws_ws b v v' fun ⟨e1, e2⟩ => hc ⟨t, x, h1, by subst e1; subst e2; exact g1⟩)
    | wc k' t' s' x' v' g1 g2 => exact .inl (ws_wc b v v')
    | sw k' o w g1 => exact .inl (ws_sw b v w)
    | rm D k' o g1 => exact .inl (rm_ws b D o v).symm
  | wc k t s x v h1 h2 =>
    cases hg with
    | register D => exact .inl (reg_wc b D v).symm
    | create k' rs ds' C' h' rs' ds'' g1 g2 g3 => exact .inl (create_wc v (dh t x (relHeld_of_get he h1).2 ds'')).symm
    | ws k' t' s' x' v' g1 g2 => exact .inl (ws_wc b v' v).symm
    | wc k' t' s' x' v' g1 g2 => exact .inl (wc_wc b v v' fun ⟨e1, e2⟩ => hc ⟨t, x, h1, by subst e1; subst e2; exact g1⟩)
    | sw k' o w g1 => exact .inl (wc_sw b v w)
    | rm D k' o g1 => exact .inl (rm_wc b D o v).symm
  | sw k o w h1 =>
    cases hg with
    | register D => exact .inl (reg_sw b D w).symm
    | create k' rs ds' C' h' rs' ds'' g1 g2 g3 => exact .inl (create_sw w (dob o (relHeld_of_get he h1))).symm
    | ws k' t' s' x' v' g1 g2 => exact .inl (ws_sw b v' w).symm
    | wc k' t' s' x' v' g1 g2 => exact .inl (wc_sw b v' w).symm
    | sw k' o' w' g1 => exact .inl (sw_sw b w w' fun e => hc ⟨o, h1, by rw [e]; exact g1⟩)
    | rm D k' o' g1 => exact .inl (rm_sw b D w fun e => hc ⟨o, h1, by rw [← e]; exact g1⟩).symm
  | rm D k o h1 =>
    cases hg with
    | register C => exact .inl (rm_reg b D C o)
    | create k' rs ds' C' h' rs' ds'' g1 g2 g3 => exact (swap_rm_create hb he h1 g1 g2 g3).1
    | ws k' t' s' x' v' g1 g2 => exact .inl (rm_ws b D o v')
    | wc k' t' s' x' v' g1 g2 => exact .inl (rm_wc b D o v')
    | sw k' o' w' g1 => exact .inl (rm_sw b D w' fun e => hc ⟨o, h1, by rw [e]; exact g1⟩)
    | rm E k' o' g1 =>
      obtain ⟨hp, r1, r2⟩ := rm_rm hb D E (relHeld_of_get he h1) (relHeld_of_get he g1) (fun e => hc ⟨o, h1, by rw [e]; exact g1⟩)
      have self : ∀ (x : Idx) (E : ContractTy), OutRel N ((Act.rm E x).run b).2 ((Act.rm E x).run b).2 := by
        intro x E
        cases hx : b.objects.get x with
        | none => rw [rm_none E hx]; exact .inl ⟨_, rfl, rfl⟩
        | some ob => rw [rm_some E hx]; exact rmOut_rel N E
      exact .inr ⟨N, .refl N, hp, by rw [r2]; exact self _ _, by rw [r1]; exact self _ _⟩

theorem act_result (b : Baseline) (f : Act) : (∃ m, (f.run b).2 = .err m) ∨ ∃ l : List Held, (f.run b).2 = .ok l ∧ l.length ≤ 1 := by
  cases f with
  | register C => rcases run_register b C with ⟨_, e⟩ | ⟨_, e⟩ <;> rw [e] <;> simp
  | create C h ss cs =>
    by_cases hf : Fits b C h ss cs
    · obtain ⟨_, _, e⟩ := create_yes hf; rw [e]; simp
    · obtain ⟨m, e, _⟩ := create_no (b' := b) hf Iff.rfl; rw [e]; simp
  | ws t i v => rcases run_ws b t i v with ⟨_, e⟩ | ⟨_, _, e⟩ <;> rw [e] <;> simp
  | wc t i v => rcases run_wc b t i v with ⟨_, e⟩ | ⟨_, _, e⟩ <;> rw [e] <;> simp
  | sw o w => rcases run_sw b o w with ⟨_, e⟩ | ⟨_, _, e⟩ <;> rw [e] <;> simp
  | rm C o =>
    cases hx : b.objects.get o with
    | none => rw [rm_none C hx]; simp
    | some ob => rw [rm_some C hx]; unfold rmOut; split <;> simp

end Verif
