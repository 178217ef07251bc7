import Verif.Proofs.FfiValue
import Verif.Proofs.Types
import Verif.Proofs.Baseline
import Verif.Proofs.Store
/-!
# Disciplined programs never confuse objects
-/
namespace Verif.Ffi

/-- An object is of a native type. -/
def NObj.hasTy : NObj → NTy → Prop
  | .prim v, .prim t => v.propType = .prim t
  | .state v, .state t => v.propType = .prim t
  | .keyframe v _, .keyframe t => v.propType = .prim t
  | .vec ks, .rvec => ∀ k ∈ ks, k.1.propType = .prim .u8
  | .baseline _, .baseline => True
  | .exContract _, .exContract => True
  | .ballContract _, .ballContract => True
  | .exStates _, .exStates => True
  | .ballStates _, .ballStates => True
  | .stateId d, .stateId t => d.ty = .prim t
  | .stateHandle t' _, .stateHandle t => t' = t
  | .contractData _, .contractData => True
  | .contractId _, .contractId => True
  | _, _ => False

/-- The objects fit the parameters. -/
def fitting : List Param → List NObj → Prop
  | [], [] => True
  | q :: qs, o :: os => o.hasTy q.ty ∧ fitting qs os
  | _, _ => False

theorem tryInto_of_propType (v : DynProp) (t : PrimType) (h : v.propType = .prim t) : ∃ x, v.tryInto (.prim t) = some x := by
  have h1 := DynProp.ofTyped_typed v
  have h2 := DynProp.typed_fst v
  rw [h] at h2
  have h3 := DynProp.tryInto_self v.typed.1 v.typed.2
  rw [h1] at h3
  generalize v.typed = y at h2 h3
  obtain ⟨t', x⟩ := y
  simp only at h2
  subst h2
  exact ⟨x, h3⟩

theorem exField_some (t : PrimType) (h : Idx) (n : String) (hn : (n, PropType.prim t) ∈ Example.states.names.zip Example.states.propTypes) :
    ∃ d, Example.states.field h n = some d ∧ d.ty = .prim t := by
  have e : Example.states.names.zip Example.states.propTypes =
    [("u8_0", .prim .u8), ("u8_1", .prim .u8), ("i8_0", .prim .i8), ("i8_1", .prim .i8), ("f32_0", .prim .f32),
   ("f32_1", .prim .f32), ("str_0", .prim .string), ("oh_0", .prim .objectHandle), ("ch_0", .prim .contractDataHandle)] := by decide +kernel
  rw [e] at hn
  simp only [List.mem_cons, Prod.mk.injEq, PropType.prim.injEq, List.not_mem_nil, or_false] at hn
  rcases hn with ⟨rfl, rfl⟩ | ⟨rfl, rfl⟩ | ⟨rfl, rfl⟩ | ⟨rfl, rfl⟩ | ⟨rfl, rfl⟩ | ⟨rfl, rfl⟩ | ⟨rfl, rfl⟩ | ⟨rfl, rfl⟩ | ⟨rfl, rfl⟩ <;>
    exact ⟨_, rfl, rfl⟩

theorem ballField_some (t : PrimType) (h : Idx) (n : String) (hn : (n, PropType.prim t) ∈ Ball.states.names.zip Ball.states.propTypes) :
    ∃ d, Ball.states.field h n = some d ∧ d.ty = .prim t := by
  have e : Ball.states.names.zip Ball.states.propTypes =
    [("pos_x", .prim .f32), ("pos_y", .prim .f32), ("pos_z", .prim .f32),
   ("euler_x", .prim .i16), ("euler_y", .prim .i16), ("euler_z", .prim .i16),
   ("scale_x", .prim .f32), ("scale_y", .prim .f32), ("scale_z", .prim .f32), ("color", .prim .u64)] := by decide +kernel
  rw [e] at hn
  simp only [List.mem_cons, Prod.mk.injEq, PropType.prim.injEq, List.not_mem_nil, or_false] at hn
  rcases hn with ⟨rfl, rfl⟩ | ⟨rfl, rfl⟩ | ⟨rfl, rfl⟩ | ⟨rfl, rfl⟩ | ⟨rfl, rfl⟩ | ⟨rfl, rfl⟩ | ⟨rfl, rfl⟩ | ⟨rfl, rfl⟩ | ⟨rfl, rfl⟩ | ⟨rfl, rfl⟩ <;>
    exact ⟨_, rfl, rfl⟩


/-- What a native function may do: write an object of the right type to a `&mut`, box an object of the announced type,
borrow something of the announced type that is there. -/
def Exec.good (s : Sig) (os : List NObj) : Exec → Prop
  | .stuck => False
  | .panic _ => True
  | .done wr ret =>
    (∀ n, wr = some n → ∃ t mv, s.params[0]? = some (.refMut t mv) ∧ n.hasTy t ∧ (mv = false → ∃ t', t = .state t')) ∧
    (∀ o, ret = .box o → ∀ t, s.ret = .box t → o.hasTy t) ∧
    (∀ st, ret = .borrow st → wr = none ∧ ∀ t m, s.ret = .borrow 0 t m → ∃ x y, os[0]? = some x ∧ st.get x = some y ∧ y.hasTy t ∧
      (m = true → ∃ t' h, st = .state t' h ∧ t = .state t' ∧ s.params[0]? = some (.refMut .baseline false)))

theorem unwrap_good {α : Type} (s : Sig) (os : List NObj) (r : Outcome α) (k : α → Exec) (h : ∀ x, r = .ok x → (k x).good s os) :
    (Exec.unwrap r k).good s os := by
  unfold Exec.unwrap
  split
  · exact h _ rfl
  · trivial
  · trivial

theorem contract_get {b : Baseline} {h : Idx} {cd : ContractData} (e : b.cContractData h = .ok cd) :
    (PStep.contract h).get (.baseline b) = some (.contractData cd) := by
  unfold Baseline.cContractData Baseline.expect at e
  unfold PStep.get
  cases hx : b.contractData h with
  | ok x => rw [hx] at e; simp only at e; injection e with e; subst e; simp [hx]
  | err m => rw [hx] at e; cases e
  | panic m => rw [hx] at e; cases e

theorem state_get {b : Baseline} {t : PrimType} {h : Idx} {v : t.Carrier} (e : b.cState t h = .ok v) :
    (PStep.state t h).get (.baseline b) = some (.state (DynProp.ofTyped (.prim t) v)) := by
  unfold Baseline.cState Baseline.expect at e
  unfold PStep.get
  cases hx : b.state (.prim t) h with
  | ok x => rw [hx] at e; simp only at e; injection e with e; subst e; simp [hx]
  | err m => rw [hx] at e; cases e
  | panic m => rw [hx] at e; cases e

theorem handle_propType (h : Idx) : (DynProp.primitive (.contractDataHandle h)).propType = .prim .contractDataHandle := rfl

theorem exec_typed (a : Api) (hb : a.broken = false) (d : a.Data) (os : List NObj) (hf : fitting a.method.sig.params os) :
    (exec a d os).good a.method.sig os := by
  cases a
  all_goals first
    | (exact absurd hb (by decide))
    | (rcases os with _ | ⟨o0, _ | ⟨o1, _ | ⟨o2, _ | ⟨o3, os⟩⟩⟩⟩ <;>
        simp only [Api.method, fitting, Param.ty, and_true, and_false] at hf)
  case baselineContractData =>
    obtain ⟨h0, h1⟩ := hf
    cases o0 <;> simp only [NObj.hasTy] at h0
    cases o1 <;> simp only [NObj.hasTy] at h1
    rename_i b v
    obtain ⟨h, hh⟩ := tryInto_of_propType v _ h1
    simp only [exec, hh]
    refine unwrap_good _ _ _ _ fun cd e => ?_
    simp [Exec.good, Api.method, contract_get e, NObj.hasTy]
  case baselineState =>
    obtain ⟨h0, h1⟩ := hf
    cases o0 <;> simp only [NObj.hasTy] at h0
    cases o1 <;> simp only [NObj.hasTy] at h1
    simp only [exec, h1, if_true]
    refine unwrap_good _ _ _ _ fun v e => ?_
    simp [Exec.good, Api.method, state_get e, NObj.hasTy, DynProp.propType_ofTyped]
  case baselineStateMut =>
    obtain ⟨h0, h1⟩ := hf
    cases o0 <;> simp only [NObj.hasTy] at h0
    cases o1 <;> simp only [NObj.hasTy] at h1
    simp only [exec, h1, if_true]
    refine unwrap_good _ _ _ _ fun v e => ?_
    simp [Exec.good, Api.method, state_get e, NObj.hasTy, DynProp.propType_ofTyped]
  case baselineBindState =>
    obtain ⟨h0, h1, h2⟩ := hf
    cases o0 <;> simp only [NObj.hasTy] at h0
    cases o1 <;> simp only [NObj.hasTy] at h1
    cases o2 <;> simp only [NObj.hasTy] at h2
    rename_i v
    obtain ⟨h, hh⟩ := tryInto_of_propType v _ h2
    simp only [exec, hh, h1, if_true]
    refine unwrap_good _ _ _ _ fun i e => ?_
    simp [Exec.good, Api.method, NObj.hasTy]
  case exField =>
    cases o0 <;> simp only [NObj.hasTy] at hf
    rename_i t h
    obtain ⟨x, e1, e2⟩ := exField_some t h d.1 d.2
    simp only [exec, e1]
    simp [Exec.good, Api.method, NObj.hasTy, e2]
  case ballField =>
    cases o0 <;> simp only [NObj.hasTy] at hf
    rename_i t h
    obtain ⟨x, e1, e2⟩ := ballField_some t h d.1 d.2
    simp only [exec, e1]
    simp [Exec.good, Api.method, NObj.hasTy, e2]
  case exRegister =>
    cases o0 <;> simp only [NObj.hasTy] at hf
    simp only [exec]
    refine unwrap_good _ _ _ _ fun h e => ?_
    simp [Exec.good, Api.method, NObj.hasTy]
  case ballRegister =>
    cases o0 <;> simp only [NObj.hasTy] at hf
    simp only [exec]
    refine unwrap_good _ _ _ _ fun h e => ?_
    simp [Exec.good, Api.method, NObj.hasTy]
  case ballUnregister =>
    obtain ⟨h0, h1⟩ := hf
    cases o0 <;> simp only [NObj.hasTy] at h0
    cases o1 <;> simp only [NObj.hasTy] at h1
    rename_i v
    obtain ⟨h, hh⟩ := tryInto_of_propType v _ h1
    simp only [exec, hh]
    refine unwrap_good _ _ _ _ fun _ e => ?_
    simp [Exec.good, Api.method, NObj.hasTy]
  case rvecGet =>
    cases o0 <;> simp only [NObj.hasTy] at hf
    rename_i ks
    simp only [exec]
    split
    · rename_i hlt
      simp only [Exec.good, Api.method]
      refine ⟨by simp, by simp, fun st e => ⟨trivial, fun t m hr => ?_⟩⟩
      injection e with e; subst e
      injection hr with _ e1 e2
      subst e1; subst e2
      have hg : (PStep.elem (ulongOfInt d)).get (.vec ks) = some (.keyframe (ks[ulongOfInt d]'hlt).1 (ks[ulongOfInt d]'hlt).2) := by
        simp only [PStep.get, List.getElem?_eq_getElem hlt, Option.map_some]
      refine ⟨_, _, rfl, hg, ?_, by simp⟩
      exact hf _ (List.getElem_mem hlt)
    · trivial
  case rvecPush =>
    obtain ⟨h0, h1⟩ := hf
    cases o0 <;> simp only [NObj.hasTy] at h0
    cases o1 <;> simp only [NObj.hasTy] at h1
    simp only [exec]
    refine ⟨?_, by simp, by simp⟩
    intro n hn
    injection hn with hn; subst hn
    refine ⟨.rvec, true, rfl, ?_, by simp⟩
    intro k hk
    rw [List.mem_append, List.mem_singleton] at hk
    rcases hk with hk | rfl
    · exact h0 k hk
    · exact h1
  case stateSetValue =>
    obtain ⟨h0, h1⟩ := hf
    cases o0 <;> simp only [NObj.hasTy] at h0
    cases o1 <;> simp only [NObj.hasTy] at h1
    simp only [exec]
    simp [Exec.good, Api.method, NObj.hasTy, h1]
  case baselineNew => simp [exec, Exec.good, Api.method, NObj.hasTy]
  case primNew => simp [exec, Exec.good, Api.method, NObj.hasTy, DynProp.propType_ofTyped]
  case rvecNew => simp [exec, Exec.good, Api.method, NObj.hasTy]
  all_goals
    cases o0 <;> simp only [NObj.hasTy] at hf <;>
      simp [exec, Exec.good, Api.method, NObj.hasTy, PStep.get, handle_propType, hf]


/-! ## Views survive writes that do not move -/

theorem get_same_state {o o' : NObj} {t : PrimType} (h : o.hasTy (.state t)) (h' : o'.hasTy (.state t)) (path : List PStep) (c : NTy)
    {x : NObj} (hx : pathGet path o = some x) (hc : x.hasTy c) : ∃ x', pathGet path o' = some x' ∧ x'.hasTy c := by
  cases o <;> simp only [NObj.hasTy] at h
  cases o' <;> simp only [NObj.hasTy] at h'
  rename_i v v'
  cases path with
  | nil =>
    simp only [pathGet, Option.some.injEq] at hx
    subst hx
    refine ⟨_, rfl, ?_⟩
    cases c <;> simp_all [NObj.hasTy]
  | cons s ss =>
    cases s <;> simp only [pathGet, PStep.get, reduceCtorEq] at hx
    cases ss with
    | nil =>
      simp only [pathGet, Option.some.injEq] at hx
      subst hx
      refine ⟨_, rfl, ?_⟩
      cases c <;> simp_all [NObj.hasTy]
    | cons s2 ss2 => cases s2 <;> simp [pathGet, PStep.get] at hx

theorem stateWrite_state {b b' : Baseline} {t : PropType} {h : Idx} {v : t.Carrier} (e : b.stateWrite t h v = (b', .ok ()))
    (t' : PropType) (h' : Idx) (w : t'.Carrier) (hw : b.state t' h' = .ok w) : ∃ w', b'.state t' h' = .ok w' := by
  unfold Baseline.stateWrite at e
  split at e
  · injection e with _ e; cases e
  · rename_i s hs
    injection e with e
    subst e
    unfold Baseline.state at hw ⊢
    cases hg : b.states.get t' h' with
    | none => rw [hg] at hw; cases hw
    | some x =>
      obtain ⟨y, hy⟩ := Store.get_write_live hs ⟨x, hg⟩
      exact ⟨y, by simp only [hy]⟩

theorem stateWrite_contracts {b b' : Baseline} {t : PropType} {h : Idx} {v : t.Carrier} (e : b.stateWrite t h v = (b', .ok ())) :
    b'.contracts = b.contracts := by
  unfold Baseline.stateWrite at e
  split at e
  · injection e with _ e; cases e
  · injection e with e; subst e; rfl


theorem hasTy_unique {o : NObj} {c c' : NTy} (h : o.hasTy c) (h' : o.hasTy c') : c = c' := by
  cases o <;> cases c <;> simp only [NObj.hasTy] at h <;> cases c' <;> simp only [NObj.hasTy] at h' <;> simp_all

theorem pathGet_append (path : List PStep) : ∀ (o x : NObj) (st : PStep), pathGet path o = some x → pathGet (path ++ [st]) o = st.get x := by
  induction path with
  | nil => intro o x st h; simp only [pathGet, Option.some.injEq] at h; subst h; simp only [List.nil_append, pathGet]; cases st.get o <;> rfl
  | cons s ss ih =>
    intro o x st h
    simp only [pathGet, List.cons_append] at h ⊢
    cases hs : s.get o with
    | none => rw [hs] at h; cases h
    | some y => rw [hs] at h; exact ih y x st h

/-- Writing a state inside a baseline: possible, and all views of the baseline still show something of the same type. -/
theorem put_state {o x n : NObj} {t : PrimType} {h : Idx} (hx : (PStep.state t h).get o = some x) (hn : n.hasTy (.state t)) :
    ∃ o', pathPut [.state t h] o n = some o' ∧ (∀ c, o.hasTy c → o'.hasTy c) ∧
      ∀ (path : List PStep) (y : NObj) (c : NTy), pathGet path o = some y → y.hasTy c → ∃ y', pathGet path o' = some y' ∧ y'.hasTy c := by
  cases o with
  | baseline b =>
    cases n with
    | state v =>
      obtain ⟨z, hz⟩ := tryInto_of_propType v t hn
      have hst : ∃ w, b.state (.prim t) h = .ok w := by
        simp only [PStep.get] at hx
        cases hb : b.state (.prim t) h with
        | ok w => exact ⟨w, rfl⟩
        | err m => rw [hb] at hx; cases hx
        | panic m => rw [hb] at hx; cases hx
      obtain ⟨w, hw⟩ := hst
      have hwr : ∃ b', b.stateWrite (.prim t) h z = (b', .ok ()) := by
        unfold Baseline.stateWrite
        cases hs : b.states.write (.prim t) h z with
        | none =>
          rw [Store.write_eq_none] at hs
          simp [Baseline.state, hs] at hw
        | some s' => exact ⟨_, rfl⟩
      obtain ⟨b', hb'⟩ := hwr
      refine ⟨.baseline b', by simp only [pathPut, hx, PStep.put, hz, hb'], ?_, ?_⟩
      · intro c hc; cases c <;> simp_all [NObj.hasTy]
      · intro path y c hy hc
        cases path with
        | nil =>
          simp only [pathGet, Option.some.injEq] at hy
          subst hy
          exact ⟨_, rfl, by cases c <;> simp_all [NObj.hasTy]⟩
        | cons s ss =>
          cases s with
          | contract h' =>
            have : (PStep.contract h').get (.baseline b') = (PStep.contract h').get (.baseline b) := by
              simp only [PStep.get, Baseline.contractData, stateWrite_contracts hb']
            simp only [pathGet, this]
            exact ⟨y, hy, hc⟩
          | state t' h' =>
            simp only [pathGet] at hy
            cases hb2 : b.state (.prim t') h' with
            | ok w2 =>
              have h1 : (PStep.state t' h').get (.baseline b) = some (.state (DynProp.ofTyped (.prim t') w2)) := by simp only [PStep.get, hb2]
              obtain ⟨w3, hw3⟩ := stateWrite_state hb' _ _ _ hb2
              have h2 : (PStep.state t' h').get (.baseline b') = some (.state (DynProp.ofTyped (.prim t') w3)) := by simp only [PStep.get, hw3]
              rw [h1] at hy
              simp only [pathGet, h2]
              exact get_same_state (t := t') (by simp [NObj.hasTy, DynProp.propType_ofTyped]) (by simp [NObj.hasTy, DynProp.propType_ofTyped]) ss c hy hc
            | err m => simp [PStep.get, hb2] at hy
            | panic m => simp [PStep.get, hb2] at hy
          | _ => simp [pathGet, PStep.get] at hy
    | _ => simp [NObj.hasTy] at hn
  | _ => simp [PStep.get] at hx

/-- What the wrappers stand for is of their class, as long as they can be used. -/
structure Sound (cells : List Cell) (bs : List B) : Prop where
  own : ∀ (i : Nat) (b : B) (o : NObj), bs[i]? = some b → cells[i]? = some (.own o) → o.hasTy b.cls
  view : ∀ (i : Nat) (b r : B) (path : List PStep) (o : NObj), bs[i]? = some b → b.own ≠ .owned → cells[i]? = some (.view b.root path) →
    bs[b.root]? = some r → b.stamp = r.moved → cells[b.root]? = some (.own o) → ∃ x, pathGet path o = some x ∧ x.hasTy b.cls
  stamp : ∀ (i : Nat) (b r : B), bs[i]? = some b → b.own ≠ .owned → bs[b.root]? = some r → b.stamp ≤ r.moved
  writable : ∀ (i : Nat) (b : B) (path : List PStep), bs[i]? = some b → b.own = .mutRef → cells[i]? = some (.view b.root path) →
    ∃ t h, path = [.state t h] ∧ b.cls = .state t

/-- Reading a usable wrapper. -/
theorem sound_read {s : VWorld} {cells : List Cell} {bs : List B} (hs : Sim s cells bs) (hk : Sound cells bs) {i : Nat} {b : B}
    (hu : usable bs i) (hb : bs[i]? = some b) : ∃ o, Cell.read cells i = some o ∧ o.hasTy b.cls := by
  obtain ⟨b', r, o, al, path, hb', hr, hro, ha, hp, ho, hc, _, h⟩ := sim_place hs hu
  rw [hb] at hb'; injection hb' with hb'; subst hb'
  rcases h with ⟨h1, h2, _⟩ | ⟨h1, h2⟩
  · rw [h1] at hc
    exact ⟨o, by simp only [Cell.read, hc], hk.own i b o hb hc⟩
  · obtain ⟨b', r', e1, e2, _, _, e3⟩ := hu
    rw [hb] at e1; injection e1 with e1; subst e1
    rcases e3 with e3 | e3
    · exact absurd e3 h2
    · obtain ⟨x, hx, hxt⟩ := hk.view i b r' path o hb h2 h1 e2 e3 hc
      exact ⟨x, by simp only [Cell.read, h1, hc, hx], hxt⟩

theorem sound_reads {s : VWorld} {cells : List Cell} {bs : List B} (hs : Sim s cells bs) (hk : Sound cells bs) (params : List Param) :
    ∀ (args : List Nat), args.length = params.length →
    (∀ x ∈ params.zip args, usable bs x.2 ∧ ∃ b, bs[x.2]? = some b ∧ fits b x.1) →
    ∃ os, Cell.reads cells args = some os ∧ fitting params os := by
  induction params with
  | nil => intro args hl _; cases args with
    | nil => exact ⟨[], rfl, trivial⟩
    | cons => simp at hl
  | cons q qs ih =>
    intro args hl hall
    cases args with
    | nil => simp at hl
    | cons i is =>
      obtain ⟨hu, b, hb, hf⟩ := hall (q, i) (by simp)
      obtain ⟨o, h1, h2⟩ := sound_read hs hk hu hb
      obtain ⟨os, h3, h4⟩ := ih is (by simpa using hl) fun x hx => hall x (by simp [hx])
      refine ⟨o :: os, by simp only [Cell.reads, h1, h3], ?_, h4⟩
      have : b.cls = q.ty := by
        cases q with
        | ref t => exact hf
        | refMut t mv => exact hf.1
        | box t => exact hf.1
      rw [← this]; exact h2

/-- Writing through a usable wrapper that is not a shared borrow. -/
theorem sound_write {s : VWorld} {cells : List Cell} {bs : List B} (hs : Sim s cells bs) (hk : Sound cells bs) {i : Nat} {b : B}
    {t : NTy} {mv : Bool} (hu : usable bs i) (hb : bs[i]? = some b) (hf : fits b (.refMut t mv)) (n : NObj) (hn : n.hasTy t)
    (hmv : mv = false → ∃ t', t = .state t') :
    ∃ o o', cells[b.root]? = some (.own o) ∧ Cell.write cells i n = some (cells.set b.root (.own o')) ∧
      (∀ c, o.hasTy c → o'.hasTy c) ∧
      (mv = false → ∀ (path : List PStep) (y : NObj) (c : NTy), pathGet path o = some y → y.hasTy c → ∃ y', pathGet path o' = some y' ∧ y'.hasTy c) := by
  obtain ⟨b', r, o, al, path, hb', hr, hro, ha, hp, ho, hc, _, h⟩ := sim_place hs hu
  rw [hb] at hb'; injection hb' with hb'; subst hb'
  rcases h with ⟨h1, h2, _⟩ | ⟨h1, h2⟩
  · have hot := hk.own b.root b o (by rw [h1]; exact hb) hc
    rw [hf.1] at hot
    refine ⟨o, n, hc, ?_, ?_, ?_⟩
    · rw [h1] at hc ⊢
      simp only [Cell.write, hc]
    · intro c hc'
      rw [hasTy_unique hc' hot]; exact hn
    · intro hm path y c hy hyc
      obtain ⟨t', rfl⟩ := hmv hm
      exact get_same_state hot hn path c hy hyc
  · have hmr : b.own = .mutRef := by
      cases hbo : b.own with
      | owned => exact absurd hbo h2
      | sharedRef => exact absurd hbo hf.2
      | mutRef => rfl
    obtain ⟨t', h', hpath, hcls⟩ := hk.writable i b path hb hmr h1
    obtain ⟨x, hx, hxt⟩ := sound_read hs hk hu hb
    subst hpath
    simp only [Cell.read, h1, hc] at hx
    have hx' : (PStep.state t' h').get o = some x := by
      simp only [pathGet] at hx
      cases hg : (PStep.state t' h').get o with
      | none => rw [hg] at hx; cases hx
      | some y => rw [hg] at hx; exact hx
    have htt : t = .state t' := by rw [← hf.1, hcls]
    rw [htt] at hn
    obtain ⟨o', e1, e2, e3⟩ := put_state hx' hn
    exact ⟨o, o', hc, by simp only [Cell.write, h1, hc, e1], e2, fun _ => e3⟩

end Verif.Ffi
