import Verif.Props.FfiHeap
/-!
# C79: read-only references are not written through

In the C# API a wrapper with ownership `SharedRef` stands for a `&T`.
-/
namespace Verif.Props
open Verif Verif.Ffi

/-- What every wrapper that is a shared reference holds: a pointer into another object, not to be written through. -/
def SharedReadOnly (w : World) : Prop := ∀ x ∈ w.ws, x.w.own = .sharedRef → ∀ p : Ptr, x.w.inner = some p →
  p.interior = true ∧ p.writable = false

theorem api_ret_shared (a : Api) (c : NTy) (hm : a.method.ret = some (c, .sharedRef)) :
    ∃ i t, a.method.sig.ret = .borrow i t false := by
  cases a <;> simp [Api.method] at hm ⊢

theorem native_ret_shared {h h' : Heap} {s : Sig} {ptrs : List Ptr} {p : Ptr} {i : Nat} {t : NTy} {wr : Bool}
    (hr : s.ret = .borrow i t wr) (he : h.native s ptrs = .ok (h', some p)) : p.interior = true ∧ p.writable = wr := by
  unfold Heap.native at he
  split at he
  · cases he
  · simp only at he
    split at he
    · cases he
    · split at he
      · injection he with he
        rw [hr] at he
        simp only [Heap.applyRet] at he
        split at he
        · cases he
        · injection he with _ he; injection he with he; subst he; exact ⟨rfl, rfl⟩
      · cases he

theorem sharedReadOnly_step (w : World) (hw : SharedReadOnly w) (c : Call) : SharedReadOnly (w.step c).1 := by
  cases c with
  | method a args =>
    simp only [World.step, World.call]
    split
    · exact hw
    · split
      · exact hw
      · have hs := evalPasses_sub a.method.pass w.ws args
        cases he : World.evalPasses w.ws args a.method.pass with
        | mk ws' o =>
          rw [he] at hs
          have h0 : SharedReadOnly ⟨ws', w.heap⟩ := fun x hx ho p hp => hw x (hs x hx p hp) ho p hp
          cases o with
          | none => exact h0
          | some ptrs =>
            simp only
            split
            · exact h0
            · rename_i h' r hn
              split
              · rename_i c o p hret
                intro x hx ho q hq
                rcases List.mem_append.1 hx with hx | hx
                · exact h0 x hx ho q hq
                · simp only [List.mem_singleton] at hx
                  subst hx
                  simp only [Wrapper.new, Option.some.injEq] at hq ho
                  subst hq ho
                  obtain ⟨i, t, hb⟩ := api_ret_shared a c hret
                  exact native_ret_shared hb hn
              · exact h0
  | dispose i =>
    simp only [World.step, World.dispose]
    split
    · exact hw
    · rename_i x hx
      have : ∀ (v : Wrapper Ptr) (h : Heap), v.inner = none → SharedReadOnly ⟨w.ws.set i { x with w := v }, h⟩ := by
        intro v h hv y hy ho p hp
        rcases List.mem_or_eq_of_mem_set hy with hy | rfl
        · exact hw y hy ho p hp
        · rw [show ({ x with w := v } : W).w.inner = v.inner from rfl, hv] at hp; cases hp
      simp only [Wrapper.dispose]
      split
      · rename_i w' p heq
        injection heq with h1 h2
        subst h1
        split
        · exact this _ _ rfl
        · split <;> exact this _ _ rfl
      · rename_i w' _ _ heq
        injection heq with h1 h2
        subst h1
        exact this _ _ rfl

theorem sharedReadOnly_run (cs : List Call) : ∀ (w : World), SharedReadOnly w → SharedReadOnly (w.run cs).1 := by
  induction cs with
  | nil => intro w hw; exact hw
  | cons c cs ih =>
    intro w hw
    have h1 := sharedReadOnly_step w hw c
    simp only [World.run]
    cases he : w.step c with
    | mk w' r =>
      rw [he] at h1
      cases r <;> first | exact h1 | exact ih w' h1

/-- Evaluating an argument empties at most the wrapper it is about. -/
theorem evalPass_get (ws : List W) (args : List Nat) (q : Pass) (i : Nat) (x : W) (hx : ws[i]? = some x) :
    (World.evalPass ws args q).1[i]? = some x ∨
      (World.evalPass ws args q).1[i]? = some { x with w := { x.w with inner := none } } := by
  unfold World.evalPass
  split
  · exact .inl hx
  · rename_i j hj
    split
    · exact .inl hx
    · rename_i y hy
      cases q with
      | inner => exact .inl hx
      | data => exact .inl hx
      | steal =>
        simp only
        cases hs : y.w.inner with
        | none => simp only [Wrapper.stealInner, hs]; exact .inl hx
        | some r =>
          simp only [Wrapper.stealInner, hs]
          by_cases hij : j = i
          · subst hij
            rw [hx] at hy; injection hy with hy; subst hy
            right
            rw [List.getElem?_set_self (List.getElem?_eq_some_iff.1 hx).1]
          · left
            rw [List.getElem?_set_ne hij]; exact hx

/-- The pointer that was passed for a wrapper. -/
theorem evalPasses_get (qs : List Pass) : ∀ (ws ws' : List W) (args : List Nat) (ptrs : List Ptr) (k i : Nat) (q : Pass)
    (x : W), World.evalPasses ws args qs = (ws', some ptrs) → qs[k]? = some q → args[q.idx]? = some i → ws[i]? = some x →
    ∃ p p0, ptrs[k]? = some p ∧ x.w.inner = some p0 ∧
      (p = p0 ∨ (∃ k, q = .data k) ∧ p = ⟨p0.alloc, .keyframe .u8, true, true, p0.ver⟩) := by
  induction qs with
  | nil => intro ws ws' args ptrs k i q x _ hq; simp at hq
  | cons q0 qs ih =>
    intro ws ws' args ptrs k i q x h hq hi hx
    simp only [World.evalPasses] at h
    cases e1 : World.evalPass ws args q0 with
    | mk w1 o1 =>
      rw [e1] at h
      cases o1 with
      | none => cases h
      | some p1 =>
        simp only at h
        cases e2 : World.evalPasses w1 args qs with
        | mk w2 o2 =>
          rw [e2] at h
          cases o2 with
          | none => cases h
          | some ps =>
            simp only [Prod.mk.injEq, Option.some.injEq] at h
            obtain ⟨_, rfl⟩ := h
            cases k with
            | zero =>
              simp only [List.getElem?_cons_zero, Option.some.injEq] at hq
              subst hq
              obtain ⟨i', x', p0, a1, a2, a3, a4⟩ := evalPass_some (q := q0) (p := p1) (by rw [e1])
              rw [hi] at a1; injection a1 with a1; subst a1
              rw [hx] at a2; injection a2 with a2; subst a2
              exact ⟨p1, p0, rfl, a3, a4⟩
            | succ k =>
              simp only [List.getElem?_cons_succ] at hq
              have hg := evalPass_get ws args q0 i x hx
              rw [e1] at hg
              rcases hg with hg | hg
              · obtain ⟨p, p0, b1, b2, b3⟩ := ih w1 w2 args ps k i q x e2 hq hi hg
                exact ⟨p, p0, by simpa using b1, b2, b3⟩
              · obtain ⟨p, p0, _, b2, _⟩ := ih w1 w2 args ps k i q _ e2 hq hi hg
                cases b2

/-- A call that succeeded passed its checks and its native call did. -/
theorem call_ok {w : World} {m : Method} {args : List Nat} {n : Option Nat} (h : (w.call m args).2 = .ok n) :
    World.guards w.ws args m = true ∧ ∃ ws' ptrs r, World.evalPasses w.ws args m.pass = (ws', some ptrs) ∧
      w.heap.native m.sig ptrs = .ok r := by
  unfold World.call at h
  split at h
  · cases h
  · split at h
    · cases h
    · rename_i hg
      cases he : World.evalPasses w.ws args m.pass with
      | mk ws' o =>
        rw [he] at h
        cases o with
        | none => cases h
        | some ptrs =>
          simp only at h
          cases hn : w.heap.native m.sig ptrs with
          | error f => rw [hn] at h; cases h
          | ok r => exact ⟨by simpa using hg, ws', ptrs, r, rfl, hn⟩

theorem native_param {h : Heap} {s : Sig} {ptrs : List Ptr} {r : Heap × Option Ptr} (hn : h.native s ptrs = .ok r)
    {k : Nat} {q : Param} {p : Ptr} (hq : s.params[k]? = some q) (hp : ptrs[k]? = some p) : h.checkParam q p = none := by
  unfold Heap.native at hn
  split at hn
  · cases hn
  · simp only at hn
    cases hf : (s.params.zip ptrs).findSome? fun x => h.checkParam x.1 x.2 with
    | some f => rw [hf] at hn; cases hn
    | none =>
      rw [List.findSome?_eq_none_iff] at hf
      exact hf (q, p) (mem_zip_of_get hq hp)

theorem api_data (a : Api) (m : Nat) (h : Pass.data m ∈ a.method.pass) : a = .rvecSet ∧ m = 0 := by
  cases a <;> simp [Api.method] at h
  exact ⟨rfl, h⟩

/-- **C79, partial.** Whatever the program did before, no call succeeds in which a shared reference is handed to a native
parameter that writes (`&mut T`) or takes ownership (`Box<T>`). -/
theorem C79_never_written_partial (cs : List Call) (a : Api) (args : List Nat) (n : Option Nat)
    (hok : ((World.empty.run cs).1.step (.method a args)).2 = .ok n) (k i : Nat) (q : Param) (ps : Pass) (x : W)
    (hq : a.method.sig.params[k]? = some q) (hex : q.exclusive = true) (hps : a.method.pass[k]? = some ps)
    (hi : args[ps.idx]? = some i) (hx : (World.empty.run cs).1.ws[i]? = some x) : x.w.own ≠ .sharedRef := by
  intro ho
  have hro := sharedReadOnly_run cs World.empty (by intro x hx; simp [World.empty] at hx)
  generalize (World.empty.run cs).1 = w at *
  obtain ⟨hg, ws', ptrs, r, h1, h2⟩ := call_ok hok
  obtain ⟨p, p0, b1, b2, b3⟩ := evalPasses_get _ _ _ _ _ k i ps x h1 hps hi hx
  have hc := native_param h2 hq b1
  obtain ⟨hint, hwr⟩ := hro x (List.mem_of_getElem? hx) ho p0 b2
  rcases b3 with rfl | ⟨⟨m, rfl⟩, _⟩
  · unfold Heap.checkParam at hc
    split at hc
    · cases hc
    · split at hc
      · cases hc
      · cases q with
        | ref t => cases hex
        | refMut t mv => simp [hwr] at hc
        | box t => simp [hint] at hc
  · -- the data pointer of a vector is passed by one method only, which checks
    obtain ⟨rfl, rfl⟩ := api_data a m (List.mem_of_getElem? hps)
    simp [World.guards, Api.method, Pass.idx] at hg hi
    simp [hi, hx, ho] at hg

/-- The setters of the properties of the Unity demo (demos/unity_states/unity/Assets/Scripts/BallStateDataSourcePlatform.cs:78-195):
`this.baselineMain.State(handle).Value = new RBox_T(value)`.  The wrapper number `n` is the one `State` returns. -/
def demoSet (t : PrimType) (b h n : Nat) : List Call :=
  [.method (.baselineState t) [b, h], .method (.primNew t) [], .method (.stateSetValue t) [n, n + 1]]

/-- The getters: `this.baselineMain.State(handle).Value.Value`. -/
def demoGet (t : PrimType) (b h n : Nat) : List Call :=
  [.method (.baselineState t) [b, h], .method (.stateValue t) [n], .method (.primValue t) [n + 1]]

/-- What a successful `Baseline.State` does. -/
theorem baselineState_ok {w w' : World} {t : PrimType} {b h : Nat} {r : Option Nat}
    (he : w.step (.method (.baselineState t) [b, h]) = (w', .ok r)) :
    r = some w.ws.length ∧ ∃ p v, w' = ⟨w.ws ++ [⟨.state t, ⟨some p, .sharedRef⟩⟩], w.heap⟩ ∧ p = ⟨p.alloc, .state t, true, false, v⟩ ∧
      w.heap.valid p = true := by
  have hok := call_ok (w := w) (m := (Api.baselineState t).method) (args := [b, h]) (n := r) (by
    have := congrArg Prod.snd he; exact this)
  obtain ⟨hg, ws', ptrs, r', h1, h2⟩ := hok
  obtain ⟨p1, p2, rfl, e1, e2⟩ := evalPasses_two h1
  have hw1 : ws' = w.ws := by
    simp only [Api.method, World.evalPasses] at h1
    have k0 := evalPass_inner w.ws [b, h] 0
    have k1 := evalPass_inner w.ws [b, h] 1
    cases f1 : World.evalPass w.ws [b, h] (.inner 0) with
    | mk u1 o1 =>
      rw [f1] at h1 k0
      simp only at k0; subst k0
      cases o1 with
      | none => cases h1
      | some q1 =>
        simp only at h1
        cases f2 : World.evalPass w.ws [b, h] (.inner 1) with
        | mk u2 o2 =>
          rw [f2] at h1 k1
          simp only at k1; subst k1
          cases o2 with
          | none => cases h1
          | some q2 => simp only [Prod.mk.injEq] at h1; exact h1.1.symm
  subst hw1
  have hc := native_param h2 (k := 0) (q := .ref .baseline) (p := p1) rfl rfl
  have hv1 : w.heap.valid p1 = true := by
    cases hv : w.heap.valid p1 with
    | true => rfl
    | false => simp [Heap.checkParam, hv] at hc
  have hn : w.heap.native (Api.baselineState t).method.sig [p1, p2] =
      .ok (w.heap, some ⟨p1.alloc, .state t, true, false, (w.heap[p1.alloc]?.map Alloc.ver).getD 0⟩) := by
    have hn := h2
    unfold Heap.native at hn ⊢
    split at hn
    · cases hn
    · rename_i hl
      rw [if_neg hl]
      simp only at hn ⊢
      cases hf : ((Api.baselineState t).method.sig.params.zip [p1, p2]).findSome? fun x => w.heap.checkParam x.1 x.2 with
      | some f => rw [hf] at hn; cases hn
      | none =>
        rw [hf] at hn
        simp only at hn ⊢
        split at hn
        · rename_i hpw
          rw [if_pos hpw]
          simp [Api.method, Heap.applyParam, Heap.applyRet]
        · cases hn
  simp only [World.step, World.call] at he
  split at he
  · cases he
  · split at he
    · cases he
    · rw [h1] at he
      simp only [hn] at he
      simp only [Api.method, Prod.mk.injEq, Res.ok.injEq] at he
      obtain ⟨rfl, rfl⟩ := he
      refine ⟨rfl, _, _, rfl, rfl, ?_⟩
      unfold Heap.valid at hv1 ⊢
      simp only
      cases ha : w.heap[p1.alloc]? with
      | none => rw [ha] at hv1; cases hv1
      | some al => rw [ha] at hv1; simp only [Bool.and_eq_true] at hv1; simp [hv1.1]

theorem valid_append {h : Heap} {p : Ptr} (hv : h.valid p = true) (al : Alloc) :
    Heap.valid (h ++ [al]) p = true := by
  unfold Heap.valid at hv ⊢
  cases ha : h[p.alloc]? with
  | none => rw [ha] at hv; cases hv
  | some b =>
    have : (h ++ [al])[p.alloc]? = some b := by
      rw [List.getElem?_append_left (List.getElem?_eq_some_iff.1 ha).1]; exact ha
    rw [this]; rw [ha] at hv; exact hv

/-- **C79, refuted.** Attempts to write through a shared reference are not always rejected with an exception: assigning to
a property of the Unity demo, in any state of the program in which the baseline and the state handle can be used at all,
writes through the shared reference that `Baseline.State` returned (undefined behaviour in the native code). -/
theorem C79_negation_demo_setter (w w' : World) (t : PrimType) (b h : Nat) (r : Option Nat)
    (he : w.step (.method (.baselineState t) [b, h]) = (w', .ok r)) :
    (w.run (demoSet t b h w.ws.length)).2 = [.ok r, .ok (some (w.ws.length + 1)), .fault .sharedWrite] := by
  obtain ⟨hr, p, v, rfl, hp, hv⟩ := baselineState_ok he
  have e2 : World.step ⟨w.ws ++ [⟨.state t, ⟨some p, .sharedRef⟩⟩], w.heap⟩ (.method (.primNew t) []) =
      (⟨w.ws ++ [⟨.state t, ⟨some p, .sharedRef⟩⟩] ++ [⟨.prim t, ⟨some ⟨w.heap.length, .prim t, false, true, 0⟩, .owned⟩⟩],
        w.heap ++ [⟨.prim t, true, 0⟩]⟩, .ok (some (w.ws.length + 1))) := by
    simp [World.step, World.call, Api.method, World.typed, World.guards, World.evalPasses, Heap.native, Heap.applyRet,
      Wrapper.new]
  have e3 := C72_shared_write_partial
    ⟨w.ws ++ [⟨.state t, ⟨some p, .sharedRef⟩⟩] ++ [⟨.prim t, ⟨some ⟨w.heap.length, .prim t, false, true, 0⟩, .owned⟩⟩],
        w.heap ++ [⟨.prim t, true, 0⟩]⟩ t w.ws.length (w.ws.length + 1) ⟨.state t, ⟨some p, .sharedRef⟩⟩
    ⟨.prim t, ⟨some ⟨w.heap.length, .prim t, false, true, 0⟩, .owned⟩⟩ p ⟨w.heap.length, .prim t, false, true, 0⟩
    (by simp) (by simp) rfl rfl rfl rfl (valid_append hv _) (by rw [hp]) (by rw [hp]) (by omega)
  simp only [demoSet, World.run]
  rw [he]
  simp only
  rw [e2]
  simp only
  generalize World.step _ _ = z at e3 ⊢
  obtain ⟨z1, z2⟩ := z
  simp only at e3
  subst e3
  rfl

/-- **C79, partial.** Reading the same property always works. -/
theorem C79_demo_getter_partial (w w' : World) (t : PrimType) (b h : Nat) (r : Option Nat)
    (he : w.step (.method (.baselineState t) [b, h]) = (w', .ok r)) :
    (w.run (demoGet t b h w.ws.length)).2 = [.ok r, .ok (some (w.ws.length + 1)), .ok none] := by
  obtain ⟨hr, p, v, rfl, hp, hv⟩ := baselineState_ok he
  have hty : p.ty = .state t := by rw [hp]
  obtain ⟨ver, hver⟩ : ∃ ver, (w.heap[p.alloc]?.map Alloc.ver).getD 0 = ver := ⟨_, rfl⟩
  have e2 : World.step ⟨w.ws ++ [⟨.state t, ⟨some p, .sharedRef⟩⟩], w.heap⟩ (.method (.stateValue t) [w.ws.length]) =
      (⟨w.ws ++ [⟨.state t, ⟨some p, .sharedRef⟩⟩] ++ [⟨.prim t, ⟨some ⟨p.alloc, .prim t, true, false, ver⟩, .sharedRef⟩⟩],
        w.heap⟩, .ok (some (w.ws.length + 1))) := by
    simp [World.step, World.call, Api.method, World.typed, World.guards, World.evalPasses, World.evalPass, Pass.idx,
      Heap.native, Heap.checkParam, hv, hty, Param.ty, Heap.applyParam, Heap.applyRet, Wrapper.new, hver]
  have hv2 : w.heap.valid ⟨p.alloc, .prim t, true, false, ver⟩ = true := by
    unfold Heap.valid at hv ⊢
    simp only at hv ⊢
    cases ha : w.heap[p.alloc]? with
    | none => rw [ha] at hv; cases hv
    | some al =>
      rw [ha] at hv hver
      simp only [Bool.and_eq_true] at hv
      simp only [Option.map_some, Option.getD_some] at hver
      simp [hv.1, hver]
  have e3 : (World.step ⟨w.ws ++ [⟨.state t, ⟨some p, .sharedRef⟩⟩] ++
      [⟨.prim t, ⟨some ⟨p.alloc, .prim t, true, false, ver⟩, .sharedRef⟩⟩], w.heap⟩
      (.method (.primValue t) [w.ws.length + 1])).2 = .ok none := by
    simp [World.step, World.call, Api.method, World.typed, World.guards, World.evalPasses, World.evalPass, Pass.idx,
      Heap.native, Heap.checkParam, hv2, Param.ty, Heap.applyParam, Heap.applyRet]
  simp only [demoGet, World.run]
  rw [he]
  simp only
  rw [e2]
  simp only
  generalize World.step _ _ = z at e3 ⊢
  obtain ⟨z1, z2⟩ := z
  simp only at e3
  subst e3
  rfl

/-- A baseline and a state handle that can be used: setting faults, reading works. -/
def usableWorld : World :=
  ⟨[⟨.baseline, ⟨some ⟨0, .baseline, false, true, 0⟩, .owned⟩⟩, ⟨.stateHandle .f32, ⟨some ⟨1, .stateHandle .f32, false, true, 0⟩, .owned⟩⟩],
    [⟨.baseline, true, 2⟩, ⟨.stateHandle .f32, true, 0⟩]⟩

example : (usableWorld.run (demoSet .f32 0 1 2)).2 = [.ok (some 2), .ok (some 3), .fault .sharedWrite] :=
  C79_negation_demo_setter _ _ .f32 0 1 (some 2) rfl
example : (usableWorld.run (demoGet .f32 0 1 2)).2 = [.ok (some 2), .ok (some 3), .ok none] :=
  C79_demo_getter_partial _ _ .f32 0 1 (some 2) rfl
/-- The methods that check throw: registering a contract through a shared reference to a baseline. -/
example : (({ usableWorld with ws := usableWorld.ws ++ [⟨.baseline, ⟨some ⟨0, .baseline, true, false, 2⟩, .sharedRef⟩⟩] } : World).step
    (.method .ballRegister [2])).2 = .exception := by decide
/-- A program with a call that succeeds and writes, through a wrapper that is no shared reference (C79_never_written_partial). -/
example : ((World.empty.run [.method .baselineNew []]).1.step (.method .ballRegister [0])).2 = .ok (some 1) := by decide

end Verif.Props
