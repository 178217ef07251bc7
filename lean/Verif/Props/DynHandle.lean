import Verif.Model.DynHandle
import Verif.Props.Baseline
/-!
# C65, C66: dynamic handles and the index operators
-/
namespace Verif.Props
open Verif

theorem ofHandle_cases (d : DynHandleE) : ∃ (t : PropType) (i : Idx), d = DynHandleE.ofHandle t i := by
  rcases d with (_ | _ | _ | _ | _ | _ | _ | _ | _ | _ | _ | _ | _ | _) | (_ | _ | _ | _ | _ | _ | _ | _ | _ | _ | _ | _ | _ | _)
  all_goals first
    | exact ⟨.prim .u8, _, rfl⟩ | exact ⟨.prim .u16, _, rfl⟩ | exact ⟨.prim .u32, _, rfl⟩ | exact ⟨.prim .u64, _, rfl⟩
    | exact ⟨.prim .i8, _, rfl⟩ | exact ⟨.prim .i16, _, rfl⟩ | exact ⟨.prim .i32, _, rfl⟩ | exact ⟨.prim .i64, _, rfl⟩
    | exact ⟨.prim .bool, _, rfl⟩ | exact ⟨.prim .f32, _, rfl⟩ | exact ⟨.prim .f64, _, rfl⟩ | exact ⟨.prim .string, _, rfl⟩
    | exact ⟨.prim .objectHandle, _, rfl⟩ | exact ⟨.prim .contractDataHandle, _, rfl⟩
    | exact ⟨.vec .u8, _, rfl⟩ | exact ⟨.vec .u16, _, rfl⟩ | exact ⟨.vec .u32, _, rfl⟩ | exact ⟨.vec .u64, _, rfl⟩
    | exact ⟨.vec .i8, _, rfl⟩ | exact ⟨.vec .i16, _, rfl⟩ | exact ⟨.vec .i32, _, rfl⟩ | exact ⟨.vec .i64, _, rfl⟩
    | exact ⟨.vec .bool, _, rfl⟩ | exact ⟨.vec .f32, _, rfl⟩ | exact ⟨.vec .f64, _, rfl⟩ | exact ⟨.vec .string, _, rfl⟩
    | exact ⟨.vec .objectHandle, _, rfl⟩ | exact ⟨.vec .contractDataHandle, _, rfl⟩

theorem propType_ofHandle (t : PropType) (i : Idx) : (DynHandleE.ofHandle t i).propType = t := by
  rcases t with p | p <;> cases p <;> rfl

theorem tryInto_ofHandle (t : PropType) (i : Idx) : (DynHandleE.ofHandle t i).tryInto t = some i := by
  rcases t with p | p <;> cases p <;> rfl

theorem tryInto_ofHandle_ne (t t' : PropType) (i : Idx) (h : t ≠ t') : (DynHandleE.ofHandle t i).tryInto t' = none := by
  rcases t with p | p <;> rcases t' with q | q <;> cases p <;> cases q <;> first | rfl | exact absurd rfl h

theorem dispatch_ofHandle {R : Type} (k : PropType → Idx → R) (t : PropType) (i : Idx) :
    (DynHandleE.ofHandle t i).dispatch k = k t i := by
  rcases t with p | p <;> cases p <;> rfl

/-- **C65.** Every dynamic handle is the conversion of exactly one typed handle: it knows that handle's type, converts
back to it at that type and at no other, and two dynamic handles are equal exactly when they come from the same typed
handle (so the same slot number at two types gives two different handles). -/
theorem C65_dynamic_handles_are_typed_handles :
    (∀ d : DynHandleE, ∃ (t : PropType) (i : Idx), d = DynHandleE.ofHandle t i) ∧
    (∀ (t : PropType) (i : Idx), (DynHandleE.ofHandle t i).propType = t) ∧
    (∀ (t t' : PropType) (i j : Idx), (DynHandleE.ofHandle t i).tryInto t' = some j ↔ t' = t ∧ j = i) ∧
    (∀ (t t' : PropType) (i j : Idx), DynHandleE.ofHandle t i = DynHandleE.ofHandle t' j ↔ t = t' ∧ i = j) := by
  have h3 : ∀ (t t' : PropType) (i j : Idx), (DynHandleE.ofHandle t i).tryInto t' = some j ↔ t' = t ∧ j = i := by
    intro t t' i j
    by_cases h : t = t'
    · subst h
      rw [tryInto_ofHandle]
      exact ⟨fun e => ⟨rfl, (Option.some.inj e).symm⟩, fun e => by rw [e.2]⟩
    · rw [tryInto_ofHandle_ne t t' i h]
      exact ⟨fun e => (by cases e), fun e => absurd e.1.symm h⟩
  refine ⟨ofHandle_cases, propType_ofHandle, h3, fun t t' i j => ⟨fun e => ?_, fun e => by rw [e.1, e.2]⟩⟩
  have := tryInto_ofHandle t i
  rw [e] at this
  obtain ⟨e1, e2⟩ := (h3 t' t j i).1 this
  exact ⟨e1, e2⟩

theorem ofTyped_props (t : PropType) (v : t.Carrier) :
    (DynProp.ofTyped t v).propType = t ∧ (DynProp.ofTyped t v).tryInto t = some v := by
  rcases t with p | p <;> cases p <;> exact ⟨rfl, rfl⟩

/-- **C65 (reads).** Reading a state through a dynamic handle succeeds exactly when the typed handle resolves, and gives
the typed value tagged with the handle's type; it is `Err` exactly when the typed read is, and never panics.  The same for
channels. -/
theorem C65_dynamic_reads_agree (b : Baseline) (t : PropType) (i : Idx) :
    (∀ v : t.Carrier, b.state t i = .ok v →
      ∃ d : DynProp, b.dynStateGet (DynHandleE.ofHandle t i) = .ok d ∧ d.propType = t ∧ d.tryInto t = some v) ∧
    ((b.dynStateGet (DynHandleE.ofHandle t i)).isErr = true ↔ (b.state t i).isErr = true) ∧
    (b.dynStateGet (DynHandleE.ofHandle t i)).isPanic = false ∧
    (∀ c : t.Chan, b.channel t i = .ok c → b.dynChannelGet (DynHandleE.ofHandle t i) = .ok ⟨t, c⟩) ∧
    ((b.dynChannelGet (DynHandleE.ofHandle t i)).isErr = true ↔ (b.channel t i).isErr = true) ∧
    (b.dynChannelGet (DynHandleE.ofHandle t i)).isPanic = false := by
  unfold Baseline.dynStateGet Baseline.dynChannelGet
  rw [dispatch_ofHandle, dispatch_ofHandle]
  refine ⟨?_, ?_, ?_, ?_, ?_, ?_⟩
  · intro v hv
    rw [hv]
    exact ⟨DynProp.ofTyped t v, rfl, (ofTyped_props t v).1, (ofTyped_props t v).2⟩
  · cases b.state t i <;> simp [Outcome.map, Outcome.bind, Outcome.isErr]
  · unfold Baseline.state
    cases b.states.get t i <;> rfl
  · intro c hc
    rw [hc]
    rfl
  · cases b.channel t i <;> simp [Outcome.map, Outcome.bind, Outcome.isErr]
  · unfold Baseline.channel
    cases b.channels.get t i <;> rfl

/-- **C65 (writes).** A change made through a dynamic handle reaches exactly the state the typed handle names: a primitive
becomes the new value, a vector has its elements changed and keeps its length, and no other state, channel, object or
contract changes; on a dead handle it is `Err` and changes nothing. -/
theorem C65_dynamic_state_write (b : Baseline) (t : PropType) (i : Idx) (w : DynWriter) :
    (∀ old : t.Carrier, b.state t i = .ok old →
      ∃ (b' : Baseline) (new : t.Carrier), b.dynStateModify (DynHandleE.ofHandle t i) w = (b', .ok ()) ∧
        b'.state t i = .ok new ∧
        (∀ (p : PrimType) (v : p.Carrier), (⟨t, old⟩ : Typed) = ⟨.prim p, v⟩ → (⟨t, new⟩ : Typed) = ⟨.prim p, w.prim p v⟩) ∧
        (∀ (p : PrimType) (l : List p.Carrier), (⟨t, old⟩ : Typed) = ⟨.vec p, l⟩ →
          (⟨t, new⟩ : Typed) = ⟨.vec p, w.vec p l⟩ ∧ (w.vec p l).length = l.length) ∧
        (∀ (t' : PropType) (i' : Idx), (t', i') ≠ (t, i) → b'.state t' i' = b.state t' i') ∧
        (∀ (t' : PropType) (ch : Idx), b'.channel t' ch = b.channel t' ch) ∧
        (∀ o : Idx, b'.object o = b.object o) ∧ (∀ h : Idx, b'.contractData h = b.contractData h) ∧ b'.kind = b.kind) ∧
    ((b.state t i).isErr = true → (b.dynStateModify (DynHandleE.ofHandle t i) w).2.isErr = true ∧
      (b.dynStateModify (DynHandleE.ofHandle t i) w).1 = b) := by
  unfold Baseline.dynStateModify
  rw [dispatch_ofHandle]
  constructor
  · intro old hold
    obtain ⟨b', h1, h2, h3⟩ := (C13_state_write b t i (w.change t old)).1 old hold
    simp only [hold]
    refine ⟨b', w.change t old, h1, h2, ?_, ?_, h3⟩
    · intro p v e
      cases e
      rfl
    · intro p l e
      cases e
      exact ⟨rfl, w.vec_length p l⟩
  · intro herr
    cases hs : b.state t i with
    | ok v => rw [hs] at herr; cases herr
    | err m => exact ⟨rfl, rfl⟩
    | panic m => rw [hs] at herr; cases herr

/-- **C65 (channel writes).** The same for channels. -/
theorem C65_dynamic_channel_write (b : Baseline) (t : PropType) (i : Idx) (w : (t : PropType) → t.Chan → t.Chan) :
    (∀ old : t.Chan, b.channel t i = .ok old →
      ∃ b' : Baseline, b.dynChannelModify (DynHandleE.ofHandle t i) w = (b', .ok ()) ∧
        b'.channel t i = .ok (w t old) ∧
        (∀ (t' : PropType) (i' : Idx), (t', i') ≠ (t, i) → b'.channel t' i' = b.channel t' i') ∧
        (∀ (t' : PropType) (sh : Idx), b'.state t' sh = b.state t' sh) ∧
        (∀ o : Idx, b'.object o = b.object o) ∧ (∀ h : Idx, b'.contractData h = b.contractData h) ∧ b'.kind = b.kind) ∧
    ((b.channel t i).isErr = true → (b.dynChannelModify (DynHandleE.ofHandle t i) w).2.isErr = true ∧
      (b.dynChannelModify (DynHandleE.ofHandle t i) w).1 = b) := by
  unfold Baseline.dynChannelModify
  rw [dispatch_ofHandle]
  constructor
  · intro old hold
    obtain ⟨b', h1, h2, h3⟩ := (C13_channel_write b t i (w t old)).1 old hold
    simp only [hold]
    exact ⟨b', h1, h2, h3⟩
  · intro herr
    cases hs : b.channel t i with
    | ok v => rw [hs] at herr; cases herr
    | err m => exact ⟨rfl, rfl⟩
    | panic m => rw [hs] at herr; cases herr

/-- A live handle, a dead one and a live one read at the wrong type. -/
example : demoB.dynStateGet (.primitive (.u8 ⟨0, 0⟩)) = .ok (.primitive (.u8 7#8)) ∧
    (demoB.dynStateGet (.primitive (.u8 ⟨5, 0⟩))).isErr = true ∧
    (demoB.dynStateGet (.vec (.u8 ⟨0, 0⟩))).isErr = true ∧
    (demoB.dynChannelGet (.primitive (.f32 ⟨1, 0⟩))).isOk = true := by decide +kernel

/-! ## C66 -/

/-- **C66.** The index operators agree with the methods that return a `Result`: they give the same value, or make the same
change, when the method succeeds, and panic, changing nothing, exactly when it returns `Err`; this holds for objects, states
and channels, shared and mutable. -/
theorem C66_index_agrees (b : Baseline) :
    (∀ o : Idx, (∀ ob : ObjectD, b.indexObject o = .ok ob ↔ b.object o = .ok ob) ∧
      ((b.indexObject o).isPanic = true ↔ (b.object o).isErr = true)) ∧
    (∀ (o : Idx) (w : TimeWarp),
      (∀ b' : Baseline, b.indexObjectSetWarp o w = (b', .ok ()) ↔ b.setWarp o w = (b', .ok ())) ∧
      ((b.indexObjectSetWarp o w).2.isPanic = true ↔ (b.object o).isErr = true) ∧
      ((b.object o).isErr = true → (b.indexObjectSetWarp o w).1 = b)) ∧
    (∀ (t : PropType) (h : Idx), (∀ v : t.Carrier, b.indexState t h = .ok v ↔ b.state t h = .ok v) ∧
      ((b.indexState t h).isPanic = true ↔ (b.state t h).isErr = true)) ∧
    (∀ (t : PropType) (h : Idx) (v : t.Carrier),
      (∀ b' : Baseline, b.indexStateWrite t h v = (b', .ok ()) ↔ b.stateWrite t h v = (b', .ok ())) ∧
      ((b.indexStateWrite t h v).2.isPanic = true ↔ (b.state t h).isErr = true) ∧
      ((b.state t h).isErr = true → (b.indexStateWrite t h v).1 = b)) ∧
    (∀ (t : PropType) (h : Idx), (∀ v : t.Chan, b.indexChannel t h = .ok v ↔ b.channel t h = .ok v) ∧
      ((b.indexChannel t h).isPanic = true ↔ (b.channel t h).isErr = true)) ∧
    (∀ (t : PropType) (h : Idx) (v : t.Chan),
      (∀ b' : Baseline, b.indexChannelWrite t h v = (b', .ok ()) ↔ b.channelWrite t h v = (b', .ok ())) ∧
      ((b.indexChannelWrite t h v).2.isPanic = true ↔ (b.channel t h).isErr = true) ∧
      ((b.channel t h).isErr = true → (b.indexChannelWrite t h v).1 = b)) := by
  refine ⟨?_, ?_, ?_, ?_, ?_, ?_⟩
  · intro o
    unfold Baseline.indexObject Baseline.object Arena.index?
    cases b.objects.get o <;> simp [Outcome.isErr, Outcome.isPanic]
  · intro o w
    have hm : b.objects.modify o (fun ob => { ob with warp := w }) = none ↔ b.objects.get o = none := by
      simp only [Arena.modify_eq_none]
    unfold Baseline.indexObjectSetWarp Baseline.setWarp Baseline.object
    cases hg : b.objects.get o with
    | none =>
      rw [hm.2 hg]
      simp [Outcome.isErr, Outcome.isPanic]
    | some ob =>
      cases hx : b.objects.modify o (fun ob => { ob with warp := w }) with
      | none => rw [hm.1 hx] at hg; cases hg
      | some objs => simp [Outcome.isErr, Outcome.isPanic]
  · intro t h
    unfold Baseline.indexState Baseline.state
    cases b.states.get t h <;> simp [Baseline.expect, Outcome.isErr, Outcome.isPanic]
  · intro t h v
    unfold Baseline.indexStateWrite Baseline.stateWrite Baseline.state
    cases hw : b.states.write t h v with
    | none =>
      rw [Store.write_eq_none.1 hw]
      simp [Baseline.expect, Outcome.isErr, Outcome.isPanic]
    | some s =>
      cases hg : b.states.get t h with
      | none => rw [Store.write_eq_none.2 hg] at hw; cases hw
      | some x => simp [Baseline.expect, Outcome.isErr, Outcome.isPanic]
  · intro t h
    unfold Baseline.indexChannel Baseline.channel
    cases b.channels.get t h <;> simp [Baseline.expect, Outcome.isErr, Outcome.isPanic]
  · intro t h v
    unfold Baseline.indexChannelWrite Baseline.channelWrite Baseline.channel
    cases hw : b.channels.write t h v with
    | none =>
      rw [Store.write_eq_none.1 hw]
      simp [Baseline.expect, Outcome.isErr, Outcome.isPanic]
    | some s =>
      cases hg : b.channels.get t h with
      | none => rw [Store.write_eq_none.2 hg] at hw; cases hw
      | some x => simp [Baseline.expect, Outcome.isErr, Outcome.isPanic]

example : (demoB.indexObject h0).isOk = true ∧ (demoB.indexObject ⟨9, 0⟩).isPanic = true ∧
    demoB.indexState (.prim .u8) ⟨0, 0⟩ = .ok 7#8 ∧ (demoB.indexState (.prim .u8) ⟨0, 1⟩).isPanic = true := by decide +kernel

end Verif.Props
