import Verif.Proofs.LastWrite
import Verif.Props.Database
import Verif.Props.Channel
/-!
# C88: a read returns what was last written.  C90: keyframes stay in time order.
-/
namespace Verif.Props
open Verif Spec

/-! ## C88 -/

/-- **C88 (states).** Whatever the history, the value read from a state is the one of the last successful write through that handle and
type; if there was none, it is the value given for one of the fields of an object when it was created, that field binds to the handle, and the handle did not
resolve before. -/
theorem C88_state_last_write {kind : Kind} {evs : List Event} {b : Baseline} (hist : History kind evs b) (t : PropType) (h : Idx)
    (v : t.Carrier) (hv : b.state t h = .ok v) :
    ∃ before e after b1, evs = before ++ e :: after ∧ History kind before b1 ∧
      (∀ w : t.Carrier, (BOp.writeState t h w, Outcome.ok none) ∉ after) ∧
      (e = (.writeState t h v, .ok none) ∨
       ((b1.state t h).isErr = true ∧ ∃ (C : ContractTy) (k : Idx) (ss : List DynProp) (cs : List DynChannel) (o : Idx) (n : Nat),
         e = (.create C k ss cs, .ok (some o)) ∧ (ss.map DynProp.typed)[n]? = some ⟨t, v⟩ ∧ (b1.step e.1).1.bindState ⟨n, k⟩ o = .ok h)) := by
  rcases trace_state_origin hist (new_binv kind) (new_sim kind) empty_known t h v hv with ⟨q, -⟩ | q
  · have := (reads_some ((new_sim kind).answers.state t h) v).1 q
    cases this
  · exact q

/-- **C88 (channels).** The same for channels. -/
theorem C88_channel_last_write {kind : Kind} {evs : List Event} {b : Baseline} (hist : History kind evs b) (t : PropType) (h : Idx)
    (v : t.Chan) (hv : b.channel t h = .ok v) :
    ∃ before e after b1, evs = before ++ e :: after ∧ History kind before b1 ∧
      (∀ w : t.Chan, (BOp.writeChannel t h w, Outcome.ok none) ∉ after) ∧
      (e = (.writeChannel t h v, .ok none) ∨
       ((b1.channel t h).isErr = true ∧ ∃ (C : ContractTy) (k : Idx) (ss : List DynProp) (cs : List DynChannel) (o : Idx) (n : Nat),
         e = (.create C k ss cs, .ok (some o)) ∧ cs[n]? = some ⟨t, v⟩ ∧ (b1.step e.1).1.bindChannel ⟨n, k⟩ o = .ok h)) := by
  rcases trace_channel_origin hist (new_binv kind) (new_sim kind) empty_known t h v hv with ⟨q, -⟩ | q
  · have := (reads_some ((new_sim kind).answers.channel t h) v).1 q
    cases this
  · exact q

/-- A handle written with different values reads the last one: a history with two writes. -/
def twoWrites : List BOp := demoBOps ++ [.writeState (.prim .u16) ⟨1, 0⟩ 9#16, .writeState (.prim .u16) ⟨0, 0⟩ 4#16, .writeState (.prim .u16) ⟨1, 0⟩ 8#16]

example : ((Baseline.new .main).runOps twoWrites).2.state (.prim .u16) ⟨1, 0⟩ = .ok 8#16 := by decide +kernel
example : ((Baseline.new .main).runOps twoWrites).2.state (.prim .u16) ⟨0, 0⟩ = .ok 4#16 := by decide +kernel

/-! ## C90 -/

/-- Specification: the keyframes are in time order, and no time is a NaN. -/
def InOrder {α : Type} (ks : List (Keyframe α)) : Prop :=
  ks.Pairwise (fun a b => TimeLe a.time b.time) ∧ ∀ k ∈ ks, ¬ F64NaN k.time

/-- Specification: this channel was made by `Channel::new`, from keyframes without NaN times. -/
def MadeByNew {α : Type} (out : List (Keyframe α)) : Prop :=
  ∃ (impl : SortImpl (Keyframe α)) (ks : List (Keyframe α)), (∀ k ∈ ks, ¬ F64NaN k.time) ∧ channelNew impl ks = some out

/-- **The full property C90:** if all channels handed over when objects are created were made by `Channel::new` without NaN times, then whatever
is done to them later, a channel's keyframes are in time order. -/
def AlwaysInOrder : Prop :=
  ∀ (kind : Kind) (evs : List Event) (b : Baseline), History kind evs b →
    (∀ (C : ContractTy) (k : Idx) (ss : List DynProp) (cs : List DynChannel) (out : BOut), (BOp.create C k ss cs, out) ∈ evs → ∀ c ∈ cs, MadeByNew c.2) →
    ∀ (t : PropType) (h : Idx) (ks : t.Chan), b.channel t h = .ok ks → InOrder ks

theorem MadeByNew.inOrder {α : Type} {out : List (Keyframe α)} (h : MadeByNew out) : InOrder out := by
  obtain ⟨impl, ks, h1, h2⟩ := h
  obtain ⟨out', e1, e2, e3⟩ := C37_sorted_permutation impl ks h1
  rw [h2] at e1
  cases e1
  exact ⟨e3, fun k hk => h1 k (e2.mem_iff.1 hk)⟩

/-- **C90, partial:** as long as channels are only ever replaced by channels made by `Channel::new` (which is all that can be done through
the C API, where keyframes cannot be changed), every channel of the baseline is in time order at all times. -/
theorem C90_in_order_partial {kind : Kind} {evs : List Event} {b : Baseline} (hist : History kind evs b)
    (hc : ∀ (C : ContractTy) (k : Idx) (ss : List DynProp) (cs : List DynChannel) (o : Idx), (BOp.create C k ss cs, Outcome.ok (some o)) ∈ evs → ∀ c ∈ cs, MadeByNew c.2)
    (hw : ∀ (t : PropType) (h : Idx) (ks : t.Chan), (BOp.writeChannel t h ks, Outcome.ok none) ∈ evs → MadeByNew ks)
    (t : PropType) (h : Idx) (ks : t.Chan) (hk : b.channel t h = .ok ks) : InOrder ks := by
  obtain ⟨before, e, after, b1, rfl, -, -, q⟩ := C88_channel_last_write hist t h ks hk
  rcases q with rfl | ⟨-, C, k, ss, cs, o, n, rfl, q1, -⟩
  · exact (hw t h ks (by simp)).inOrder
  · exact (hc C k ss cs o (by simp) _ (List.mem_of_getElem? q1)).inOrder

/-- A contract with one channel of bytes. -/
def chanC : ContractTy := ⟨⟨"chan", 0, 0, 0⟩, [], [⟨"c", .prim .u8⟩]⟩

/-- A channel with a keyframe at time 1.0; pushing one at time 0.0 through `keyframes_mut`. -/
def chanOps : List BOp :=
  [.register chanC, .create chanC ⟨0, 0⟩ [] [⟨.prim .u8, [⟨1, 0x3ff0000000000000#64⟩]⟩],
   .writeChannel (.prim .u8) ⟨0, 0⟩ [⟨1, 0x3ff0000000000000#64⟩, ⟨2, 0⟩]]

theorem madeByNew_one (v : BitVec 8) : MadeByNew [⟨v, 0x3ff0000000000000#64⟩] := by
  have h : ∀ k ∈ [(⟨v, 0x3ff0000000000000#64⟩ : Keyframe (BitVec 8))], ¬ F64NaN k.time := by
    intro k hk
    simp only [List.mem_cons, List.not_mem_nil, or_false] at hk
    subst hk
    show ¬ F64NaN 0x3ff0000000000000#64
    unfold F64NaN
    decide
  obtain ⟨out, h1, h2, -⟩ := C37_sorted_permutation (strictSort _) _ h
  rw [List.perm_singleton.1 h2] at h1
  exact ⟨strictSort _, _, h, h1⟩

/-- **C90 is false of the code:** `keyframes_mut` gives out the vector itself, and a keyframe pushed to it stays where it is. -/
theorem C90_negation : ¬ AlwaysInOrder := by
  intro h
  have hist : History .main ((Baseline.new .main).runOps chanOps).1 ((Baseline.new .main).runOps chanOps).2 := runOps_trace _ _
  have hev : ((Baseline.new .main).runOps chanOps).1 =
      [(.register chanC, .ok (some ⟨0, 0⟩)), (.create chanC ⟨0, 0⟩ [] [⟨.prim .u8, [⟨1, 0x3ff0000000000000#64⟩]⟩], .ok (some ⟨0, 0⟩)),
       (.writeChannel (.prim .u8) ⟨0, 0⟩ [⟨1, 0x3ff0000000000000#64⟩, ⟨2, 0⟩], .ok none)] := rfl
  have := (h .main _ _ hist (fun C k ss cs out hm c hc => by
    rw [hev] at hm
    simp only [List.mem_cons, Prod.mk.injEq, reduceCtorEq, false_and, BOp.create.injEq, List.not_mem_nil, or_false, false_or] at hm
    obtain ⟨⟨-, -, -, rfl⟩, -⟩ := hm
    simp only [List.mem_cons, List.not_mem_nil, or_false] at hc
    subst hc
    exact madeByNew_one 1) (.prim .u8) ⟨0, 0⟩ [⟨1, 0x3ff0000000000000#64⟩, ⟨2, 0⟩] rfl).1
  simp only [List.pairwise_cons, List.mem_cons, List.not_mem_nil, or_false, forall_eq] at this
  have := this.1.2.2
  revert this
  decide

/-! A concrete history for the partial theorem: the channel replaced by another one. -/
example : ∃ b, History .main [(.register chanC, .ok (some ⟨0, 0⟩)), (.create chanC ⟨0, 0⟩ [] [⟨.prim .u8, [⟨1, 0x3ff0000000000000#64⟩]⟩], .ok (some ⟨0, 0⟩)),
      (.writeChannel (.prim .u8) ⟨0, 0⟩ [⟨7, 0x3ff0000000000000#64⟩], .ok none)] b ∧
    b.channel (.prim .u8) ⟨0, 0⟩ = .ok [⟨7, 0x3ff0000000000000#64⟩] :=
  ⟨_, runOps_trace (Baseline.new .main) [.register chanC, .create chanC ⟨0, 0⟩ [] [⟨.prim .u8, [⟨1, 0x3ff0000000000000#64⟩]⟩],
    .writeChannel (.prim .u8) ⟨0, 0⟩ [⟨7, 0x3ff0000000000000#64⟩]], rfl⟩

end Verif.Props
