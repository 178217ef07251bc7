import Verif.Proofs.MutSwap
import Verif.Proofs.Engine
import Verif.Props.Baseline
/-!
# C91: exclusive references to the parts of a baseline

`object_mut` lends `&mut Object`, `baseline_mut` lends `&mut Baseline`.  What can safe code do with them that the methods of
the API cannot?
-/
namespace Verif.Props
open Verif Arena Store Baseline

/-- The guarantee of a baseline driven through the API alone (C11): the fields of every live object bind through the contract the
object was created with and read back, in the baseline that holds the object. -/
def FieldsRead (log : List (WOp × BOut)) (w : Baselines) : Prop :=
  ∀ (i : Nat) (b : Baseline) (C : ContractTy) (k o : Idx) (ss : List DynProp) (cs : List DynChannel),
    (WOp.call i (.create C k ss cs), Outcome.ok (some o)) ∈ log → w[i]? = some b → (b.object o).isOk = true →
    ∀ (n : Nat) (id : DynId), C.stateId k n = some id →
      ∃ (f : Idx) (v : id.ty.Carrier), b.bindState id.id o = .ok f ∧ b.state id.ty f = .ok v

/-- A second contract type whose only state is a `u8`. -/
def tinyC : ContractTy := ⟨⟨"tiny", 0, 0, 1⟩, [⟨"n", .prim .u8⟩], []⟩

/-- Two baselines, each with its first contract under the same handle; two objects in the first, one in the second. -/
def swapOps : List WOp :=
  [.call 0 (.register demoC), .call 1 (.register tinyC),
   .call 0 (.create demoC h0 [.primitive (.u8 7), .primitive (.u16 300)] [⟨.prim .f32, []⟩]),
   .call 0 (.create demoC h0 [.primitive (.u8 8), .primitive (.u16 301)] [⟨.prim .f32, []⟩]),
   .call 1 (.create tinyC h0 [.primitive (.u8 99)] []),
   .swapObj 0 h1 1 h0]
def swapLog : List (WOp × BOut) := ((Baselines.fresh [.main, .fork]).run swapOps).1
def swapW : Baselines := ((Baselines.fresh [.main, .fork]).run swapOps).2
def swapA : Baseline := (swapW[0]?).getD (Baseline.new .main)

/-- One `mem::swap` of two `&mut Object` breaks the first baseline: (1) a field of an object it holds no longer binds; (2) the
asserting reader `Object::state`, whose comment says the case is impossible, panics on an id of the object's own contract handle;
(3) writing the first object's field changes what the second object's field reads. -/
theorem C91_swap_breaks_fields_negation :
    (¬ ∀ (kinds : List Kind) (ops : List WOp),
      FieldsRead ((Baselines.fresh kinds).run ops).1 ((Baselines.fresh kinds).run ops).2) ∧
    (∃ ob, swapA.object h1 = .ok ob ∧ ob.contract = h0 ∧ ob.state ⟨1, h0⟩ = .panic "unreachable") ∧
    (∃ f f', swapA.bindState ⟨0, h0⟩ h0 = .ok f ∧ swapA.bindState ⟨0, h0⟩ h1 = .ok f' ∧
      (swapA.stateWrite (.prim .u8) f 55#8).1.state (.prim .u8) f' = .ok 55#8) := by
  refine ⟨?_, ?_, ?_⟩
  · intro h
    have h1 := h [.main, .fork] swapOps 0 swapA demoC h0 Verif.Props.h1 [.primitive (.u8 8), .primitive (.u16 301)] [⟨.prim .f32, []⟩]
      (by
        have : ((Baselines.fresh [.main, .fork]).run swapOps).1[3]? = some (WOp.call 0 (.create demoC h0 [.primitive (.u8 8), .primitive (.u16 301)] [⟨.prim .f32, []⟩]), Outcome.ok (some Verif.Props.h1)) := by rfl
        exact List.mem_of_getElem? this)
      (by rfl) (by decide +kernel) 1
    cases hid : demoC.stateId h0 1 with
    | none => exact absurd hid (by decide +kernel)
    | some id =>
      obtain ⟨f, v, hb, _⟩ := h1 id hid
      have : id = ⟨.prim .u16, ⟨1, h0⟩⟩ := by
        have : demoC.stateId h0 1 = some ⟨.prim .u16, ⟨1, h0⟩⟩ := by decide +kernel
        rw [this] at hid; cases hid; rfl
      subst this
      have : swapA.bindState ⟨1, h0⟩ Verif.Props.h1 = .err "field index out of bounds" := by decide +kernel
      rw [this] at hb; cases hb
  · exact ⟨_, rfl, rfl, rfl⟩
  · exact ⟨⟨0, 0⟩, ⟨0, 0⟩, by decide +kernel, by decide +kernel, by decide +kernel⟩

/-- What one exchange does, exactly: the two records change places and nothing else changes, neither in the two baselines nor in
any other; it fails, changing nothing, exactly when a handle is dead (or the program does not compile); and the same exchange again
undoes it. -/
theorem C91_swap_exact (w : Baselines) (i j : Nat) (x y : Idx) (a b : Baseline) (hij : i ≠ j) (hi : w[i]? = some a) (hj : w[j]? = some b) :
    ((w.step (.swapObj i x j y)).2 = .ok none ↔ (a.object x).isOk = true ∧ (b.object y).isOk = true) ∧
    ((w.step (.swapObj i x j y)).2 ≠ .ok none → (w.step (.swapObj i x j y)).1 = w ∧ (w.step (.swapObj i x j y)).2.isErr = true) ∧
    ((w.step (.swapObj i x j y)).2 = .ok none →
      ∃ a' b' : Baseline, (∀ k : Nat, (w.step (.swapObj i x j y)).1[k]? = if k = i then some a' else if k = j then some b' else w[k]?) ∧
        a'.object x = b.object y ∧ b'.object y = a.object x ∧
        (∀ z : Idx, z ≠ x → a'.object z = a.object z) ∧ (∀ z : Idx, z ≠ y → b'.object z = b.object z) ∧
        a'.kind = a.kind ∧ a'.contracts = a.contracts ∧ a'.states = a.states ∧ a'.channels = a.channels ∧
        b'.kind = b.kind ∧ b'.contracts = b.contracts ∧ b'.states = b.states ∧ b'.channels = b.channels ∧
        ((w.step (.swapObj i x j y)).1.step (.swapObj i x j y)).1 = w) := by
  have okIff : ∀ (c : Baseline) (z : Idx), (c.object z).isOk = true ↔ c.objects.get z ≠ none := by
    intro c z; unfold Baseline.object
    cases c.objects.get z <;> simp [Outcome.isOk]
  have hgets : ∀ (a' b' : Baseline) (k : Nat), ((w.set i a').set j b')[k]? =
      if k = i then some a' else if k = j then some b' else w[k]? := by
    intro a' b' k
    have hj' : (w.set i a')[j]? = some b := by rw [set_get hi, if_neg hij, hj]
    rw [set_get hj', set_get hi]
    by_cases e1 : k = i
    · subst e1; rw [if_neg (fun q => hij q.symm), if_pos rfl, if_pos rfl]
    · rw [if_neg e1]
      by_cases e2 : k = j
      · subst e2; rw [if_pos rfl, if_pos rfl]
      · rw [if_neg (fun q => e2 q.symm), if_neg (fun q => e1 q.symm), if_neg e2]
  have hback : (w.set i a).set j b = w := by
    apply List.ext_getElem?
    intro k
    rw [hgets]
    split
    · rename_i e; subst e; exact hi.symm
    · split
      · rename_i e; subst e; exact hj.symm
      · rfl
  rw [okIff, okIff]
  rw [step_swap_some hij hi hj]
  rcases swapObjects_cases a b x y with ⟨p, q, oa, ob, hp, hq, hma, hmb, hs⟩ | ⟨hn, hs⟩
  · rw [hs]
    refine ⟨by simp [hp, hq], by simp, fun _ => ?_⟩
    refine ⟨{ a with objects := oa }, { b with objects := ob }, hgets _ _, ?_, ?_, ?_, ?_,
      rfl, rfl, rfl, rfl, rfl, rfl, rfl, rfl, ?_⟩
    · simp only [Baseline.object]
      rw [get_modify hma, if_pos rfl, hp, hq]; rfl
    · simp only [Baseline.object]
      rw [get_modify hmb, if_pos rfl, hp, hq]; rfl
    · intro z hz; exact object_congr (by simp only; rw [get_modify hma, if_neg hz])
    · intro z hz; exact object_congr (by simp only; rw [get_modify hmb, if_neg hz])
    · simp only
      have h1 : ((w.set i { a with objects := oa }).set j { b with objects := ob })[i]? = some { a with objects := oa } := by
        rw [hgets, if_pos rfl]
      have h2 : ((w.set i { a with objects := oa }).set j { b with objects := ob })[j]? = some { b with objects := ob } := by
        rw [hgets, if_neg (fun q => hij q.symm), if_pos rfl]
      rw [step_swap_some hij h1 h2]
      have undo : ∀ {c c' : Arena ObjectD} {z : Idx} {u v : ObjectD}, c.get z = some u → c.modify z (fun _ => v) = some c' →
          c'.modify z (fun _ => u) = some c := by
        intro c c' z u v hg hm
        have hg' : c'.get z = some v := by rw [get_modify hm, if_pos rfl, hg]; rfl
        rw [modify_of_some _ hg] at hm
        cases hm
        rw [modify_of_some _ hg']
        congr 1
        have : c.slots.set z.slot (.occ z.gen u) = c.slots := by
          apply List.ext_getElem?
          intro n
          rw [List.getElem?_set]
          split
          · rename_i e; subst e
            have := get_some_iff.1 hg
            rw [this]
            have hl := (List.getElem?_eq_some_iff.1 this).1
            rw [if_pos hl]
          · rfl
        simp only [List.set_set, this]
      have ga : oa.get x = some q := by rw [get_modify hma, if_pos rfl, hp]; rfl
      have gb : ob.get y = some p := by rw [get_modify hmb, if_pos rfl, hq]; rfl
      have hsw : swapObjects { a with objects := oa } { b with objects := ob } x y = (a, b, .ok none) := by
        unfold swapObjects
        simp only [ga, gb, undo hp hma, undo hq hmb]
      rw [hsw]
      simp only
      have : ((w.set i { a with objects := oa }).set j { b with objects := ob }).set i a = (w.set i a).set j { b with objects := ob } := by
        rw [List.set_comm _ _ (fun q => hij q.symm), List.set_set]
      rw [this, List.set_set, hback]
  · rw [hs]
    refine ⟨?_, ?_, ?_⟩
    · simp only [reduceCtorEq, false_iff]
      rintro ⟨h1, h2⟩
      rcases hn with hn | hn
      · exact h1 hn
      · exact h2 hn
    · intro _; exact ⟨hback, rfl⟩
    · intro h; cases h

/-- No call of the API can tell that objects were exchanged: drop the exchanges from any program over any number of baselines, and
every remaining call returns the same result and every baseline ends with the same kind, contracts, states, channels and the same
live object handles. -/
theorem C91_swaps_unseen_by_calls (kinds : List Kind) (ops : List WOp) :
    let w := ((Baselines.fresh kinds).run ops).2
    let v := ((Baselines.fresh kinds).run (ops.filter WOp.isCall)).2
    ((Baselines.fresh kinds).run ops).1.filter (fun e => e.1.isCall) = ((Baselines.fresh kinds).run (ops.filter WOp.isCall)).1 ∧
    w.length = v.length ∧
    ∀ (i : Nat) (b c : Baseline), w[i]? = some b → v[i]? = some c →
      b.kind = c.kind ∧ b.contracts = c.contracts ∧ b.states = c.states ∧ b.channels = c.channels ∧
      (∀ o : Idx, (b.object o).isOk = (c.object o).isOk) := by
  obtain ⟨h1, h2⟩ := run_erase ops (WAlike.refl (Baselines.fresh kinds))
  refine ⟨h1, h2.len, ?_⟩
  intro i b c hb hc
  have h := h2.each i c b hc hb
  refine ⟨h.kind, h.contracts, h.states, h.channels, ?_⟩
  intro o
  have := h.get_none o
  unfold Baseline.object
  cases h3 : b.objects.get o <;> cases h4 : c.objects.get o <;> simp [h3, h4] at this ⊢ <;> rfl

/-- The part of C91 that holds for every program of calls and exchanges over any number of baselines: exchanges only permute.
Every live object record stems from one recorded creation (its home: a baseline, a handle there and a contract type), no two live
records share a home, every field binds through the home contract's ids wherever the record now is, the handle found reads back in
the *home* baseline (so in its own one iff it is at home or the stores happen to agree), and two records at home in the same
baseline never share a field. -/
theorem C91_swaps_only_permute_partial (kinds : List Kind) (ops : List WOp) :
    let log := ((Baselines.fresh kinds).run ops).1
    let w := ((Baselines.fresh kinds).run ops).2
    ∃ (homeB : Nat → Idx → Nat) (homeO : Nat → Idx → Idx) (homeC : Nat → Idx → ContractTy),
      (∀ (i : Nat) (b : Baseline) (x : Idx), w[i]? = some b → (b.object x).isOk = true →
        ∃ (hb : Baseline) (k : Idx) (ss : List DynProp) (cs : List DynChannel),
          (WOp.call (homeB i x) (.create (homeC i x) k ss cs), Outcome.ok (some (homeO i x))) ∈ log ∧
          w[homeB i x]? = some hb ∧
          (∀ (n : Nat) (id : DynId), (homeC i x).stateId k n = some id →
            ∃ (f : Idx) (v : id.ty.Carrier), b.bindState id.id x = .ok f ∧ hb.state id.ty f = .ok v) ∧
          (∀ (n : Nat) (id : DynId), (homeC i x).chanId k n = some id →
            ∃ (f : Idx) (v : id.ty.Chan), b.bindChannel id.id x = .ok f ∧ hb.channel id.ty f = .ok v)) ∧
      (∀ (i i' : Nat) (b b' : Baseline) (x x' : Idx), w[i]? = some b → w[i']? = some b' →
        (b.object x).isOk = true → (b'.object x').isOk = true → (i, x) ≠ (i', x') →
        (homeB i x, homeO i x) ≠ (homeB i' x', homeO i' x') ∧
        (homeB i x = homeB i' x' →
          (∀ (k k' : Idx) (n n' : Nat) (d d' : DynId) (f f' : Idx), (homeC i x).stateId k n = some d → (homeC i' x').stateId k' n' = some d' →
            b.bindState d.id x = .ok f → b'.bindState d'.id x' = .ok f' → (d.ty, f) ≠ (d'.ty, f')) ∧
          (∀ (k k' : Idx) (n n' : Nat) (d d' : DynId) (f f' : Idx), (homeC i x).chanId k n = some d → (homeC i' x').chanId k' n' = some d' →
            b.bindChannel d.id x = .ok f → b'.bindChannel d'.id x' = .ok f' → (d.ty, f) ≠ (d'.ty, f')))) := by
  obtain ⟨home, hw⟩ := run_winv ops (fresh_winv kinds (fun _ _ => ⟨0, ⟨0, 0⟩, emptyC⟩))
  rw [List.nil_append] at hw
  have toRec : ∀ (i : Nat) (b : Baseline) (x : Idx), ((Baselines.fresh kinds).run ops).2[i]? = some b → (b.object x).isOk = true →
      ∃ ob, b.objects.get x = some ob ∧ ((Baselines.fresh kinds).run ops).2.rec i x ob := by
    intro i b x hb hl
    unfold Baseline.object at hl
    cases hx : b.objects.get x with
    | none => rw [hx] at hl; cases hl
    | some ob => exact ⟨ob, rfl, b, hb, hx⟩
  refine ⟨fun i x => (home i x).at_, fun i x => (home i x).handle, fun i x => (home i x).ty, ?_, ?_⟩
  · intro i b x hb hl
    obtain ⟨ob, hob, hr⟩ := toRec i b x hb hl
    obtain ⟨⟨ss, cs, hm⟩, hb', h1, h2, h3⟩ := hw.live i x ob hr
    refine ⟨hb', ob.contract, ss, cs, hm, h1, ?_, ?_⟩
    · intro n id hid
      obtain ⟨ht, he⟩ := stateId_some hid
      have hlt : n < ob.states.length := by rw [h2.1]; exact (List.getElem?_eq_some_iff.1 ht).1
      obtain ⟨v, hv⟩ := h2.2 n id.ty _ ht (List.getElem?_eq_getElem hlt)
      refine ⟨ob.states[n], v, ?_, state_ok.2 hv⟩
      rw [bindState_of_get hob, he]
      exact bindIdx_ok.2 ⟨rfl, List.getElem?_eq_getElem hlt⟩
    · intro n id hid
      obtain ⟨ht, he⟩ := chanId_some hid
      have hlt : n < ob.channels.length := by rw [h3.1]; exact (List.getElem?_eq_some_iff.1 ht).1
      obtain ⟨v, hv⟩ := h3.2 n id.ty _ ht (List.getElem?_eq_getElem hlt)
      refine ⟨ob.channels[n], v, ?_, channel_ok.2 hv⟩
      rw [bindChannel_of_get hob, he]
      exact bindIdx_ok.2 ⟨rfl, List.getElem?_eq_getElem hlt⟩
  · intro i i' b b' x x' hb hb' hl hl' hne
    obtain ⟨ob, hob, hr⟩ := toRec i b x hb hl
    obtain ⟨ob', hob', hr'⟩ := toRec i' b' x' hb' hl'
    refine ⟨?_, ?_⟩
    · intro e
      obtain ⟨e1, e2⟩ := hw.inj i i' x x' ob ob' hr hr' (congrArg Prod.fst e) (congrArg Prod.snd e)
      exact hne (by rw [e1, e2])
    · intro hh
      refine ⟨?_, ?_⟩
      · intro k k' n n' d d' f f' hd hd' hf hf' e
        obtain ⟨t1, i1⟩ := stateId_some hd
        obtain ⟨t2, i2⟩ := stateId_some hd'
        rw [bindState_of_get hob, i1] at hf
        rw [bindState_of_get hob', i2] at hf'
        have ef : f = f' := congrArg Prod.snd e
        have et : d.ty = d'.ty := congrArg Prod.fst e
        obtain ⟨⟨e1, e2⟩, _⟩ := hw.aliasS i i' x x' ob ob' n n' d.ty f hr hr' hh t1 (bindIdx_ok.1 hf).2
          (by rw [et]; exact t2) (by rw [ef]; exact (bindIdx_ok.1 hf').2)
        exact hne (by rw [e1, e2])
      · intro k k' n n' d d' f f' hd hd' hf hf' e
        obtain ⟨t1, i1⟩ := chanId_some hd
        obtain ⟨t2, i2⟩ := chanId_some hd'
        rw [bindChannel_of_get hob, i1] at hf
        rw [bindChannel_of_get hob', i2] at hf'
        have ef : f = f' := congrArg Prod.snd e
        have et : d.ty = d'.ty := congrArg Prod.fst e
        obtain ⟨⟨e1, e2⟩, _⟩ := hw.aliasC i i' x x' ob ob' n n' d.ty f hr hr' hh t1 (bindIdx_ok.1 hf).2
          (by rw [et]; exact t2) (by rw [ef]; exact (bindIdx_ok.1 hf').2)
        exact hne (by rw [e1, e2])

/-- Each baseline of a program without exchanges has an ordinary history of its own: exactly its calls with their results. -/
theorem C91_without_swaps (kinds : List Kind) (ops : List WOp) (hno : ∀ op ∈ ops, op.isCall = true) (i : Nat) (kind : Kind) (b : Baseline)
    (hk : kinds[i]? = some kind) (hb : ((Baselines.fresh kinds).run ops).2[i]? = some b) :
    History kind (((Baselines.fresh kinds).run ops).1.filterMap (fun e => match e.1 with
      | .call j op => if j = i then some (op, e.2) else none
      | .swapObj _ _ _ _ => none)) b := by
  have gen : ∀ (ops : List WOp) (w : Baselines), (∀ op ∈ ops, op.isCall = true) → ∀ b0 : Baseline, w[i]? = some b0 →
      ∀ b : Baseline, (w.run ops).2[i]? = some b →
      Trace b0 ((w.run ops).1.filterMap (fun e => match e.1 with
        | .call j op => if j = i then some (op, e.2) else none
        | .swapObj _ _ _ _ => none)) b := by
    intro ops
    induction ops with
    | nil =>
      intro w _ b0 h0 b hb
      simp only [Baselines.run] at hb
      rw [h0] at hb; cases hb
      exact .nil b0
    | cons op ops ih =>
      intro w hno b0 h0 b hb
      cases op with
      | swapObj i x j y => exact absurd (hno _ List.mem_cons_self) (by simp [isCall_swap])
      | call j op =>
        simp only [Baselines.run, List.filterMap_cons] at hb ⊢
        have hno' : ∀ op ∈ ops, op.isCall = true := fun o ho => hno o (List.mem_cons_of_mem _ ho)
        by_cases e : j = i
        · subst e
          rw [step_call_some h0] at hb ⊢
          simp only [if_true]
          exact .cons b0 op _ b (ih _ hno' _ (by rw [set_get h0, if_pos rfl]) b hb)
        · simp only [if_neg e]
          refine ih _ hno' b0 ?_ b hb
          cases hj : w[j]? with
          | none => rw [step_call_none hj]; exact h0
          | some c => rw [step_call_some hj]; simp only; rw [set_get hj, if_neg e]; exact h0
  exact gen ops (Baselines.fresh kinds) hno (Baseline.new kind) (by simp [Baselines.fresh, hk]) b hb

/-- `realm.baseline(k).kind() == k` does not survive an assignment through `baseline_mut`. -/
theorem C91_realm_kind_negation :
    ¬ ∀ (r : Realm), (∀ k : Kind, (r.baseline k).kind = k) → ∀ (k : Kind) (b : Baseline) (k' : Kind), ((r.assign k b).baseline k').kind = k' := by
  intro h
  have := h Realm.new (by intro k; cases k <;> rfl) .main (Baseline.new .fork) .main
  cases this

/-- It survives exactly the assignments of a baseline of the right kind, and every API call. -/
theorem C91_realm_kind_partial (r : Realm) (hr : ∀ k : Kind, (r.baseline k).kind = k) (k : Kind) :
    (∀ b : Baseline, (∀ k' : Kind, ((r.assign k b).baseline k').kind = k') ↔ b.kind = k) ∧
    (∀ (op : BOp) (k' : Kind), ((r.onBaseline k op).1.baseline k').kind = k') := by
  refine ⟨?_, ?_⟩
  · intro b
    cases k
    · exact ⟨fun h => h .main, fun h k' => by cases k'; exact h; exact hr .fork⟩
    · exact ⟨fun h => h .fork, fun h k' => by cases k'; exact hr .main; exact h⟩
  · have hk : ∀ (b : Baseline) (op : BOp), (b.step op).1.kind = b.kind := fun b op => Baseline.step_kind b op
    intro op k'
    cases k <;> cases k'
    · exact (hk _ op).trans (hr .main)
    · exact hr .fork
    · exact hr .main
    · exact (hk _ op).trans (hr .fork)

/-- The hypotheses are met: the exchange of the demo succeeds, its two records have different homes. -/
example : (swapLog[5]?).map (fun e => e.2) = some (.ok none) ∧ swapW.length = 2 ∧ (swapA.object h0).isOk = true ∧
    (swapA.object h1).isOk = true := by decide +kernel

end Verif.Props
