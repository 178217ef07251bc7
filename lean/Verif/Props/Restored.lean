import Verif.Props.Lost
import Verif.Props.Determinism
import Verif.Props.Replay
import Verif.Props.Ledger
import Verif.Proofs.DesTidy
/-!
# C108, C109: what a restored baseline consists of

No state without an object, and which handles its objects and contracts have.
-/
namespace Verif.Props
open Verif Spec Arena Baseline Store

/-! ## C108 -/

/-- **C108.** Whatever was deserialized, and however often it failed on the way: every state that is alive in the
finished baseline is a field, of its type, of a live object; no channel is alive. -/
theorem C108_no_garbage {buf : FbBaseline} {kind : Kind} {regs : List (ContractTy × Outcome Idx)}
    {calls : List ((ContractTy × Idx) × Outcome Unit)} {d : Des} (hd : DesRun buf kind regs calls d)
    (ord : IterOrder (Nat × Idx)) (hord : HashOrder) {b' : Baseline} (hf : d.finish ord hord = .ok b') :
    (∀ (t : PropType) (j : Idx) (v : t.Carrier), b'.state t j = .ok v →
      ∃ (C : ContractTy) (h o : Idx) (r : Outcome Unit) (n : Nat) (f : Field), ((C, h), r) ∈ calls ∧
        C.states[n]? = some f ∧ f.ty = t ∧ b'.bindState ⟨n, h⟩ o = .ok j) ∧
    ∀ (t : PropType) (j : Idx) (v : t.Chan), b'.channel t j ≠ .ok v := by
  obtain ⟨done, hR⟩ := desRun_ok hd
  rcases finish_spec hR ord hord with ⟨_, e⟩ | ⟨_, b2, e, hre, hF⟩
  · rw [hf] at e; cases e
  rw [hf] at e; injection e with e; subst e
  obtain ⟨h1, h2⟩ := tidy_finished hd hR.inv hF
  refine ⟨fun t j v hv => ?_, fun t j v hv => ?_⟩
  · obtain ⟨C, o, ob, n, r, a1, a2, a3, a4⟩ := h1 t j v (state_ok.1 hv)
    unfold ContractTy.stateTypes at a4
    rw [List.getElem?_map] at a4
    cases hs : C.states[n]? with
    | none => rw [hs] at a4; cases a4
    | some f =>
      rw [hs] at a4
      refine ⟨C, ob.contract, o, r, n, f, a1, hs, by simpa using a4, ?_⟩
      unfold Baseline.bindState
      rw [a2]
      simp [ObjectD.bindState, bindIdx, a3]
  · unfold Baseline.channel at hv
    rw [h2] at hv; cases hv

/-! ## C109 -/

theorem okHandles_ok (l : List (ContractTy × Idx)) : okHandles (l.map fun e => (e.1, Outcome.ok e.2)) = l.map Prod.snd := by
  induction l with
  | nil => rfl
  | cons e l ih =>
    show e.2 :: okHandles (l.map fun e => (e.1, Outcome.ok e.2)) = _
    rw [ih]; rfl

/-- The handles of what was restored: contract number `i` (from 0) of the types given has the handle `⟨i + 1, 0⟩`, the
contracts alive are those, and the `N` objects alive have the handles `⟨1, 0⟩`, …, `⟨N, 0⟩`. -/
theorem restored_handles {c : Cycle} {b b' : Baseline} {cs' : List (ContractTy × Idx)} (h : c.run b = .ok (cs', b')) :
    (∀ i : Nat, cs'[i]? = c.types[i]?.map fun C => (C, ⟨i + 1, 0⟩)) ∧
    (∀ k : Idx, (∃ cd, b'.contractData k = .ok cd) ↔ 1 ≤ k.slot ∧ k.slot ≤ c.types.length ∧ k.gen = 0) ∧
    ∀ o : Idx, (∃ ob, b'.object o = .ok ob) ↔ 1 ≤ o.slot ∧ o.slot ≤ b'.iterObjects.length ∧ o.gen = 0 := by
  obtain ⟨s, out, buf, _, _, _, h⟩ := run_restore h
  obtain ⟨ht, d, hd, hf⟩ := restore_inv h
  obtain ⟨done, hR⟩ := desRun_ok hd
  rcases finish_spec hR c.ord c.hord with ⟨_, e⟩ | ⟨_, b2, e, hre, hF⟩
  · rw [hf] at e; cases e
  rw [hf] at e; injection e with e; subst e
  obtain ⟨a1, a2, a3, ⟨N, a4⟩, a5⟩ := run_from_builder hd
  rw [okHandles_ok] at a3 a5
  have hlen : cs'.length = c.types.length := by rw [← ht]; simp
  have hN : ∀ o : Idx, (∃ ob, b'.object o = .ok ob) ↔ 1 ≤ o.slot ∧ o.slot ≤ N ∧ o.gen = 0 := by
    intro o
    have : (∃ ob, b'.object o = .ok ob) ↔ o ≠ ⟨0, 0⟩ ∧ ∃ ob, d.b.base.objects.get o = some ob := by
      simp only [object_ok]
      rw [hF.objects, a2]
      by_cases e : o = ⟨0, 0⟩
      · simp [e]
      · simp [e]
    rw [this, packed_get a4]
    obtain ⟨s, g⟩ := o
    simp only [ne_eq, Idx.mk.injEq]
    omega
  have hlN : b'.iterObjects.length = N := by
    have hp : (b'.iterObjects.map Prod.fst).Perm ((List.range N).map fun i => (⟨i + 1, 0⟩ : Idx)) := by
      refine (List.perm_ext_iff_of_nodup (iter_nodup _) ?_).2 fun o => ?_
      · rw [List.Nodup, List.pairwise_map]
        exact List.nodup_range.imp fun h e => h (by simpa using e)
      · have := hN o
        simp only [object_ok] at this
        have hm : o ∈ b'.objects.iter.map Prod.fst ↔ ∃ ob, b'.objects.get o = some ob := by
          simp only [List.mem_map]
          constructor
          · rintro ⟨⟨o', ob⟩, h1, rfl⟩; exact ⟨ob, mem_iter.1 h1⟩
          · rintro ⟨ob, h1⟩; exact ⟨(o, ob), mem_iter.2 h1, rfl⟩
        rw [hm, this]
        simp only [List.mem_map, List.mem_range]
        obtain ⟨s, g⟩ := o
        constructor
        · rintro ⟨h1, h2, h3⟩
          simp only at h1 h2 h3
          exact ⟨s - 1, by omega, by simp; omega⟩
        · rintro ⟨i, hi, e⟩
          simp only [Idx.mk.injEq] at e
          simp only; omega
    have := hp.length_eq
    simpa using this
  refine ⟨fun i => ?_, fun k => ?_, by rw [hlN]; exact hN⟩
  · rw [← ht, List.getElem?_map]
    cases hi : cs'[i]? with
    | none => rfl
    | some e =>
      have := a5 i e.2 (by rw [List.getElem?_map, hi]; rfl)
      simp [← this]
  · have : (∃ cd, b'.contractData k = .ok cd) ↔ k ≠ ⟨0, 0⟩ ∧ ∃ cd, d.b.base.contracts.get k = some cd := by
      simp only [contractData_ok]
      rw [hF.contracts, a1]
      by_cases e : k = ⟨0, 0⟩
      · simp [e]
      · simp [e]
    rw [this, packed_get a3, List.length_map, hlen]
    obtain ⟨s, g⟩ := k
    simp only [ne_eq, Idx.mk.injEq]
    omega

/-- The types registered in a restore that succeeded have different ids. -/
theorem restored_ids {c : Cycle} {b b' : Baseline} {cs' : List (ContractTy × Idx)} (h : c.run b = .ok (cs', b')) :
    (c.types.map ContractTy.id).Nodup := by
  obtain ⟨e1, _, _⟩ := restored_handles h
  obtain ⟨s, out, buf, _, _, _, h⟩ := run_restore h
  obtain ⟨ht, d, hd, hf⟩ := restore_inv h
  obtain ⟨done, hR⟩ := desRun_ok hd
  obtain ⟨evs, hH, _, _⟩ := hR.reach
  have hB := history_binv hH
  rw [List.Nodup, List.pairwise_iff_getElem]
  intro i j hi hj hij e
  rw [List.length_map] at hi hj
  have g : ∀ n : Nat, ∀ hn : n < c.types.length, ∃ cd, d.b.base.contracts.get ⟨n + 1, 0⟩ = some cd ∧ cd.id = c.types[n].id := by
    intro n hn
    refine (hR.live c.types[n] ⟨n + 1, 0⟩ (List.mem_map.2 ⟨(c.types[n], ⟨n + 1, 0⟩), ?_, rfl⟩)).1
    refine List.mem_of_getElem? (i := n) ?_
    rw [e1 n, List.getElem?_eq_getElem hn]; rfl
  obtain ⟨c1, g1, i1⟩ := g i hi
  obtain ⟨c2, g2, i2⟩ := g j hj
  have := hB.c.idUnique _ _ c1 c2 g1 g2 (by rw [i1, i2]; simpa using e)
  simp only [Idx.mk.injEq] at this
  omega

/-- Field number `n` of object `o`, of a contract of type `C` with handle `h` in `cs`, has type `t` and is stored as state `j`. -/
def IsField (b : Baseline) (cs : List (ContractTy × Idx)) (h o : Idx) (n : Nat) (t : PropType) (j : Idx) : Prop :=
  ∃ (C : ContractTy) (f : Field), (C, h) ∈ cs ∧ C.states[n]? = some f ∧ f.ty = t ∧ b.bindState ⟨n, h⟩ o = .ok j

/-- **C108.** After a save and a restore the states alive are exactly the fields of the objects alive, each field being
its own state, and no channel is alive: whatever was left over in the baseline that was saved is gone. -/
theorem C108_exactly_the_fields {c : Cycle} {b b' : Baseline} {cs' : List (ContractTy × Idx)} (h : c.run b = .ok (cs', b')) :
    (∀ (t : PropType) (j : Idx), (∃ v, b'.state t j = .ok v) ↔ ∃ (k o : Idx) (n : Nat), IsField b' cs' k o n t j) ∧
    (∀ (t : PropType) (j k1 o1 k2 o2 : Idx) (n1 n2 : Nat), IsField b' cs' k1 o1 n1 t j → IsField b' cs' k2 o2 n2 t j →
      k1 = k2 ∧ o1 = o2 ∧ n1 = n2) ∧
    ∀ (t : PropType) (j : Idx) (v : t.Chan), b'.channel t j ≠ .ok v := by
  have hids := restored_ids h
  obtain ⟨s, out, buf, _, _, _, h⟩ := run_restore h
  obtain ⟨hnd, evs, hH, hty⟩ := restore_typed h hids
  obtain ⟨ht, d, hd, hf⟩ := restore_inv h
  obtain ⟨n1, n2⟩ := C108_no_garbage hd _ _ hf
  have hB := history_binv hH
  have own : ∀ {k o : Idx} {n : Nat} {t : PropType} {j : Idx}, IsField b' cs' k o n t j →
      ∃ (C : ContractTy) (ob : ObjectD), DidCreate evs C k o ∧ b'.objects.get o = some ob ∧ ob.contract = k ∧
        C.stateTypes[n]? = some t ∧ ob.states[n]? = some j := by
    rintro k o n t j ⟨C, f, hC, hn, rfl, hb⟩
    unfold Baseline.bindState at hb
    cases hg : b'.objects.get o with
    | none => rw [hg] at hb; cases hb
    | some ob =>
      rw [hg] at hb
      unfold ObjectD.bindState bindIdx at hb
      simp only at hb
      split at hb
      · cases hb
      · rename_i hk
        have hk : k = ob.contract := Decidable.byContradiction hk
        cases hs : ob.states[n]? with
        | none => rw [hs] at hb; cases hb
        | some i =>
          rw [hs] at hb; injection hb with hb
          obtain ⟨C', hC'⟩ := hB.o.origin o ob hg
          rw [← hk] at hC'
          have := hty C C' k o hC hC'
          subst this
          exact ⟨C', ob, hC', rfl, hk.symm, by simp [ContractTy.stateTypes, hn], by rw [hs, hb]⟩
  refine ⟨fun t j => ⟨?_, ?_⟩, ?_, n2⟩
  · rintro ⟨v, hv⟩
    obtain ⟨C, k, o, r, n, f, a1, a2, a3, a4⟩ := n1 t j v hv
    refine ⟨k, o, n, C, f, ?_, a2, a3, a4⟩
    obtain ⟨e, he, h1⟩ := List.mem_map.1 a1
    injection h1 with h1 _
    rw [← h1]
    exact (c.sched.perm cs').mem_iff.1 he
  · rintro ⟨k, o, n, hF⟩
    obtain ⟨C, ob, g1, g2, g3, g4, g5⟩ := own hF
    rcases hB.o.created C k o g1 with ⟨ob', i1, i2, i3, i4⟩ | hdead
    · rw [g2] at i1; injection i1 with i1; subst i1
      obtain ⟨v, hv⟩ := i3.2 n t j g4 g5
      exact ⟨v, state_ok.2 hv⟩
    · rw [hdead.1] at g2; cases g2
  · intro t j k1 o1 k2 o2 m1 m2 h1 h2
    obtain ⟨C1, ob1, a1, a2, a3, a4, a5⟩ := own h1
    obtain ⟨C2, ob2, b1, b2, b3, b4, b5⟩ := own h2
    obtain ⟨rfl, rfl⟩ := hB.o.aliasS o1 o2 m1 m2 t j ⟨C1, k1, ob1, a1, a2, a4, a5⟩ ⟨C2, k2, ob2, b1, b2, b4, b5⟩
    rw [a2] at b2; injection b2 with b2; subst b2
    exact ⟨a3.symm.trans b3, rfl, rfl⟩

/-- A program that leaks: an object is created and removed, and another contract has an object. -/
def leakOps : List BOp :=
  [.register byteC, .create byteC h0 [.primitive (.u8 7)] [], .remove byteC h0, .register warpC, .create warpC h1 [.primitive (.u8 5)] []]
def leakB : Baseline := ((Baseline.new .main).runOps leakOps).2

/-- Of the two states it ends with, the one that belongs to nothing is not restored. -/
example : leakB.iterObjects.length = 1 ∧ leakB.state (.prim .u8) ⟨0, 0⟩ = .ok 7 ∧ leakB.state (.prim .u8) ⟨1, 0⟩ = .ok 5 ∧
    ∃ (cs' : List (ContractTy × Idx)) (b' : Baseline), (demoCycle [(warpC, h1)]).run leakB = .ok (cs', b') ∧
      b'.state (.prim .u8) ⟨0, 0⟩ = .ok 5 ∧ (b'.state (.prim .u8) ⟨1, 0⟩).isErr = true ∧ IsField b' cs' ⟨1, 0⟩ ⟨1, 0⟩ 0 (.prim .u8) ⟨0, 0⟩ := by
  refine ⟨by decide +kernel, by decide +kernel, by decide +kernel, ?_⟩
  have h : (match (demoCycle [(warpC, h1)]).run leakB with
    | .ok (cs', b') => decide (cs' = [(warpC, ⟨1, 0⟩)] ∧ b'.state (.prim .u8) ⟨0, 0⟩ = .ok 5 ∧
        (b'.state (.prim .u8) ⟨1, 0⟩).isErr = true ∧ b'.bindState ⟨0, ⟨1, 0⟩⟩ ⟨1, 0⟩ = .ok ⟨0, 0⟩)
    | _ => false) = true := by decide +kernel
  revert h
  cases (demoCycle [(warpC, h1)]).run leakB with
  | ok r =>
    intro h
    obtain ⟨cs', b'⟩ := r
    obtain ⟨rfl, h1, h2, h3⟩ := of_decide_eq_true h
    exact ⟨_, b', rfl, h1, h2, warpC, ⟨"hp", .prim .u8⟩, by simp, rfl, rfl, h3⟩
  | err m => intro h; cases h
  | panic m => intro h; cases h

/-- Claim C109: handles held across a save and a restore still denote the same contracts and objects. -/
def HandlesSurvive : Prop :=
  ∀ (kind : Kind) (evs : List Event) (b : Baseline) (cs : List (ContractTy × Idx)), Savable kind evs b cs →
    ∀ c : Cycle, c.Fits cs → ∀ (cs' : List (ContractTy × Idx)) (b' : Baseline), c.run b = .ok (cs', b') →
      SameContents b cs b' cs' (fun o => o) (fun h => h)

/-- **C109, partial.** Which handles resolve after a restore, whatever was saved: the contracts have the handles
`⟨1, 0⟩`, `⟨2, 0⟩`, … in the order in which their types were registered, and the objects have the handles `⟨1, 0⟩` to
`⟨N, 0⟩`, `N` being their number.  No other handle resolves; in particular none of slot 0 and none of a later generation.
Missing with respect to C109: a handle that resolves need not denote the object it denoted before. -/
theorem C109_handles_partial {c : Cycle} {b b' : Baseline} {cs' : List (ContractTy × Idx)} (h : c.run b = .ok (cs', b')) :
    (∀ i : Nat, cs'[i]? = c.types[i]?.map fun C => (C, ⟨i + 1, 0⟩)) ∧
    (∀ k : Idx, (∃ cd, b'.contractData k = .ok cd) ↔ 1 ≤ k.slot ∧ k.slot ≤ c.types.length ∧ k.gen = 0) ∧
    ∀ o : Idx, (∃ ob, b'.object o = .ok ob) ↔ 1 ≤ o.slot ∧ o.slot ≤ b'.iterObjects.length ∧ o.gen = 0 :=
  restored_handles h

/-- **C109 is false of the code**: the handle of the first object of a program does not survive. -/
theorem C109_negation : ¬ HandlesSurvive := by
  intro hA
  obtain ⟨cs', b', φ, ψ, e1, e2, e3⟩ := C106_only_default_partial warp_savable _ (demoCycle_fits _)
  have hE := hA .main warpEvs warpB _ warp_savable _ (demoCycle_fits _) cs' b' e1
  obtain ⟨ob', g, _⟩ := hE.object warpC h0 h0 (by simp) (by decide +kernel)
  have := ((C109_handles_partial e1).2.2 h0).1 ⟨ob', g⟩
  exact absurd this.1 (by decide)

/-- What field 0 of an object holds, if it is a `u8`. -/
def byteOf (b : Baseline) (h o : Idx) : Option (BitVec 8) :=
  match b.bindState ⟨0, h⟩ o with
  | .ok j => match b.state (.prim .u8) j with
    | .ok v => some v
    | _ => none
  | _ => none

/-- **C109 is false of the code**, silently: after saving and restoring, the handle of one object denotes another. -/
theorem C109_negation_confused : ∃ (cs' : List (ContractTy × Idx)) (b' : Baseline) (h' : Idx),
    (seedCycle revOrder [(warpC, h0)]).run warpB = .ok (cs', b') ∧ (warpC, h') ∈ cs' ∧
    byteOf warpB h0 h1 = some 6 ∧ byteOf b' h' h1 = some 5 := by
  have h : (match (seedCycle revOrder [(warpC, h0)]).run warpB with
    | .ok (cs', b') => decide (cs' = [(warpC, ⟨1, 0⟩)] ∧ byteOf warpB h0 h1 = some 6 ∧ byteOf b' ⟨1, 0⟩ h1 = some 5)
    | _ => false) = true := by decide +kernel
  revert h
  cases (seedCycle revOrder [(warpC, h0)]).run warpB with
  | ok r =>
    intro h
    obtain ⟨cs', b'⟩ := r
    obtain ⟨rfl, h1, h2⟩ := of_decide_eq_true h
    exact ⟨_, b', ⟨1, 0⟩, rfl, by simp, h1, h2⟩
  | err m => intro h; cases h
  | panic m => intro h; cases h

end Verif.Props
