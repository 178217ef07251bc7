import Verif.Spec.Part
import Verif.Props.Split
/-!
# Programs with separate parts of one baseline (C113)

The programs need not begin with a new baseline: they may go on with one that is already in use, each with a part of its own.
-/
namespace Verif.Props
open Verif Spec Arena Baseline Store

/-- The handles of a part, each corresponding to itself. -/
def partNames (b : Baseline) (cs : List (ContractTy × Idx)) : Names where
  con C h h' := (C, h) ∈ cs ∧ h = h'
  obj o o' := (∃ C h, (C, h) ∈ cs ∧ o ∈ objectsOf b h) ∧ o = o'
  st t i j := (∃ C h o n, (C, h) ∈ cs ∧ o ∈ objectsOf b h ∧ C.stateTypes[n]? = some t ∧ b.bindState ⟨n, h⟩ o = .ok i) ∧ i = j
  ch t i j := (∃ C h o n, (C, h) ∈ cs ∧ o ∈ objectsOf b h ∧ C.channelTypes[n]? = some t ∧ b.bindChannel ⟨n, h⟩ o = .ok i) ∧ i = j

section
variable {kind : Kind} {evs : List Event} {b : Baseline} {cs : List (ContractTy × Idx)}

theorem part_listed (hist : History kind evs b) (hP : Part evs b cs) {C : ContractTy} {h o : Idx} (hm : (C, h) ∈ cs) (ho : o ∈ objectsOf b h) :
    Dead b.objects o ∨ ∃ ob, b.objects.get o = some ob ∧ ob.contract = h ∧ DidCreate evs C h o ∧ FieldsOk b.states C.stateTypes ob.states ∧
      FieldsOk b.channels C.channelTypes ob.channels := by
  have hB := history_binv hist
  obtain ⟨cd, hcd, _⟩ := hP.registered C h hm
  rw [objectsOf_eq hcd] at ho
  rcases hB.c.listed h o cd (contractData_ok.1 hcd) ho with ⟨ob, hg, hc⟩ | d
  · right
    obtain ⟨D, hD⟩ := hB.o.origin o ob hg
    rw [hc] at hD
    have e := hP.typed C D h o hm hD
    subst e
    rcases hB.o.created D h o hD with ⟨ob1, g, _, f1, f2⟩ | d
    · rw [hg] at g; cases g; exact ⟨ob, hg, hc, hD, f1, f2⟩
    · rw [d.1] at hg; cases hg
  · exact .inl d

/-- An object one of whose fields is bound is live. -/
theorem part_live (hist : History kind evs b) (hP : Part evs b cs) {C : ContractTy} {h o : Idx} (hm : (C, h) ∈ cs) (ho : o ∈ objectsOf b h)
    {ob : ObjectD} (hg : b.objects.get o = some ob) : ob.contract = h ∧ DidCreate evs C h o ∧ FieldsOk b.states C.stateTypes ob.states ∧
      FieldsOk b.channels C.channelTypes ob.channels := by
  rcases part_listed hist hP hm ho with d | ⟨ob1, g, h1⟩
  · rw [d.1] at hg; cases hg
  · rw [hg] at g; cases g; exact h1

theorem bindState_live {id : PropId} {o i : Idx} (h : b.bindState id o = .ok i) : ∃ ob, b.objects.get o = some ob ∧ id.contract = ob.contract ∧ ob.states[id.idx]? = some i := by
  unfold bindState at h
  cases hg : b.objects.get o with
  | none => rw [hg] at h; cases h
  | some ob => rw [hg] at h; exact ⟨ob, rfl, bindIdx_ok.1 h⟩

theorem bindChannel_live {id : PropId} {o i : Idx} (h : b.bindChannel id o = .ok i) : ∃ ob, b.objects.get o = some ob ∧ id.contract = ob.contract ∧ ob.channels[id.idx]? = some i := by
  unfold bindChannel at h
  cases hg : b.objects.get o with
  | none => rw [hg] at h; cases h
  | some ob => rw [hg] at h; exact ⟨ob, rfl, bindIdx_ok.1 h⟩

theorem inside_prim {p : PrimType} {v : p.Carrier} (h : PrimInside b cs p v) : RelPrim (partNames b cs) p v v := by
  cases p
  case objectHandle => exact ⟨h, rfl⟩
  case contractDataHandle => exact h.imp fun C m => ⟨m, rfl⟩
  all_goals exact Eq.refl v

theorem forall2_self {α : Type} {R : α → α → Prop} {l : List α} (h : ∀ x ∈ l, R x x) : List.Forall₂ R l l := by
  induction l with
  | nil => exact .nil
  | cons x l ih => exact .cons (h x List.mem_cons_self) (ih fun y hy => h y (List.mem_cons_of_mem _ hy))

theorem inside_val {t : PropType} {v : t.Carrier} (h : ValueInside b cs t v) : RelVal (partNames b cs) t v v := by
  cases t with
  | prim p => exact inside_prim h
  | vec p => exact forall2_self fun x hx => inside_prim (h x hx)

/-- A part corresponds to itself. -/
theorem part_self (hist : History kind evs b) (hP : Part evs b cs) : PairedOn ⟨OwnOrFree b cs, False⟩ (partNames b cs) b b := by
  have hB := history_binv hist
  refine ⟨rfl, ⟨hB.c.inv, hB.c.inv, ?_, ?_, ?_⟩, ?_, ?_, ?_, ⟨hB.o.inv, hB.o.inv, ?_, ?_, ?_⟩, fun _ _ _ z => z.elim, fun _ _ _ z => z.elim, ?_, ?_⟩
  · rintro i j j' ⟨C, _, h1⟩ ⟨D, _, h2⟩; rw [← h1, ← h2]
  · rintro i i' j ⟨C, _, h1⟩ ⟨D, _, h2⟩; rw [h1, h2]
  · rintro h h' ⟨C, m, rfl⟩
    obtain ⟨cd, e1, _⟩ := hP.registered C h m
    have g1 := contractData_ok.1 e1
    refine .inl ⟨cd, cd, g1, g1, rfl, hB.c.nodup h cd g1, hB.c.nodup h cd g1, ?_, ?_⟩ <;>
      exact fun o ho => ⟨o, ho, ⟨C, h, m, by rw [objectsOf_eq e1]; exact ho⟩, rfl⟩
  · rintro C D h h' h'' ⟨m1, _⟩ ⟨m2, _⟩
    exact fst_eq hP.different m1 m2
  · intro h cd g hw
    rcases hw with ⟨⟨C, k⟩, m, hid⟩ | hw
    · obtain ⟨cd1, g1, e1⟩ := hP.registered C k m
      have : k = h := hB.c.idUnique k h cd1 cd (contractData_ok.1 g1) g (by rw [e1]; exact hid)
      exact ⟨C, h, this ▸ m, rfl⟩
    · exact absurd rfl (hw h cd (contractData_ok.2 g))
  · intro h cd g hw
    rcases hw with ⟨⟨C, k⟩, m, hid⟩ | hw
    · obtain ⟨cd1, g1, e1⟩ := hP.registered C k m
      have : k = h := hB.c.idUnique k h cd1 cd (contractData_ok.1 g1) g (by rw [e1]; exact hid)
      exact ⟨C, h, this ▸ m, rfl⟩
    · exact absurd rfl (hw h cd (contractData_ok.2 g))
  · exact fun i j j' h1 h2 => h1.2.symm.trans h2.2
  · exact fun i i' j h1 h2 => h1.2.trans h2.2.symm
  · rintro o o' ⟨⟨C, h, m, l⟩, rfl⟩
    rcases part_listed hist hP m l with d | ⟨ob, hg, hc, _, f1, f2⟩
    · exact .inr ⟨d, d⟩
    · refine .inl ⟨ob, ob, hg, hg, rfl, C, ⟨hc ▸ m, rfl⟩, ⟨rfl, ?_⟩, ⟨rfl, ?_⟩⟩
      · intro n i j hi hj
        rw [hi] at hj; cases hj
        have hn : n < C.stateTypes.length := by rw [← f1.1]; exact (List.getElem?_eq_some_iff.1 hi).1
        refine ⟨C.stateTypes[n], List.getElem?_eq_getElem hn, ⟨C, h, o, n, m, l, List.getElem?_eq_getElem hn, ?_⟩, rfl⟩
        rw [bindState_of_get hg]; exact bindIdx_ok.2 ⟨hc.symm, hi⟩
      · intro n i j hi hj
        rw [hi] at hj; cases hj
        have hn : n < C.channelTypes.length := by rw [← f2.1]; exact (List.getElem?_eq_some_iff.1 hi).1
        refine ⟨C.channelTypes[n], List.getElem?_eq_getElem hn, ⟨C, h, o, n, m, l, List.getElem?_eq_getElem hn, ?_⟩, rfl⟩
        unfold bindChannel
        rw [hg]; exact bindIdx_ok.2 ⟨hc.symm, hi⟩
  · intro t
    refine ⟨arenaOf_inv hB.o.sInv t, arenaOf_inv hB.o.sInv t, fun i j j' h1 h2 => h1.2.symm.trans h2.2, fun i i' j h1 h2 => h1.2.trans h2.2.symm, ?_⟩
    rintro i _ ⟨⟨C, h, o, n, m, l, ht, hb⟩, rfl⟩
    obtain ⟨ob, hg, _, hi⟩ := bindState_live hb
    obtain ⟨_, _, f1, _⟩ := part_live hist hP m l hg
    obtain ⟨v, hv⟩ := f1.2 n t i ht hi
    have hv' := hv
    rw [Store.get_eq] at hv'
    obtain ⟨f, hf, rfl⟩ : ∃ f, C.states[n]? = some f ∧ f.ty = t := by simpa [ContractTy.stateTypes] using ht
    exact .inl ⟨v, v, hv', hv', inside_val (hP.states C h o n f i v m l hf hb (state_ok.2 hv))⟩
  · intro t
    refine ⟨arenaOf_inv hB.o.cInv t, arenaOf_inv hB.o.cInv t, fun i j j' h1 h2 => h1.2.symm.trans h2.2, fun i i' j h1 h2 => h1.2.trans h2.2.symm, ?_⟩
    rintro i _ ⟨⟨C, h, o, n, m, l, ht, hb⟩, rfl⟩
    obtain ⟨ob, hg, _, hi⟩ := bindChannel_live hb
    obtain ⟨_, _, _, f2⟩ := part_live hist hP m l hg
    obtain ⟨v, hv⟩ := f2.2 n t i ht hi
    have hv' := hv
    rw [Store.get_eq] at hv'
    obtain ⟨f, hf, rfl⟩ : ∃ f, C.channels[n]? = some f ∧ f.ty = t := by simpa [ContractTy.channelTypes] using ht
    exact .inl ⟨v, v, hv', hv', forall2_self fun k hk => ⟨inside_val (hP.channels C h o n f i v m l hf hb (channel_ok.2 hv) k hk), rfl⟩⟩

theorem inside_rel {env : Env} (he : ∀ x ∈ env, Inside b cs x) : RelEnv (partNames b cs) env env := by
  refine forall2_self fun x hx => ?_
  cases he x hx with
  | inst C h m => exact ⟨rfl, m, rfl⟩
  | con C h m => exact ⟨C, m, rfl⟩
  | obj C h o m l => exact ⟨⟨C, h, m, l⟩, rfl⟩
  | state C h o n f i m l hf hb => exact ⟨rfl, ⟨C, h, o, n, m, l, by simp [ContractTy.stateTypes, hf], hb⟩, rfl⟩
  | channel C h o n f i m l hf hb => exact ⟨rfl, ⟨C, h, o, n, m, l, by simp [ContractTy.channelTypes, hf], hb⟩, rfl⟩

theorem partNames_apart (hist : History kind evs b) {cs1 : List (ContractTy × Idx)} (hP : Part evs b cs) (hP1 : Part evs b cs1)
    (hd : ∀ (C D : ContractTy) (h : Idx), (C, h) ∈ cs → (D, h) ∉ cs1) : (partNames b cs).Disjoint (partNames b cs1) := by
  have hB := history_binv hist
  refine ⟨?_, ?_, ?_, ?_⟩
  · rintro C D i i' j ⟨m, rfl⟩ ⟨m1, rfl⟩; exact hd C D _ m m1
  · rintro i i' j ⟨⟨C, h, m, l⟩, rfl⟩ ⟨⟨D, k, m1, l1⟩, rfl⟩
    obtain ⟨cd, e, _⟩ := hP.registered C h m
    obtain ⟨cd1, e1, _⟩ := hP1.registered D k m1
    rw [objectsOf_eq e] at l
    rw [objectsOf_eq e1] at l1
    have hL := history_linv hist
    obtain ⟨C1, d⟩ := hL.made h _ cd (contractData_ok.1 e) l
    obtain ⟨C2, d1⟩ := hL.made k _ cd1 (contractData_ok.1 e1) l1
    exact hd C D h m ((hL.once _ _ _ _ _ d d1).2 ▸ m1)
  · rintro t i i' j ⟨⟨C, h, o, n, m, l, ht, g1⟩, rfl⟩ ⟨⟨D, k, o1, n1, m1, l1, ht1, g2⟩, rfl⟩
    obtain ⟨ob, hg, hc, hi⟩ := bindState_live g1
    obtain ⟨ob1, hg1, hc1, hi1⟩ := bindState_live g2
    obtain ⟨rfl, _⟩ := hB.o.aliasS o o1 n n1 t _ ⟨C, h, ob, (part_live hist hP m l hg).2.1, hg, ht, hi⟩ ⟨D, k, ob1, (part_live hist hP1 m1 l1 hg1).2.1, hg1, ht1, hi1⟩
    rw [hg] at hg1; cases hg1
    have e : h = k := hc.trans hc1.symm
    exact hd C D h m (e ▸ m1)
  · rintro t i i' j ⟨⟨C, h, o, n, m, l, ht, g1⟩, rfl⟩ ⟨⟨D, k, o1, n1, m1, l1, ht1, g2⟩, rfl⟩
    obtain ⟨ob, hg, hc, hi⟩ := bindChannel_live g1
    obtain ⟨ob1, hg1, hc1, hi1⟩ := bindChannel_live g2
    obtain ⟨rfl, _⟩ := hB.o.aliasC o o1 n n1 t _ ⟨C, h, ob, (part_live hist hP m l hg).2.1, hg, ht, hi⟩ ⟨D, k, ob1, (part_live hist hP1 m1 l1 hg1).2.1, hg1, ht1, hi1⟩
    rw [hg] at hg1; cases hg1
    have e : h = k := hc.trans hc1.symm
    exact hd C D h m (e ▸ m1)

/-- C113 for programs that begin with a baseline in use.  Each program has a part of the baseline (contracts whose objects mention nothing
outside) and variables of that part only, and no two parts have a contract in common.  Whatever calls the programs make, in any order, each
(unless it counts all objects) sees what it would see alone, as long as the contracts it registers are of its part or new, and no two
programs register the same. -/
theorem C113_separate_parts {ι : Type} [DecidableEq ι] (hist : History kind evs b) (cs : ι → List (ContractTy × Idx)) (hP : ∀ p : ι, Part evs b (cs p))
    (hpart : ∀ (p q : ι) (C D : ContractTy) (h : Idx), (C, h) ∈ cs p → (D, h) ∈ cs q → p = q) (env : ι → Env)
    (he : ∀ (p : ι) (x : Held), x ∈ env p → Inside b (cs p) x) (calls : List (ι × Instr))
    (hreg : ∀ (p : ι) (C : ContractTy), (p, Instr.register C) ∈ calls → OwnOrFree b (cs p) C.id)
    (hids : ∀ (p q : ι) (C D : ContractTy), (p, Instr.register C) ∈ calls → (q, Instr.register D) ∈ calls → C.id = D.id → p = q)
    (p : ι) (hcount : (p, Instr.countObjects) ∉ calls) (ords ords' : Nat → HashOrder) :
    ofProg p (runShared calls ords (fun q => some (env q)) b) = (runProg (ofProg p calls) ords' (env p) b).1 := by
  refine shared_run (own := fun q id => OwnOrFree b (cs q) id ∧ ((∃ e ∈ cs q, e.1.id = id) ∨ ∃ C, (q, Instr.register C) ∈ calls ∧ C.id = id))
    (own_apart hist (fun q => (hP q).registered) hpart hids) p calls
    (fun q C hq => ⟨hreg q C hq, .inr ⟨C, hq, rfl⟩⟩) hcount (N := fun q => partNames b (cs q)) (E := env) (B := fun _ => b)
    (env := fun q => some (env q)) ⟨?_, ?_⟩ (env p) rfl ords ords'
  · intro q e he1
    cases he1
    exact ⟨(part_self hist (hP q)).restrict fun id h => h.1, inside_rel (he q)⟩
  · intro q r e e' _ _ hne
    exact partNames_apart hist (hP q) (hP r) fun C D h m m1 => hne (hpart q r C D h m m1)

end

/-! ## A concrete case

As in C114, but one number has been removed, another one has a time warp. -/

def sepOps : List BOp := partOps ++ [.create numC h1 [.primitive (.u8 8#8)] [], .remove numC h1, .setWarp ⟨2, 0⟩ ⟨5#32, TimeScale.default⟩]
def sepB : Baseline := ((Baseline.new .main).runOps sepOps).2
def sepEvs : List Event := ((Baseline.new .main).runOps sepOps).1
theorem sep_history : History .main sepEvs sepB := runOps_trace _ _

theorem sep_creates (C : ContractTy) (h o : Idx) (hc : CreatedAs sepEvs C h o) : (h = h0 → C = tagC) ∧ (h = h1 → C = numC) := by
  obtain ⟨ss, cs, hm⟩ := hc
  have e : sepEvs = [(.register tagC, .ok (some h0)),
    (.create tagC h0 [.primitive (.string "a"), .primitive (.contractDataHandle h0)] [], .ok (some h0)), (.register numC, .ok (some h1)),
    (.create numC h1 [.primitive (.u8 7#8)] [], .ok (some h1)), (.create numC h1 [.primitive (.u8 8#8)] [], .ok (some ⟨2, 0⟩)),
    (.remove numC h1, .err "the given ObjectHandle doesn't exist in the arena"), (.setWarp ⟨2, 0⟩ ⟨5#32, TimeScale.default⟩, .ok none)] := by rfl
  have hne : h0 ≠ h1 := by decide
  have hne' : h1 ≠ h0 := by decide
  rw [e] at hm
  simp at hm
  rcases hm with ⟨⟨rfl, rfl, _⟩, _⟩ | ⟨⟨rfl, rfl, _⟩, _⟩ | ⟨⟨rfl, rfl, _⟩, _⟩
  · exact ⟨fun _ => rfl, fun z => absurd z hne⟩
  · exact ⟨fun z => absurd z hne', fun _ => rfl⟩
  · exact ⟨fun z => absurd z hne', fun _ => rfl⟩

theorem sep_parts (p : Bool) : Part sepEvs sepB (halves p) := by
  have ho0 : objectsOf sepB h0 = [h0] := by decide +kernel
  cases p
  · have hcs : ∀ (C : ContractTy) (h : Idx), (C, h) ∈ halves false → C = numC ∧ h = h1 := by intro C h hm; simpa [halves] using hm
    refine ⟨?_, ?_, by decide, ?_, ?_⟩
    · intro C h hm
      obtain ⟨rfl, rfl⟩ := hcs C h hm
      exact ⟨⟨numC.id, [⟨2, 0⟩, h1]⟩, by decide +kernel, rfl⟩
    · intro C C' h o hm hc
      obtain ⟨rfl, rfl⟩ := hcs C h hm
      exact (sep_creates C' _ o hc).2 rfl
    · intro C h o n f i v hm _ hf _ _
      obtain ⟨rfl, rfl⟩ := hcs C h hm
      have := List.mem_of_getElem? hf
      simp [numC] at this
      subst this; trivial
    · intro C h o n f i v hm _ hf _ _
      obtain ⟨rfl, rfl⟩ := hcs C h hm
      simp [numC] at hf
  · have hcs : ∀ (C : ContractTy) (h : Idx), (C, h) ∈ halves true → C = tagC ∧ h = h0 := by intro C h hm; simpa [halves] using hm
    refine ⟨?_, ?_, by decide, ?_, ?_⟩
    · intro C h hm
      obtain ⟨rfl, rfl⟩ := hcs C h hm
      exact ⟨⟨tagC.id, [h0]⟩, by decide +kernel, rfl⟩
    · intro C C' h o hm hc
      obtain ⟨rfl, rfl⟩ := hcs C h hm
      exact (sep_creates C' _ o hc).1 rfl
    · intro C h o n f i v hm ho hf hb hv
      obtain ⟨rfl, rfl⟩ := hcs C h hm
      rw [ho0] at ho
      have : o = h0 := by simpa using ho
      subst this
      match n, hf with
      | 0, hf => cases hf; trivial
      | 1, hf =>
        cases hf
        have e1 : sepB.bindState ⟨1, h0⟩ h0 = .ok h0 := by decide +kernel
        rw [e1] at hb; cases hb
        have e2 : sepB.state (.prim .contractDataHandle) h0 = .ok h0 := by rfl
        rw [e2] at hv; cases hv
        exact ⟨tagC, by simp [halves]⟩
      | n + 2, hf => simp [tagC] at hf
    · intro C h o n f i v hm _ hf _ _
      obtain ⟨rfl, rfl⟩ := hcs C h hm
      simp [tagC] at hf

def sepEnv (p : Bool) : Env := if p then [.state (.prim .string) h0, .con h0] else [.obj h1, .obj ⟨2, 0⟩, .con h1]

def sepCalls : List (Bool × Instr) :=
  [(true, .describe 1), (false, .warp 1), (false, .warp 0), (true, .readState 0), (false, .unregister numC 2), (true, .writeState 0 ⟨.prim .string, "b"⟩),
   (false, .describe 2), (true, .readState 0)]

/-- The conditions of the theorem are met, with an object that is gone and a panic on the way. -/
example (p : Bool) (ords ords' : Nat → HashOrder) :
    ofProg p (runShared sepCalls ords (fun q => some (sepEnv q)) sepB) = (runProg (ofProg p sepCalls) ords' (sepEnv p) sepB).1 := by
  refine C113_separate_parts sep_history halves sep_parts halves_apart sepEnv ?_ sepCalls ?_ ?_ p (by cases p <;> simp [sepCalls]) ords ords'
  · intro q x hx
    have ho0 : h0 ∈ objectsOf sepB h0 := by decide +kernel
    have ho1 : h1 ∈ objectsOf sepB h1 := by decide +kernel
    have ho2 : ⟨2, 0⟩ ∈ objectsOf sepB h1 := by decide +kernel
    cases q
    · simp [sepEnv] at hx
      rcases hx with rfl | rfl | rfl
      · exact .obj numC h1 _ (by simp [halves]) ho1
      · exact .obj numC h1 _ (by simp [halves]) ho2
      · exact .con numC h1 (by simp [halves])
    · simp [sepEnv] at hx
      rcases hx with rfl | rfl
      · exact .state tagC h0 h0 0 ⟨"label", .prim .string⟩ h0 (by simp [halves]) ho0 rfl (by decide +kernel)
      · exact .con tagC h0 (by simp [halves])
  · intro q C hC; simp [sepCalls] at hC
  · intro q r C D hC; simp [sepCalls] at hC

/-- What the two see. -/
example : ofProg true (runShared sepCalls (fun _ => .id) (fun q => some (sepEnv q)) sepB) =
      [.contract tagC.id 1, .value (.prim .string) "a", .result (.ok ()), .value (.prim .string) "b"] ∧
    ofProg false (runShared sepCalls (fun _ => .id) (fun q => some (sepEnv q)) sepB) =
      [.warp ⟨5#32, TimeScale.default⟩, .result (.err "the given handle doesn't exist in the arena"), .result (.panic "failed to remove object")] := by
  constructor <;> rfl

end Verif.Props
