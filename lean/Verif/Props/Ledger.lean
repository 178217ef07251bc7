import Mathlib.Tactic.Linarith
import Mathlib.Data.List.Perm.Subperm
import Verif.Proofs.Ledger
import Verif.Props.Baseline
/-!
# C94 (baselines), C98: the storage of a baseline

How many slots, entries and generations the arenas of a baseline use over a history of calls.
-/
namespace Verif.Props
open Verif Verif.Arena Verif.Baseline Verif.Ledger

/-! ## Specification -/

/-- The number of states of type `t` that the successful `object_create` calls of a history were given. -/
def statesCreated (t : PropType) : List Event → Nat
  | [] => 0
  | (.create _ _ ss _, .ok _) :: evs => (ss.map DynProp.propType).count t + statesCreated t evs
  | _ :: evs => statesCreated t evs

/-- The number of channels of type `t` that the successful `object_create` calls of a history were given. -/
def channelsCreated (t : PropType) : List Event → Nat
  | [] => 0
  | (.create _ _ _ cs, .ok _) :: evs => (cs.map Sigma.fst).count t + channelsCreated t evs
  | _ :: evs => channelsCreated t evs

/-- After every prefix of the calls `ops` on a fresh baseline at most `P` objects are alive. -/
def AtMostAlive (kind : Kind) (ops : List BOp) (P : Nat) : Prop :=
  ∀ k : Nat, ((Baseline.new kind).runOps (ops.take k)).2.iterObjects.length ≤ P

/-- After every prefix of the calls `ops` on a fresh baseline at most `P` contracts are registered. -/
def AtMostRegistered (kind : Kind) (ops : List BOp) (P : Nat) : Prop :=
  ∀ (k : Nat) (hs : List Idx), hs.Nodup → (∀ h ∈ hs, (((Baseline.new kind).runOps (ops.take k)).2.contractData h).isOk = true) →
    hs.length ≤ P

/-! ## Proofs -/

theorem step_states {evs : List Event} {b : Baseline} (hb : BInv evs b) (op : BOp) :
    Adds b.states (b.step op).1.states (fun t => statesCreated t [(op, (b.step op).2)]) ∧
    Adds b.channels (b.step op).1.channels (fun t => channelsCreated t [(op, (b.step op).2)]) := by
  cases op with
  | register C =>
    rcases registerContract_cases b C with ⟨_, hr⟩ | ⟨_, hr⟩ <;> simp only [Baseline.step, hr] <;> exact ⟨.refl _, .refl _⟩
  | unregister C k ord =>
    have hfst : (b.step (.unregister C k ord)).1 = (b.unregisterContract C k ord).1 := rfl
    rw [hfst]
    rcases unregister_cases b C k ord with ⟨h1, _⟩ | ⟨cd, cons, done, _, _, _, _, ⟨_, h5⟩ | ⟨h5, _⟩⟩
    · rw [h1]; exact ⟨.refl _, .refl _⟩
    · rw [h5]; exact ⟨.refl _, .refl _⟩
    · rw [h5]; exact ⟨.refl _, .refl _⟩
  | create C k ss cs =>
    rcases objectCreate_cases b C k ss cs with ⟨⟨cd, h1⟩, h2, h3⟩ | ⟨h1, h2, _⟩
    · obtain ⟨cons, _, h4⟩ := objectCreate_ok h1 h2 h3
      have hA := adds_createAll hb.o.sInv (ss.map DynProp.typed)
      have hB := adds_createAll hb.o.cInv cs
      rw [typed_map_fst] at hA
      simp only [Baseline.step, h4]
      exact ⟨hA, hB⟩
    · have e : ∀ t : PropType, statesCreated t [(BOp.create C k ss cs, (b.step (.create C k ss cs)).2)] = 0 ∧
          channelsCreated t [(BOp.create C k ss cs, (b.step (.create C k ss cs)).2)] = 0 := by
        intro t
        simp only [Baseline.step]
        cases hr : (b.objectCreate C k ss cs).2 with
        | ok v => rw [hr] at h2; cases h2
        | err m => exact ⟨rfl, rfl⟩
        | panic m => exact ⟨rfl, rfl⟩
      have hfst : (b.step (.create C k ss cs)).1 = b := h1
      rw [hfst]
      simp only [e]
      exact ⟨.refl _, .refl _⟩
  | remove C o =>
    have hfst : (b.step (.remove C o)).1 = (b.objectRemove C o).1 := rfl
    rw [hfst, objectRemove_fst]; exact ⟨.refl _, .refl _⟩
  | writeState t h v =>
    simp only [Baseline.step, stateWrite]
    cases hw : b.states.write t h v with
    | none => exact ⟨.refl _, .refl _⟩
    | some s' => exact ⟨adds_write hw, .refl _⟩
  | writeChannel t h v =>
    simp only [Baseline.step, channelWrite]
    cases hw : b.channels.write t h v with
    | none => exact ⟨.refl _, .refl _⟩
    | some s' => exact ⟨.refl _, adds_write hw⟩
  | setWarp o w =>
    simp only [Baseline.step, Baseline.setWarp]
    cases b.objects.modify o (fun ob => { ob with warp := w }) <;> exact ⟨.refl _, .refl _⟩

theorem statesCreated_cons (t : PropType) (e : Event) (evs : List Event) :
    statesCreated t (e :: evs) = statesCreated t [e] + statesCreated t evs := by
  obtain ⟨op, r⟩ := e
  cases op <;> cases r <;> simp [statesCreated]

theorem channelsCreated_cons (t : PropType) (e : Event) (evs : List Event) :
    channelsCreated t (e :: evs) = channelsCreated t [e] + channelsCreated t evs := by
  obtain ⟨op, r⟩ := e
  cases op <;> cases r <;> simp [channelsCreated]

theorem trace_states {P evs : List Event} {b b' : Baseline} (hb : BInv P b) (ht : Trace b evs b') :
    Adds b.states b'.states (fun t => statesCreated t evs) ∧ Adds b.channels b'.channels (fun t => channelsCreated t evs) := by
  induction ht generalizing P with
  | nil b => exact ⟨.refl _, .refl _⟩
  | cons b op evs b' _ ih =>
    obtain ⟨h1, h2⟩ := step_states hb op
    obtain ⟨h3, h4⟩ := ih (step_binv hb op)
    refine ⟨⟨fun t => ?_, fun t => ?_⟩, ⟨fun t => ?_, fun t => ?_⟩⟩
    · have e := statesCreated_cons t (op, (b.step op).2) evs
      rw [h3.len, h1.len]; omega
    · rw [h3.gen, h1.gen]
    · have e := channelsCreated_cons t (op, (b.step op).2) evs
      rw [h4.len, h2.len]; omega
    · rw [h4.gen, h2.gen]

theorem trace_sums {P evs : List Event} {b b' : Baseline} (hb : BInv P b) (ht : Trace b evs b') :
    b'.objects.generation + b'.objects.len ≤ b.objects.generation + b.objects.len + evs.length ∧
    b'.contracts.generation + b'.contracts.len ≤ b.contracts.generation + b.contracts.len + evs.length := by
  induction ht generalizing P with
  | nil b => exact ⟨Nat.le_refl _, Nat.le_refl _⟩
  | cons b op evs b' _ ih =>
    obtain ⟨h3, h4⟩ := ih (step_binv hb op)
    have h1 := grow_sum hb.o.inv (step_objects hb op)
    have h2 := grow_sum hb.c.inv (step_contracts hb op)
    simp only [List.length_cons]
    exact ⟨by omega, by omega⟩

/-- **C94 for baselines.** After any history of `n` calls no arena of the baseline has counted more than `n` generations, and every
handle that resolves has a generation of at most `n`; the arenas of states and channels have not counted any.  So in a history of fewer
than 2^64 calls no `u64` counter of a baseline overflows, and what C06-C23 say of a baseline holds with 64-bit counters. -/
theorem C94_baseline_generations {kind : Kind} {evs : List Event} {b : Baseline} (hist : History kind evs b) :
    (b.objects.generation ≤ evs.length ∧ ∀ o : Idx, (b.object o).isOk = true → o.gen ≤ evs.length) ∧
    (b.contracts.generation ≤ evs.length ∧ ∀ h : Idx, (b.contractData h).isOk = true → h.gen ≤ evs.length) ∧
    (∀ (t : PropType) (a : Arena t.Carrier), b.states t = some a → a.generation = 0) ∧
    (∀ (t : PropType) (i : Idx), (b.state t i).isOk = true → i.gen = 0) ∧
    (∀ (t : PropType) (a : Arena t.Chan), b.channels t = some a → a.generation = 0) ∧
    (∀ (t : PropType) (i : Idx), (b.channel t i).isOk = true → i.gen = 0) := by
  have hb := history_binv hist
  obtain ⟨h1, h2⟩ := trace_sums (new_binv kind) hist
  obtain ⟨h3, h4⟩ := trace_states (new_binv kind) hist
  have z1 : (Baseline.new kind).objects.generation + (Baseline.new kind).objects.len = 0 := rfl
  have z2 : (Baseline.new kind).contracts.generation + (Baseline.new kind).contracts.len = 0 := rfl
  have g3 : ∀ t : PropType, (b.states.arenaOf t).generation = 0 := fun t => (h3.gen t).trans rfl
  have g4 : ∀ t : PropType, (b.channels.arenaOf t).generation = 0 := fun t => (h4.gen t).trans rfl
  have og : b.objects.generation ≤ evs.length := by omega
  have cg : b.contracts.generation ≤ evs.length := by omega
  refine ⟨⟨og, fun o ho => ?_⟩, ⟨cg, fun h hh => ?_⟩, fun t a ha => ?_, fun t i hi => ?_, fun t a ha => ?_, fun t i hi => ?_⟩
  · unfold Baseline.object at ho
    cases hx : b.objects.get o with
    | none => rw [hx] at ho; cases ho
    | some ob => exact Nat.le_trans (get_gen_le hb.o.inv hx) og
  · unfold Baseline.contractData at hh
    cases hx : b.contracts.get h with
    | none => rw [hx] at hh; cases hh
    | some ob => exact Nat.le_trans (get_gen_le hb.c.inv hx) cg
  · have := g3 t; simp only [Store.arenaOf, ha] at this; exact this
  · unfold Baseline.state at hi
    cases hx : b.states.get t i with
    | none => rw [hx] at hi; cases hi
    | some v =>
      rw [Store.get_eq] at hx
      have := get_gen_le (Store.arenaOf_inv hb.o.sInv t) hx
      rw [g3 t] at this; omega
  · have := g4 t; simp only [Store.arenaOf, ha] at this; exact this
  · unfold Baseline.channel at hi
    cases hx : b.channels.get t i with
    | none => rw [hx] at hi; cases hi
    | some v =>
      rw [Store.get_eq] at hx
      have := get_gen_le (Store.arenaOf_inv hb.o.cInv t) hx
      rw [g4 t] at this; omega

example : History .main demoEvs demoB ∧ (demoB.object h0).isOk = true ∧ demoEvs.length < 2 ^ 64 :=
  ⟨demo_history, by decide +kernel, by decide +kernel⟩

/-! ## C98 -/

theorem runs_capacity (P Q : Nat) (ops : List BOp) (evs : List Event) (b : Baseline) (hb : BInv evs b)
    (h1 : b.objects.capacity ≤ max 4 (2 * P)) (h2 : b.contracts.capacity ≤ max 4 (2 * Q))
    (hP : ∀ k : Nat, (b.runOps (ops.take k)).2.iterObjects.length ≤ P)
    (hQ : ∀ k : Nat, (b.runOps (ops.take k)).2.contracts.len ≤ Q) :
    (b.runOps ops).2.objects.capacity ≤ max 4 (2 * P) ∧ (b.runOps ops).2.contracts.capacity ≤ max 4 (2 * Q) := by
  induction ops generalizing b evs with
  | nil => exact ⟨h1, h2⟩
  | cons op ops ih =>
    have hb' := step_binv hb op
    have p1 : (b.step op).1.iterObjects.length ≤ P := hP 1
    have q1 : (b.step op).1.contracts.len ≤ Q := hQ 1
    unfold Baseline.iterObjects at p1
    rw [iter_length hb'.o.inv] at p1
    exact ih _ _ hb' (grow_capacity hb.o.inv (step_objects hb op) P p1 h1) (grow_capacity hb.c.inv (step_contracts hb op) Q q1 h2)
      (fun k => hP (k + 1)) (fun k => hQ (k + 1))

theorem run_binv (kind : Kind) (ops : List BOp) : BInv ((Baseline.new kind).runOps ops).1 ((Baseline.new kind).runOps ops).2 :=
  history_binv (runOps_trace (Baseline.new kind) ops)

theorem handles_of {F : PropType → Type} {s : Store F} (hs : s.Inv) (t : PropType) :
    ∃ l : List Idx, l.Nodup ∧ l.length = (s.arenaOf t).len ∧ ∀ i : Idx, i ∈ l ↔ ∃ v, s.get t i = some v := by
  refine ⟨(s.arenaOf t).iter.map Prod.fst, iter_nodup _, ?_, fun i => ?_⟩
  · rw [List.length_map, iter_length (Store.arenaOf_inv hs t)]
  · rw [List.mem_map]
    constructor
    · rintro ⟨⟨j, v⟩, hm, rfl⟩
      exact ⟨v, by rw [Store.get_eq]; exact mem_iter.1 hm⟩
    · rintro ⟨v, hv⟩
      rw [Store.get_eq] at hv
      exact ⟨(i, v), mem_iter.2 hv, rfl⟩

/-- **C98, partial.** Over any history: the object arena never has more slots than twice the greatest number of objects alive at the same
time (at least 4), and likewise the contract arena.  States and channels are another matter: of each type there are, at the end,
exactly as many as the successful `object_create` calls were given, whether their objects are still alive or not; and the slots are at least that many.
Missing with respect to C98: states and channels are never given back. -/
theorem C98_storage_partial (kind : Kind) (ops : List BOp) :
    (∀ P : Nat, AtMostAlive kind ops P → ((Baseline.new kind).runOps ops).2.objects.capacity ≤ max 4 (2 * P)) ∧
    (∀ P : Nat, AtMostRegistered kind ops P → ((Baseline.new kind).runOps ops).2.contracts.capacity ≤ max 4 (2 * P)) ∧
    (∀ t : PropType, ∃ l : List Idx, l.Nodup ∧ l.length = statesCreated t ((Baseline.new kind).runOps ops).1 ∧
      (∀ i : Idx, i ∈ l ↔ (((Baseline.new kind).runOps ops).2.state t i).isOk = true) ∧
      ∀ a : Arena t.Carrier, ((Baseline.new kind).runOps ops).2.states t = some a → l.length ≤ a.capacity) ∧
    (∀ t : PropType, ∃ l : List Idx, l.Nodup ∧ l.length = channelsCreated t ((Baseline.new kind).runOps ops).1 ∧
      (∀ i : Idx, i ∈ l ↔ (((Baseline.new kind).runOps ops).2.channel t i).isOk = true) ∧
      ∀ a : Arena t.Chan, ((Baseline.new kind).runOps ops).2.channels t = some a → l.length ≤ a.capacity) := by
  have hb := run_binv kind ops
  have key := fun P Q => runs_capacity P Q ops [] (Baseline.new kind) (new_binv kind) (Nat.le_max_left 4 _) (Nat.le_max_left 4 _)
  have big : ∀ k : Nat, k ≤ ops.length → ((Baseline.new kind).runOps (ops.take k)).2.contracts.len ≤ ops.length ∧
      ((Baseline.new kind).runOps (ops.take k)).2.iterObjects.length ≤ ops.length := by
    intro k hk
    have hh := trace_sums (new_binv kind) (runOps_trace (Baseline.new kind) (ops.take k))
    have hl : ∀ (b : Baseline) (l : List BOp), (b.runOps l).1.length = l.length := by
      intro b l
      induction l generalizing b with
      | nil => rfl
      | cons op l ih => simp only [Baseline.runOps, List.length_cons, ih]
    have z1 : (Baseline.new kind).objects.generation + (Baseline.new kind).objects.len = 0 := rfl
    have z2 : (Baseline.new kind).contracts.generation + (Baseline.new kind).contracts.len = 0 := rfl
    rw [hl, List.length_take] at hh
    unfold Baseline.iterObjects
    rw [iter_length (run_binv kind (ops.take k)).o.inv]
    omega
  have big' : ∀ k : Nat, ((Baseline.new kind).runOps (ops.take k)).2.contracts.len ≤ ops.length ∧
      ((Baseline.new kind).runOps (ops.take k)).2.iterObjects.length ≤ ops.length := by
    intro k
    rcases Nat.le_total k ops.length with h | h
    · exact big k h
    · have e := big ops.length (Nat.le_refl _)
      rw [List.take_length] at e
      rw [List.take_of_length_le h]
      exact e
  obtain ⟨h3, h4⟩ := trace_states (new_binv kind) (runOps_trace (Baseline.new kind) ops)
  refine ⟨fun P hP => ?_, fun P hP => ?_, fun t => ?_, fun t => ?_⟩
  · exact (key P ops.length hP (fun k => (big' k).1)).1
  · refine (key ops.length P (fun k => (big' k).2) (fun k => ?_)).2
    have hi := (run_binv kind (ops.take k)).c.inv
    have := hP k ((((Baseline.new kind).runOps (ops.take k)).2.contracts.iter).map Prod.fst) (iter_nodup _) (by
      intro h hm
      obtain ⟨⟨j, cd⟩, hm', rfl⟩ := List.mem_map.1 hm
      have hg := mem_iter.1 hm'
      unfold Baseline.contractData
      rw [hg]; rfl)
    rwa [List.length_map, iter_length hi] at this
  · obtain ⟨l, n1, n2, n3⟩ := handles_of hb.o.sInv t
    refine ⟨l, n1, ?_, fun i => ?_, fun a ha => ?_⟩
    · rw [n2, h3.len t]
      exact Nat.zero_add _
    · rw [n3]
      unfold Baseline.state
      cases ((Baseline.new kind).runOps ops).2.states.get t i with
      | none => exact ⟨(fun ⟨v, h⟩ => by cases h), (fun h => by cases h)⟩
      | some v => exact ⟨fun _ => rfl, fun _ => ⟨v, rfl⟩⟩
    · have e : ((Baseline.new kind).runOps ops).2.states.arenaOf t = a := by simp only [Store.arenaOf, ha]
      rw [n2, e]
      exact count_le (hb.o.sInv t a ha)
  · obtain ⟨l, n1, n2, n3⟩ := handles_of hb.o.cInv t
    refine ⟨l, n1, ?_, fun i => ?_, fun a ha => ?_⟩
    · rw [n2, h4.len t]
      exact Nat.zero_add _
    · rw [n3]
      unfold Baseline.channel
      cases ((Baseline.new kind).runOps ops).2.channels.get t i with
      | none => exact ⟨(fun ⟨v, h⟩ => by cases h), (fun h => by cases h)⟩
      | some v => exact ⟨fun _ => rfl, fun _ => ⟨v, rfl⟩⟩
    · have e : ((Baseline.new kind).runOps ops).2.channels.arenaOf t = a := by simp only [Store.arenaOf, ha]
      rw [n2, e]
      exact count_le (hb.o.cInv t a ha)

/-- The contract of `C98_negation`: one state. -/
def byteC : ContractTy := ⟨⟨"byte", 1, 0, 0⟩, [⟨"n", .prim .u8⟩], []⟩

/-- Create an object and remove it, `n` times; the first object has handle `⟨0, g⟩`. -/
def spin : Nat → Nat → List BOp
  | _, 0 => []
  | g, n + 1 => .create byteC h0 [.primitive (.u8 7)] [] :: .remove byteC ⟨0, g⟩ :: spin (g + 1) n

/-- What `spin` keeps: contract `byteC` registered, no object alive, the first slot of objects free at generation `g`. -/
structure Spun (b : Baseline) (g : Nat) : Prop where
  reg : ∃ cd, b.contracts.get h0 = some cd
  gen : b.objects.generation = g
  slots : b.objects.slots = [.free (some 1), .free (some 2), .free (some 3), .free none]
  head : b.objects.head = some 0
  count : b.objects.count = 0

theorem spun_create {b : Baseline} {g : Nat} (h : Spun b g) : ∃ (ob : ObjectD) (cons : Arena ContractData),
    (b.step (.create byteC h0 [.primitive (.u8 7)] [])).2 = .ok (some ⟨0, g⟩) ∧
    (b.step (.create byteC h0 [.primitive (.u8 7)] [])).1.objects =
      ⟨[.occ g ob, .free (some 2), .free (some 3), .free none], g, some 1, 1⟩ ∧
    (b.step (.create byteC h0 [.primitive (.u8 7)] [])).1.contracts = cons ∧ ∃ cd, cons.get h0 = some cd := by
  obtain ⟨cd, hc⟩ := h.reg
  obtain ⟨cons, hm, he⟩ := objectCreate_ok (C := byteC) (ss := [.primitive (.u8 7)]) (cs := []) hc rfl rfl
  have ho : b.objects.insert (createdObj b h0 [.primitive (.u8 7)] []) =
      (⟨[.occ g (createdObj b h0 [.primitive (.u8 7)] []), .free (some 2), .free (some 3), .free none], g, some 1, 1⟩, ⟨0, g⟩) := by
    have hb : b.objects = ⟨[.free (some 1), .free (some 2), .free (some 3), .free none], g, some 0, 0⟩ := by
      have h1 := h.gen; have h2 := h.slots; have h3 := h.head; have h4 := h.count
      generalize b.objects = a at h1 h2 h3 h4 ⊢
      obtain ⟨slots, gen, head, count⟩ := a
      simp only at h1 h2 h3 h4
      subst h1 h2 h3 h4
      rfl
    rw [hb]
    rfl
  refine ⟨createdObj b h0 [.primitive (.u8 7)] [], cons, ?_, ?_, ?_, ?_⟩
  · simp only [Baseline.step, he, ho]; rfl
  · simp only [Baseline.step, he, ho]
  · simp only [Baseline.step, he]
  · rw [get_modify hm, hc]; exact ⟨_, rfl⟩

theorem spun_remove {b : Baseline} {g : Nat} {ob : ObjectD} (h1 : b.objects = ⟨[.occ g ob, .free (some 2), .free (some 3), .free none], g, some 1, 1⟩)
    (h2 : ∃ cd, b.contracts.get h0 = some cd) : Spun (b.step (.remove byteC ⟨0, g⟩)).1 (g + 1) := by
  have e : (b.step (.remove byteC ⟨0, g⟩)).1 = (b.objectRemove byteC ⟨0, g⟩).1 := rfl
  have hr : (removeList b.objects [(⟨0, g⟩ : Idx)]) = ⟨[.free (some 1), .free (some 2), .free (some 3), .free none], g + 1, some 0, 0⟩ := by
    rw [h1]
    simp [removeList, Arena.remove]
  rw [e, objectRemove_fst, hr]
  exact ⟨h2, rfl, rfl, rfl, rfl⟩

theorem spin_run (n : Nat) : ∀ (b : Baseline) (g : Nat), Spun b g →
    (∀ k : Nat, (b.runOps ((spin g n).take k)).2.iterObjects.length ≤ 1) ∧ statesCreated (.prim .u8) (b.runOps (spin g n)).1 = n := by
  induction n with
  | zero =>
    intro b g h
    refine ⟨fun k => ?_, rfl⟩
    simp only [spin, List.take_nil, Baseline.runOps, Baseline.iterObjects, Arena.iter, h.slots, entriesFrom, List.length_nil]
    exact Nat.zero_le _
  | succ n ih =>
    intro b g h
    obtain ⟨ob, cons, e1, e2, e3, e4⟩ := spun_create h
    have h' := spun_remove e2 (by rw [e3]; exact e4)
    obtain ⟨i1, i2⟩ := ih _ _ h'
    refine ⟨fun k => ?_, ?_⟩
    · match k with
      | 0 =>
        simp only [List.take_zero, Baseline.runOps, Baseline.iterObjects, Arena.iter, h.slots, entriesFrom, List.length_nil]
        exact Nat.zero_le _
      | 1 =>
        simp only [spin, List.take_succ_cons, List.take_zero, Baseline.runOps, Baseline.iterObjects, Arena.iter, e2, entriesFrom,
          List.length_cons, List.length_nil]
        exact Nat.le_refl _
      | k + 2 =>
        simp only [spin, List.take_succ_cons, Baseline.runOps]
        exact i1 k
    · simp only [spin, Baseline.runOps]
      rw [statesCreated_cons, statesCreated_cons _ (BOp.remove byteC ⟨0, g⟩, _), i2, e1]
      have z : ∀ r : BOut, statesCreated (.prim .u8) [(BOp.remove byteC ⟨0, g⟩, r)] = 0 := by intro r; cases r <;> rfl
      rw [z]
      have o : statesCreated (.prim .u8) [(BOp.create byteC h0 [.primitive (.u8 7)] [], Outcome.ok (some (⟨0, g⟩ : Idx)))] = 1 := by rfl
      rw [o]; omega

theorem spun_start (kind : Kind) : Spun ((Baseline.new kind).step (.register byteC)).1 0 := by
  refine ⟨⟨⟨byteC.id, []⟩, ?_⟩, ?_, ?_, ?_, ?_⟩ <;> cases kind <;> rfl

/-- **C98 is false of the code.** For every `n` there is a program that never has more than one object alive, whose object has a single
`u8` state, and that ends with `n` states stored: creating and removing an object over and over exhausts the memory. -/
theorem C98_negation (kind : Kind) (n : Nat) : ∃ ops : List BOp,
    AtMostAlive kind ops 1 ∧ ∃ l : List Idx, l.Nodup ∧ l.length = n ∧
      ∀ i ∈ l, (((Baseline.new kind).runOps ops).2.state (.prim .u8) i).isOk = true := by
  have hs := spun_start kind
  obtain ⟨h1, h2⟩ := spin_run n _ _ hs
  refine ⟨.register byteC :: spin 0 n, ?_, ?_⟩
  · intro k
    cases k with
    | zero => exact Nat.zero_le _
    | succ k =>
      simp only [List.take_succ_cons, Baseline.runOps]
      exact h1 k
  · obtain ⟨l, n1, n2, n3, _⟩ := (C98_storage_partial kind (.register byteC :: spin 0 n)).2.2.1 (.prim .u8)
    refine ⟨l, n1, ?_, fun i hi => (n3 i).1 hi⟩
    rw [n2]
    simp only [Baseline.runOps]
    rw [statesCreated_cons, h2]
    have z : ∀ r : BOut, statesCreated (.prim .u8) [(BOp.register byteC, r)] = 0 := by intro r; cases r <;> rfl
    rw [z, Nat.zero_add]

theorem atMostRegistered_of_len {kind : Kind} {ops : List BOp} {P : Nat}
    (h : ∀ k : Nat, ((Baseline.new kind).runOps (ops.take k)).2.contracts.iter.length ≤ P) : AtMostRegistered kind ops P := by
  intro k hs hn hok
  refine Nat.le_trans ?_ (h k)
  rw [← List.length_map (f := Prod.fst)]
  refine List.Subperm.length_le (List.subperm_of_subset hn fun x hx => ?_)
  have := hok x hx
  unfold Baseline.contractData at this
  cases hg : ((Baseline.new kind).runOps (ops.take k)).2.contracts.get x with
  | none => rw [hg] at this; cases this
  | some cd => exact List.mem_map.2 ⟨(x, cd), mem_iter.2 hg, rfl⟩

/-- Two contracts and an object that comes and goes: the hypotheses of `C98_storage_partial` are met. -/
def comeAndGo : List BOp := [.register byteC, .create byteC h0 [.primitive (.u8 1)] [], .remove byteC h0, .register emptyC]

example : AtMostRegistered .main comeAndGo 2 ∧ AtMostAlive .main comeAndGo 1 ∧
    statesCreated (.prim .u8) ((Baseline.new .main).runOps comeAndGo).1 = 1 ∧
    ((Baseline.new .main).runOps comeAndGo).2.iterObjects = [] := by
  have all : ∀ {p : List BOp → Prop}, p [] → p (comeAndGo.take 1) → p (comeAndGo.take 2) → p (comeAndGo.take 3) → p comeAndGo →
      ∀ k : Nat, p (comeAndGo.take k) := by
    intro p p0 p1 p2 p3 p4 k
    match k with
    | 0 => exact p0
    | 1 => exact p1
    | 2 => exact p2
    | 3 => exact p3
    | k + 4 => rw [List.take_of_length_le (Nat.le_add_left 4 k)]; exact p4
  refine ⟨atMostRegistered_of_len ?_, ?_, by decide +kernel, by decide +kernel⟩
  · exact all (p := fun l => ((Baseline.new .main).runOps l).2.contracts.iter.length ≤ 2)
      (by decide +kernel) (by decide +kernel) (by decide +kernel) (by decide +kernel) (by decide +kernel)
  · exact all (p := fun l => ((Baseline.new .main).runOps l).2.iterObjects.length ≤ 1)
      (by decide +kernel) (by decide +kernel) (by decide +kernel) (by decide +kernel) (by decide +kernel)

end Verif.Props
