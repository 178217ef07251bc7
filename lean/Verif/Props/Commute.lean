import Mathlib.Data.List.Perm.Basic
import Verif.Proofs.CommuteCalls
import Verif.Props.Transparent
/-!
# C112: the order of independent calls does not matter

Two calls of a program that register, create, overwrite or remove, and that do not collide (the same contract id, the same state, channel
or object), can be exchanged: each gets the same result in both orders, and no program can tell the two outcomes apart.
-/
namespace Verif.Props
open Verif Spec Arena Baseline Store

/-- What a program that has come this far holds corresponds to itself. -/
theorem reached_paired {kind : Kind} {is : List Instr} {ords : Nat → HashOrder} {ss : List Seen} {env : Env} {b : Baseline}
    (h : runProg is ords [] (Baseline.new kind) = (ss, some (env, b))) : ∃ N : Names, Paired N b b ∧ RelEnv N env env := by
  have := (run_agree is (self_sim kind) (.nil : RelEnv noNames [] []) ords ords).2
  rw [h] at this
  cases this with
  | some z => obtain ⟨N, _, hp, he⟩ := z; exact ⟨N, hp, he⟩

theorem exchange_append {env l l' : Env} (h : l.length ≤ 1) (h' : l'.length ≤ 1) : exchange env.length (env ++ l ++ l') = env ++ l' ++ l := by
  have rev : ∀ m : Env, m.length ≤ 1 → m.reverse = m := by
    intro m hm
    match m, hm with
    | [], _ => rfl
    | [x], _ => rfl
  unfold exchange
  rw [List.append_assoc, List.take_left' rfl, List.drop_left' rfl, List.reverse_append, rev l h, rev l' h', List.append_assoc]

theorem C112_independent_calls_commute {kind : Kind} {is : List Instr} {ords : Nat → HashOrder} {ss : List Seen} {env : Env} {b : Baseline}
    (hrun : runProg is ords [] (Baseline.new kind) = (ss, some (env, b))) (i j : Instr) (hi : i.updates) (hj : j.updates)
    (o1 o2 o3 o4 : HashOrder) (hi' : (i.step o1 env b).1 ≠ .stuck) (hj' : (j.step o3 env b).1 ≠ .stuck) (hc : ¬ Collide env i j) :
    ∃ (s t : Seen) (e1 e2 f1 f2 : Env) (b1 b2 d1 d2 : Baseline),
      i.step o1 env b = (s, e1, b1) ∧ j.step o2 e1 b1 = (t, e2, b2) ∧
      j.step o3 env b = (t, f1, d1) ∧ i.step o4 f1 d1 = (s, f2, d2) ∧
      s.isPanic = false ∧ t.isPanic = false ∧ Indistinguishable e2 b2 (exchange env.length f2) d2 := by
  obtain ⟨N, hb, he⟩ := reached_paired hrun
  obtain ⟨f, hf⟩ := step_is hi hi'
  obtain ⟨g, hg⟩ := step_is hj hj'
  -- a result, in terms of the variables it adds
  have shape : ∀ (c : Baseline) (a : Act), ∃ (s : Seen) (l : Env), l.length ≤ 1 ∧ s.isPanic = false ∧ ∀ e : Env, seenOf (a.run c).2 e = (s, e ++ l) := by
    intro c a
    rcases act_result c a with ⟨m, hm⟩ | ⟨l, hl, hlen⟩
    · exact ⟨.result (.err m), [], Nat.zero_le _, rfl, fun e => by rw [hm]; simp [seenOf]⟩
    · exact ⟨.result (.ok ()), l, hlen, rfl, fun e => by rw [hl]; rfl⟩
  have step0 : ∀ {x : Instr} {a : Act}, Is env x a → ∀ (o : HashOrder) (l : Env) (c : Baseline) (s : Seen) (m : Env), (∀ e : Env, seenOf (a.run c).2 e = (s, e ++ m)) →
      x.step o (env ++ l) c = (s, env ++ l ++ m, (a.run c).1) := by
    intro x a hx o l c s m hm
    rw [is_step hx, hm]
  rcases swappable hb he hf hg hc with ⟨c1, c2, c3⟩ | ⟨N', le, hp, r1, r2⟩
  · obtain ⟨s, l, hl, hs, hS⟩ := shape b f
    obtain ⟨t, m, hm, ht, hT⟩ := shape b g
    have a1 := step0 hf o1 [] b s l hS
    have a2 := step0 hg o2 l (f.run b).1 t m (by rw [c1]; exact hT)
    have a3 := step0 hg o3 [] b t m hT
    have a4 := step0 hf o4 m (g.run b).1 s l (by rw [c2]; exact hS)
    rw [List.append_nil] at a1 a3
    refine ⟨s, t, env ++ l, env ++ l ++ m, env ++ m, env ++ m ++ l, _, _, _, _, a1, a2, a3, a4, hs, ht, ?_⟩
    rw [exchange_append hm hl, ← c3]
    obtain ⟨_, g1⟩ := step_agree hb he o1 o1 i
    rw [a1] at g1
    obtain ⟨N1, _, hb1, he1⟩ := g1 hs
    obtain ⟨_, g2⟩ := step_agree hb1 he1 o2 o2 j
    rw [a2] at g2
    obtain ⟨N2, _, hb2, he2⟩ := g2 ht
    exact sim_indistinguishable hb2 he2
  · have len : ∀ (c : Baseline) (a : Act) (l : List Held), (a.run c).2 = .ok l → l.length ≤ 1 := by
      intro c a l h
      rcases act_result c a with ⟨m, hm⟩ | ⟨l', hl, hlen⟩
      · rw [hm] at h; cases h
      · rw [hl] at h; cases h; exact hlen
    have out : ∀ (c c' : Baseline) (a : Act), OutRel N' (a.run c).2 (a.run c').2 → ∃ (s : Seen) (l l' : Env), s.isPanic = false ∧ l.length ≤ 1 ∧ l'.length ≤ 1 ∧
        List.Forall₂ (RelHeld N') l l' ∧ (∀ e : Env, seenOf (a.run c).2 e = (s, e ++ l)) ∧ ∀ e : Env, seenOf (a.run c').2 e = (s, e ++ l') := by
      intro c c' a h
      rcases h with ⟨m, h1, h2⟩ | ⟨l, l', h1, h2, h3⟩
      · exact ⟨.result (.err m), [], [], rfl, Nat.zero_le _, Nat.zero_le _, .nil, fun e => by rw [h1]; simp [seenOf], fun e => by rw [h2]; simp [seenOf]⟩
      · exact ⟨.result (.ok ()), l, l', rfl, len c a l h1, len c' a l' h2, h3, fun e => by rw [h1]; rfl, fun e => by rw [h2]; rfl⟩
    obtain ⟨s, l, l', hs, k1, k2, k3, k4, k5⟩ := out _ _ f r1
    obtain ⟨t, m, m', ht, n1, n2, n3, n4, n5⟩ := out _ _ g r2
    have a1 := step0 hf o1 [] b s l k4
    have a2 := step0 hg o2 l (f.run b).1 t m n4
    have a3 := step0 hg o3 [] b t m' n5
    have a4 := step0 hf o4 m' (g.run b).1 s l' k5
    rw [List.append_nil] at a1 a3
    refine ⟨s, t, env ++ l, env ++ l ++ m, env ++ m', env ++ m' ++ l', _, _, _, _, a1, a2, a3, a4, hs, ht, ?_⟩
    rw [exchange_append n2 k2]
    have app : ∀ {a a' c c' : Env}, RelEnv N' a a' → RelEnv N' c c' → RelEnv N' (a ++ c) (a' ++ c') := by
      intro a a' c c' h1 h2
      induction h1 with
      | nil => exact h2
      | cons z _ ih => exact .cons z ih
    exact sim_indistinguishable hp (app (app (he.mono le) k3) n3)

/-- Overwriting calls that do not collide, any number of them: in every order each gets the result it would get alone, and the
baseline at the end is the same. -/
theorem C112_overwrites_in_any_order (env : Env) (b : Baseline) {l l' : List Instr} (hp : l.Perm l') (ho : ∀ i ∈ l, i.overwrites)
    (hs : ∀ i ∈ l, (i.step .id env b).1 ≠ .stuck) (hc : l.Pairwise fun i j => ¬ Collide env i j) (ords ords' : Nat → HashOrder) :
    ∃ b' : Baseline, runProg l ords env b = (l.map fun i => (i.step .id env b).1, some (env, b')) ∧
      runProg l' ords' env b = (l'.map fun i => (i.step .id env b).1, some (env, b')) := by
  -- each call has evaluated arguments
  have acts : ∀ i : Instr, i.overwrites → (i.step .id env b).1 ≠ .stuck → ∃ a, Is env i a := fun i h1 h2 => by
    refine step_is ?_ h2
    cases i <;> first | trivial | exact h1.elim
  let tr (c : Baseline) (i : Instr) : Baseline := (i.step .id env c).2.2
  have one : ∀ {i : Instr} {a : Act}, i.overwrites → Is env i a → ∀ (o : HashOrder) (c : Baseline),
      i.step o env c = ((i.step .id env c).1, env, tr c i) ∧ (i.step .id env c).1.isPanic = false ∧ (i.step .id env c).1 = (seenOf (a.run c).2 env).1 ∧ tr c i = (a.run c).1 := by
    intro i a h1 ha o c
    have e := fun o => is_step ha o [] c
    simp only [List.append_nil] at e
    have henv : (seenOf (a.run c).2 env).2 = env ∧ (seenOf (a.run c).2 env).1.isPanic = false := by
      cases ha with
      | register C => exact h1.elim
      | create k ss cs C h ss' cs' _ _ _ => exact h1.elim
      | ws k t s x v _ _ => rcases run_ws c t x v with ⟨_, e⟩ | ⟨_, _, e⟩ <;> rw [e] <;> simp [seenOf, Seen.isPanic, Outcome.isPanic]
      | wc k t s x v _ _ => rcases run_wc c t x v with ⟨_, e⟩ | ⟨_, _, e⟩ <;> rw [e] <;> simp [seenOf, Seen.isPanic, Outcome.isPanic]
      | sw k x w _ => rcases run_sw c x w with ⟨_, e⟩ | ⟨_, _, e⟩ <;> rw [e] <;> simp [seenOf, Seen.isPanic, Outcome.isPanic]
      | rm C k o _ => exact h1.elim
    refine ⟨?_, ?_, ?_, ?_⟩
    · show _ = (_, env, (i.step .id env c).2.2)
      rw [e o, e .id, henv.1]
    · rw [e .id]; exact henv.2
    · rw [e .id]
    · show (i.step .id env c).2.2 = _
      rw [e .id]
  have comm : ∀ {i j : Instr} {f g : Act}, i.overwrites → j.overwrites → Is env i f → Is env j g → ¬ Collide env i j → ∀ c : Baseline, Commute c f g := by
    intro i j f g h1 h2 hf hg hn c
    cases hf with
    | register C => exact h1.elim
    | create k ss cs C h ss' cs' _ _ _ => exact h1.elim
    | ws k t s x v z1 _ =>
      cases hg with
      | register D => exact h2.elim
      | create k' rs ds' C' h' rs' ds'' _ _ _ => exact h2.elim
      | ws k' t' s' x' v' g1 _ => exact ws_ws c v v' fun ⟨e1, e2⟩ => hn ⟨t, x, z1, by subst e1; subst e2; exact g1⟩
      | wc k' t' s' x' v' _ _ => exact ws_wc c v v'
      | sw k' o w _ => exact ws_sw c v w
      | rm D k' o _ => exact h2.elim
    | wc k t s x v z1 _ =>
      cases hg with
      | register D => exact h2.elim
      | create k' rs ds' C' h' rs' ds'' _ _ _ => exact h2.elim
      | ws k' t' s' x' v' _ _ => exact (ws_wc c v' v).symm
      | wc k' t' s' x' v' g1 _ => exact wc_wc c v v' fun ⟨e1, e2⟩ => hn ⟨t, x, z1, by subst e1; subst e2; exact g1⟩
      | sw k' o w _ => exact wc_sw c v w
      | rm D k' o _ => exact h2.elim
    | sw k o w z1 =>
      cases hg with
      | register D => exact h2.elim
      | create k' rs ds' C' h' rs' ds'' _ _ _ => exact h2.elim
      | ws k' t' s' x' v' _ _ => exact (ws_sw c v' w).symm
      | wc k' t' s' x' v' _ _ => exact (wc_sw c v' w).symm
      | sw k' o' w' g1 => exact sw_sw c w w' fun e => hn ⟨o, z1, by rw [e]; exact g1⟩
      | rm D k' o' _ => exact h2.elim
    | rm C k o _ => exact h1.elim
  -- one order
  have run : ∀ (m : List Instr) (ords : Nat → HashOrder) (c : Baseline), (∀ i ∈ m, i.overwrites ∧ ∃ a, Is env i a) → (m.Pairwise fun i j => ¬ Collide env i j) →
      runProg m ords env c = (m.map fun i => (i.step .id env c).1, some (env, m.foldl tr c)) := by
    intro m
    induction m with
    | nil => intro ords c _ _; rfl
    | cons i m ih =>
      intro ords c hm hpw
      obtain ⟨h1, f, hf⟩ := hm i (List.mem_cons_self ..)
      obtain ⟨p1, p2⟩ := List.pairwise_cons.1 hpw
      obtain ⟨e1, e2, _, e4⟩ := one h1 hf (ords 0) c
      simp only [runProg, e1, e2, Bool.false_eq_true, if_false]
      rw [ih _ _ (fun j hj => hm j (List.mem_cons_of_mem _ hj)) p2]
      have : (m.map fun j => (j.step .id env (tr c i)).1) = m.map fun j => (j.step .id env c).1 := by
        refine List.map_congr_left fun j hj => ?_
        obtain ⟨h2, g, hg⟩ := hm j (List.mem_cons_of_mem _ hj)
        rw [(one h2 hg .id (tr c i)).2.2.1, (one h2 hg .id c).2.2.1, e4, (comm h1 h2 hf hg (p1 j hj) c).1]
      rw [this]; rfl
  have symm : ∀ i ∈ l, ∀ j ∈ l, i ≠ j → ∀ c : Baseline, tr (tr c i) j = tr (tr c j) i := by
    intro i hi j hj hne c
    obtain ⟨f, hf⟩ := acts i (ho i hi) (hs i hi)
    obtain ⟨g, hg⟩ := acts j (ho j hj) (hs j hj)
    have cm : Commute c f g := by
      rcases List.pairwise_iff_getElem.1 hc with hcc
      obtain ⟨n, hn, rfl⟩ := List.getElem_of_mem hi
      obtain ⟨k, hk, rfl⟩ := List.getElem_of_mem hj
      rcases Nat.lt_trichotomy n k with h | h | h
      · exact comm (ho _ hi) (ho _ hj) hf hg (hcc n k hn hk h) c
      · subst h; exact absurd rfl hne
      · exact (comm (ho _ hj) (ho _ hi) hg hf (hcc k n hk hn h) c).symm
    rw [(one (ho j hj) hg .id (tr c i)).2.2.2, (one (ho i hi) hf .id c).2.2.2, (one (ho i hi) hf .id (tr c j)).2.2.2, (one (ho j hj) hg .id c).2.2.2]
    exact cm.2.2
  have flip : ∀ i j : Instr, ¬ Collide env i j → ¬ Collide env j i := by
    intro i j h h'
    refine h ?_
    cases i <;> cases j <;> first | exact h'.elim | exact h'.symm | exact (let ⟨t, x, z1, z2⟩ := h'; ⟨t, x, z2, z1⟩) | exact (let ⟨t, z1, z2⟩ := h'; ⟨t, z2, z1⟩)
  have fold : l.foldl tr b = l'.foldl tr b := hp.foldl_eq' (fun i hi j hj c => by
    by_cases e : i = j
    · subst e; rfl
    · exact symm i hi j hj e c) b
  refine ⟨l.foldl tr b, run l ords b (fun i hi => ⟨ho i hi, acts i (ho i hi) (hs i hi)⟩) hc, ?_⟩
  rw [fold]
  exact run l' ords' b (fun i hi => ⟨ho i (hp.mem_iff.2 hi), acts i (ho i (hp.mem_iff.2 hi)) (hs i (hp.mem_iff.2 hi))⟩)
    (hp.pairwise hc (fun {x y} => flip x y))

/-- The condition is needed: of two registrations with the same id the first succeeds and the second fails, in either order. -/
theorem C112_collision_register {kind : Kind} {evs : List Event} {b : Baseline} (hh : History kind evs b) (env : Env) (C D : ContractTy) (o1 o2 : HashOrder) (hid : C.id = D.id)
    (hfree : ∀ (h : Idx) (cd : ContractData), b.contractData h = .ok cd → cd.id ≠ C.id) :
    ∃ (e1 e2 : Env) (b1 b2 : Baseline) (m : String), (Instr.register C).step o1 env b = (.result (.ok ()), e1, b1) ∧
      (Instr.register D).step o2 e1 b1 = (.result (.err m), e2, b2) := by
  rcases registerContract_cases b C with ⟨⟨h, cd, hg, e⟩, _⟩ | ⟨_, e1⟩
  · exact absurd e (hfree h cd (contractData_ok.2 hg))
  · rcases registerContract_cases { b with contracts := (b.contracts.insert ⟨C.id, []⟩).1 } D with ⟨_, e2⟩ | ⟨hno, _⟩
    · refine ⟨env ++ [.inst C (b.contracts.insert ⟨C.id, []⟩).2], env ++ [.inst C (b.contracts.insert ⟨C.id, []⟩).2],
        { b with contracts := (b.contracts.insert ⟨C.id, []⟩).1 }, { b with contracts := (b.contracts.insert ⟨C.id, []⟩).1 }, "contract already added", ?_, ?_⟩
      · simp only [Instr.step, e1, returned]
      · simp only [Instr.step, e2, returned]
    · exact absurd hid (hno _ _ (get_insert_self (history_binv hh).c.inv _))

/-- The condition is needed: of two successful writes to the same state the last one counts, so if the values differ a read tells the
orders apart. -/
theorem C112_collision_write (b : Baseline) (t : PropType) (i : Idx) (v w : t.Carrier) (hne : v ≠ w)
    (hlive : ∃ x, b.state t i = .ok x) :
    ((b.stateWrite t i v).1.stateWrite t i w).1.state t i ≠ ((b.stateWrite t i w).1.stateWrite t i v).1.state t i := by
  obtain ⟨x, hx⟩ := hlive
  have hx := state_ok.1 hx
  have key : ∀ (c : Baseline) (x y : t.Carrier), c.states.get t i = some x → (c.stateWrite t i y).1.states.get t i = some y := by
    intro c x y hg
    unfold stateWrite
    cases hw : c.states.write t i y with
    | none => rw [write_eq_none.1 hw] at hg; cases hg
    | some s => exact get_write_self hw
  rw [state_ok.2 (key _ v w (key b x v hx)), state_ok.2 (key _ w v (key b x w hx))]
  intro e
  cases e
  exact hne rfl

/-- The condition is needed: a time warp can be set before the object is removed, not after. -/
theorem C112_collision_remove (b : Baseline) (C : ContractTy) (o : Idx) (w : TimeWarp) (hlive : ∃ ob, b.object o = .ok ob) :
    (b.setWarp o w).2 = .ok () ∧ ∃ m, ((b.objectRemove C o).1.setWarp o w).2 = .err m := by
  obtain ⟨ob, ho⟩ := hlive
  have ho := object_ok.1 ho
  constructor
  · unfold setWarp
    cases hm : b.objects.modify o (fun ob => { ob with warp := w }) with
    | none => rw [modify_eq_none.1 hm] at ho; cases ho
    | some s => rfl
  · refine ⟨"the given handle doesn't exist in the arena", ?_⟩
    have : (b.objectRemove C o).1.objects.get o = none := by
      rw [objectRemove_fst]; show (removeList b.objects [o]).get o = none
      rw [get_removeList, if_pos (List.mem_singleton.2 rfl)]
    unfold setWarp
    rw [modify_eq_none.2 this]

/-! ## Concrete cases -/

/-- Two tags made in either order after the program `tagProg`. -/
example : ∃ (s t : Seen) (e1 e2 f1 f2 : Env) (b1 b2 d1 d2 : Baseline),
      (Instr.create 0 [⟨.prim .string, "x"⟩, ⟨.prim .contractDataHandle, (1 : Nat)⟩] []).step .id [.inst tagC h0, .con h0, .obj h0, .state (.prim .string) h0,
      .state (.prim .contractDataHandle) h0] tagB = (s, e1, b1) ∧ (Instr.create 0 [⟨.prim .string, "y"⟩, ⟨.prim .contractDataHandle, (1 : Nat)⟩] []).step .id e1 b1 = (t, e2, b2) ∧
      (Instr.create 0 [⟨.prim .string, "y"⟩, ⟨.prim .contractDataHandle, (1 : Nat)⟩] []).step .id [.inst tagC h0, .con h0, .obj h0, .state (.prim .string) h0,
      .state (.prim .contractDataHandle) h0] tagB = (t, f1, d1) ∧
      (Instr.create 0 [⟨.prim .string, "x"⟩, ⟨.prim .contractDataHandle, (1 : Nat)⟩] []).step .id f1 d1 = (s, f2, d2) ∧
      s.isPanic = false ∧ t.isPanic = false ∧ Indistinguishable e2 b2 (exchange 5 f2) d2 :=
  C112_independent_calls_commute (tag_run fun _ => .id) (.create 0 [⟨.prim .string, "x"⟩, ⟨.prim .contractDataHandle, (1 : Nat)⟩] [])
    (.create 0 [⟨.prim .string, "y"⟩, ⟨.prim .contractDataHandle, (1 : Nat)⟩] []) trivial trivial _ _ _ _
    (by
      have h : ((Instr.create 0 [⟨.prim .string, "x"⟩, ⟨.prim .contractDataHandle, (1 : Nat)⟩] []).step .id [.inst tagC h0, .con h0, .obj h0, .state (.prim .string) h0,
        .state (.prim .contractDataHandle) h0] tagB).1 = .result (.ok ()) := by rfl
      rw [h]; intro e; cases e)
    (by
      have h : ((Instr.create 0 [⟨.prim .string, "y"⟩, ⟨.prim .contractDataHandle, (1 : Nat)⟩] []).step .id [.inst tagC h0, .con h0, .obj h0, .state (.prim .string) h0,
        .state (.prim .contractDataHandle) h0] tagB).1 = .result (.ok ()) := by rfl
      rw [h]; intro e; cases e)
    (fun h => h)

/-- The tag removed (which reports an error, C16) and another one made, in either order: the new tag is in different slots. -/
example : ∃ (s t : Seen) (e1 e2 f1 f2 : Env) (b1 b2 d1 d2 : Baseline),
      (Instr.remove tagC 2).step .id [.inst tagC h0, .con h0, .obj h0, .state (.prim .string) h0,
      .state (.prim .contractDataHandle) h0] tagB = (s, e1, b1) ∧ (Instr.create 0 [⟨.prim .string, "y"⟩, ⟨.prim .contractDataHandle, (1 : Nat)⟩] []).step .id e1 b1 = (t, e2, b2) ∧
      (Instr.create 0 [⟨.prim .string, "y"⟩, ⟨.prim .contractDataHandle, (1 : Nat)⟩] []).step .id [.inst tagC h0, .con h0, .obj h0, .state (.prim .string) h0,
      .state (.prim .contractDataHandle) h0] tagB = (t, f1, d1) ∧
      (Instr.remove tagC 2).step .id f1 d1 = (s, f2, d2) ∧
      s.isPanic = false ∧ t.isPanic = false ∧ Indistinguishable e2 b2 (exchange 5 f2) d2 :=
  C112_independent_calls_commute (tag_run fun _ => .id) (.remove tagC 2)
    (.create 0 [⟨.prim .string, "y"⟩, ⟨.prim .contractDataHandle, (1 : Nat)⟩] []) trivial trivial _ _ _ _
    (by
      have h : ∃ m, ((Instr.remove tagC 2).step .id [.inst tagC h0, .con h0, .obj h0, .state (.prim .string) h0,
        .state (.prim .contractDataHandle) h0] tagB).1 = .result (.err m) := ⟨_, rfl⟩
      obtain ⟨m, h⟩ := h
      rw [h]; intro e; cases e)
    (by
      have h : ((Instr.create 0 [⟨.prim .string, "y"⟩, ⟨.prim .contractDataHandle, (1 : Nat)⟩] []).step .id [.inst tagC h0, .con h0, .obj h0, .state (.prim .string) h0,
        .state (.prim .contractDataHandle) h0] tagB).1 = .result (.ok ()) := by rfl
      rw [h]; intro e; cases e)
    (fun h => h)

/-- The label of the tag and its warp, in either order. -/
example : ∃ b' : Baseline,
    runProg [.writeState 3 ⟨.prim .string, "z"⟩, .setWarp 2 TimeWarp.default] (fun _ => .id) [.inst tagC h0, .con h0, .obj h0, .state (.prim .string) h0] tagB =
      ([.result (.ok ()), .result (.ok ())], some ([.inst tagC h0, .con h0, .obj h0, .state (.prim .string) h0], b')) ∧
    runProg [.setWarp 2 TimeWarp.default, .writeState 3 ⟨.prim .string, "z"⟩] (fun _ => .id) [.inst tagC h0, .con h0, .obj h0, .state (.prim .string) h0] tagB =
      ([.result (.ok ()), .result (.ok ())], some ([.inst tagC h0, .con h0, .obj h0, .state (.prim .string) h0], b')) := by
  have h1 : ((Instr.writeState 3 ⟨.prim .string, "z"⟩).step .id [.inst tagC h0, .con h0, .obj h0, .state (.prim .string) h0] tagB).1 = .result (.ok ()) := by rfl
  have h2 : ((Instr.setWarp 2 TimeWarp.default).step .id [.inst tagC h0, .con h0, .obj h0, .state (.prim .string) h0] tagB).1 = .result (.ok ()) := by rfl
  have := C112_overwrites_in_any_order [.inst tagC h0, .con h0, .obj h0, .state (.prim .string) h0] tagB
    (List.Perm.swap (Instr.setWarp 2 TimeWarp.default) (.writeState 3 ⟨.prim .string, "z"⟩) []) (by
      intro i hi
      rcases List.mem_cons.1 hi with rfl | hi
      · trivial
      · rcases List.mem_singleton.1 hi with rfl; trivial) (by
      intro i hi
      rcases List.mem_cons.1 hi with rfl | hi
      · rw [h1]; intro e; cases e
      · rcases List.mem_singleton.1 hi with rfl; rw [h2]; intro e; cases e) (List.pairwise_cons.2 ⟨fun j hj => by
      rcases List.mem_singleton.1 hj with rfl; exact fun h => h, List.pairwise_singleton ..⟩) (fun _ => .id) (fun _ => .id)
  simpa only [List.map_cons, List.map_nil, h1, h2] using this

end Verif.Props
