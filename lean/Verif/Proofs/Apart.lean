import Verif.Proofs.SimRun
import Verif.Spec.Shared
/-! # A call changes nothing that its program does not know -/
namespace Verif
open Arena Store Baseline Spec

/-- The handle keeps its meaning: live, it resolves to the same, dead it stays dead. -/
def Kept {α : Type} (a a' : Arena α) (j : Idx) : Prop := (∀ v, a.get j = some v → a'.get j = some v) ∧ (Dead a j → Dead a' j)

theorem Kept.refl {α : Type} (a : Arena α) (j : Idx) : Kept a a j := ⟨fun _ h => h, fun h => h⟩

theorem Kept.trans {α : Type} {a a1 a2 : Arena α} {j : Idx} (h : Kept a a1 j) (g : Kept a1 a2 j) : Kept a a2 j :=
  ⟨fun v x => g.1 v (h.1 v x), fun x => g.2 (h.2 x)⟩

theorem kept_insert {α : Type} {a : Arena α} (h : Arena.Inv a) (v : α) (j : Idx) : Kept a (a.insert v).1 j :=
  ⟨fun w hw => get_insert_of_some h v w hw, fun hd => insert_dead h hd v⟩

theorem kept_modify {α : Type} {a a' : Arena α} {i j : Idx} {f : α → α} (hm : a.modify i f = some a') (hj : j ≠ i) : Kept a a' j :=
  ⟨fun w hw => by rw [get_modify hm, if_neg hj, hw], fun hd => modify_dead hd hm⟩

theorem kept_removeList {α : Type} {a : Arena α} {j : Idx} {l : List Idx} (hj : j ∉ l) : Kept a (removeList a l) j :=
  ⟨fun w hw => by rw [get_removeList, if_neg hj, hw], fun hd => removeList_dead hd l⟩

theorem kept_remove {α : Type} {a : Arena α} {i j : Idx} (hj : j ≠ i) : Kept a (a.remove i).1 j :=
  kept_removeList (l := [i]) (by simpa using hj)

theorem kept_create {F : PropType → Type} {s : Store F} (hs : ∀ t : PropType, Arena.Inv (s.arenaOf t)) (t : PropType) (v : F t) :
    (∀ t' : PropType, Arena.Inv ((s.create t v).1.arenaOf t')) ∧ ∀ (t' : PropType) (j : Idx), Kept (s.arenaOf t') ((s.create t v).1.arenaOf t') j := by
  have key : ∀ t' : PropType, Arena.Inv ((s.create t v).1.arenaOf t') ∧ ∀ j : Idx, Kept (s.arenaOf t') ((s.create t v).1.arenaOf t') j := by
    intro t'
    rw [create_eq]
    show Arena.Inv (arenaOf (Function.update s t (some ((s.arenaOf t).insert v).1)) t') ∧
      ∀ j : Idx, Kept (s.arenaOf t') (arenaOf (Function.update s t (some ((s.arenaOf t).insert v).1)) t') j
    by_cases e : t' = t
    · subst e
      rw [arenaOf_update_self]
      exact ⟨insert_inv (hs t') v, kept_insert (hs t') v⟩
    · rw [arenaOf_update_ne s e]; exact ⟨hs t', Kept.refl _⟩
  exact ⟨fun t' => (key t').1, fun t' => (key t').2⟩

theorem kept_createAll {F : PropType → Type} (ps : List ((t : PropType) × F t)) : ∀ {s : Store F}, (∀ t : PropType, Arena.Inv (s.arenaOf t)) →
    (∀ t : PropType, Arena.Inv ((createAll s ps).1.arenaOf t)) ∧ ∀ (t : PropType) (j : Idx), Kept (s.arenaOf t) ((createAll s ps).1.arenaOf t) j := by
  induction ps with
  | nil => intro s hs; exact ⟨hs, fun t j => Kept.refl _ j⟩
  | cons p ps ih =>
    intro s hs
    obtain ⟨h1, h2⟩ := kept_create hs p.1 p.2
    exact ⟨(ih h1).1, fun t j => (h2 t j).trans ((ih h1).2 t j)⟩

theorem kept_write {F : PropType → Type} {s s1 : Store F} {t : PropType} {i : Idx} {v : F t} (h : s.write t i v = some s1) (t' : PropType) (j : Idx)
    (hj : ¬ (t' = t ∧ j = i)) : Kept (s.arenaOf t') (s1.arenaOf t') j := by
  obtain ⟨a, m, e1, e2⟩ := write_arena h
  by_cases e : t' = t
  · subst e; rw [e1]; exact kept_modify m fun z => hj ⟨rfl, z⟩
  · rw [e2 t' e]; exact Kept.refl _ j

/-- What `N` has no name for keeps its meaning; a new contract has an id of `own`. -/
structure Keeps (own : ContractId → Prop) (N : Names) (b b' : Baseline) : Prop where
  kind : b'.kind = b.kind
  con : ∀ j : Idx, (∀ (C : ContractTy) (i : Idx), ¬ N.con C i j) → Kept b.contracts b'.contracts j
  obj : ∀ j : Idx, (∀ i : Idx, ¬ N.obj i j) → Kept b.objects b'.objects j
  st : ∀ (t : PropType) (j : Idx), (∀ i : Idx, ¬ N.st t i j) → Kept (b.states.arenaOf t) (b'.states.arenaOf t) j
  ch : ∀ (t : PropType) (j : Idx), (∀ i : Idx, ¬ N.ch t i j) → Kept (b.channels.arenaOf t) (b'.channels.arenaOf t) j
  new : ∀ (h : Idx) (cd : ContractData), b'.contracts.get h = some cd → (∃ cd0, b.contracts.get h = some cd0 ∧ cd0.id = cd.id) ∨ own cd.id
  conInv : Arena.Inv b'.contracts
  objInv : Arena.Inv b'.objects
  stInv : ∀ t : PropType, Arena.Inv (b'.states.arenaOf t)
  chInv : ∀ t : PropType, Arena.Inv (b'.channels.arenaOf t)

section
variable {S : Scope} {N : Names} {a b : Baseline} {e e' : Env}

theorem Keeps.refl (hs : PairedOn S N a b) : Keeps S.own N b b :=
  ⟨rfl, fun _ _ => Kept.refl _ _, fun _ _ => Kept.refl _ _, fun _ _ _ => Kept.refl _ _, fun _ _ _ => Kept.refl _ _,
    fun _ cd g => .inl ⟨cd, g, rfl⟩, hs.cons.rinv, hs.objs.rinv, fun t => (hs.sts t).rinv, fun t => (hs.chs t).rinv⟩

theorem register_keeps (hs : PairedOn S N a b) (C : ContractTy) (hown : S.own C.id) : Keeps S.own N b (b.registerContract C).1 := by
  rcases registerContract_cases b C with ⟨_, e1⟩ | ⟨_, e1⟩
  · rw [e1]; exact .refl hs
  · rw [e1]
    refine { Keeps.refl hs with con := fun j _ => kept_insert hs.cons.rinv _ j, new := ?_, conInv := insert_inv hs.cons.rinv _ }
    intro h cd g
    have g : (b.contracts.insert ⟨C.id, []⟩).1.get h = some cd := g
    by_cases eh : h = (b.contracts.insert ⟨C.id, []⟩).2
    · rw [eh, get_insert_self hs.cons.rinv] at g; cases g; exact .inr hown
    · rw [get_insert_ne hs.cons.rinv _ eh] at g; exact .inl ⟨cd, g, rfl⟩

theorem create_keeps (hs : PairedOn S N a b) {C : ContractTy} {h0 h : Idx} (hc : N.con C h0 h) (ss : List DynProp) (cs : List DynChannel) :
    Keeps S.own N b (b.objectCreate C h ss cs).1 := by
  rcases objectCreate_cases b C h ss cs with ⟨⟨cd, hg⟩, o1, o2⟩ | ⟨e1, _⟩
  · obtain ⟨cons, m, e1⟩ := objectCreate_ok hg o1 o2
    rw [e1]
    refine ⟨rfl, ?_, fun j _ => kept_insert hs.objs.rinv _ j, fun t j _ => (kept_createAll _ fun t => (hs.sts t).rinv).2 t j,
      fun t j _ => (kept_createAll _ fun t => (hs.chs t).rinv).2 t j, ?_, modify_inv hs.cons.rinv m, insert_inv hs.objs.rinv _, ?_, ?_⟩
    · intro j hj
      exact kept_modify m fun z => hj C h0 (z ▸ hc)
    · intro k cd1 g
      have g : cons.get k = some cd1 := g
      left
      rw [get_modify m] at g
      by_cases ek : k = h
      · rw [if_pos ek, hg] at g; cases g; exact ⟨cd, ek ▸ hg, rfl⟩
      · rw [if_neg ek] at g; exact ⟨cd1, g, rfl⟩
    · exact (kept_createAll _ fun t => (hs.sts t).rinv).1
    · exact (kept_createAll _ fun t => (hs.chs t).rinv).1
  · rw [e1]; exact .refl hs

theorem remove_keeps (hs : PairedOn S N a b) (C : ContractTy) {o0 o : Idx} (ho : N.obj o0 o) : Keeps S.own N b (b.objectRemove C o).1 := by
  cases hg : b.objects.get o with
  | none => rw [objectRemove_none hg]; exact .refl hs
  | some ob =>
    rw [objectRemove_some hg]
    exact { Keeps.refl hs with obj := fun j hj => kept_remove fun z => hj o0 (z ▸ ho), objInv := remove_inv hs.objs.rinv o }

theorem unregister_keeps (hs : PairedOn S N a b) (C : ContractTy) (ord : HashOrder) {h0 h : Idx} (hc : ∃ D, N.con D h0 h) :
    Keeps S.own N b (b.unregisterContract C h ord).1 := by
  obtain ⟨D, hc⟩ := hc
  rcases unregister_cases b C h ord with ⟨e1, _⟩ | ⟨cd, cons, done, hg, hid, m, hd, hh⟩
  · rw [e1]; exact .refl hs
  · obtain ⟨cd0, hg0, hr⟩ := hs.cons.right ⟨D, hc⟩ hg
    have hdone : ∀ j : Idx, (∀ i : Idx, ¬ N.obj i j) → j ∉ done := by
      intro j hj hm
      obtain ⟨i, _, hi⟩ := hr.2.2.2.2 j ((ord.perm _).mem_iff.1 (hd.subset hm))
      exact hj i hi
    have hmod : ∀ (k : Idx) (cd1 : ContractData), cons.get k = some cd1 → ∃ cd0, b.contracts.get k = some cd0 ∧ cd0.id = cd1.id := by
      intro k cd1 g
      rw [get_modify m] at g
      by_cases ek : k = h
      · rw [if_pos ek, hg] at g; cases g; exact ⟨cd, ek ▸ hg, rfl⟩
      · rw [if_neg ek] at g; exact ⟨cd1, g, rfl⟩
    have hcon : ∀ j : Idx, (∀ (C : ContractTy) (i : Idx), ¬ N.con C i j) → j ≠ h := fun j hj z => hj D h0 (z ▸ hc)
    rcases hh with ⟨_, e1⟩ | ⟨e1, _⟩
    · rw [e1]
      refine { Keeps.refl hs with obj := fun j hj => kept_removeList (hdone j hj), objInv := removeList_inv hs.objs.rinv done, con := fun j hj => (kept_modify m (hcon j hj)).trans (kept_remove (hcon j hj)), conInv := remove_inv (modify_inv hs.cons.rinv m) h, new := ?_ }
      intro k cd1 g
      have g : (cons.remove h).1.get k = some cd1 := g
      rw [get_remove] at g
      split at g
      · cases g
      · exact .inl (hmod k cd1 g)
    · rw [e1]
      exact { Keeps.refl hs with obj := fun j hj => kept_removeList (hdone j hj), objInv := removeList_inv hs.objs.rinv done, con := fun j hj => kept_modify m (hcon j hj), conInv := modify_inv hs.cons.rinv m, new := fun k cd1 g => .inl (hmod k cd1 g) }

theorem setWarp_keeps (hs : PairedOn S N a b) {o0 o : Idx} (ho : N.obj o0 o) (w : TimeWarp) : Keeps S.own N b (b.setWarp o w).1 := by
  unfold setWarp
  cases m : b.objects.modify o (fun ob => { ob with warp := w }) with
  | none => exact .refl hs
  | some x => exact { Keeps.refl hs with obj := fun j hj => kept_modify m fun z => hj o0 (z ▸ ho), objInv := modify_inv hs.objs.rinv m }

theorem write_inv {F : PropType → Type} {s s1 : Store F} (hs : ∀ t : PropType, Arena.Inv (s.arenaOf t)) {t : PropType} {i : Idx} {v : F t}
    (h : s.write t i v = some s1) (t' : PropType) : Arena.Inv (s1.arenaOf t') := by
  obtain ⟨x, m, e1, e2⟩ := write_arena h
  by_cases e : t' = t
  · subst e; rw [e1]; exact modify_inv (hs t') m
  · rw [e2 t' e]; exact hs t'

theorem stateWrite_keeps (hs : PairedOn S N a b) {t : PropType} {i0 i : Idx} (hi : N.st t i0 i) (v : t.Carrier) : Keeps S.own N b (b.stateWrite t i v).1 := by
  unfold stateWrite
  cases m : b.states.write t i v with
  | none => exact .refl hs
  | some x =>
    exact { Keeps.refl hs with
      st := fun t' j hj => kept_write m t' j (by rintro ⟨rfl, rfl⟩; exact hj i0 hi), stInv := write_inv (fun t => (hs.sts t).rinv) m }

theorem channelWrite_keeps (hs : PairedOn S N a b) {t : PropType} {i0 i : Idx} (hi : N.ch t i0 i) (v : t.Chan) : Keeps S.own N b (b.channelWrite t i v).1 := by
  unfold channelWrite
  cases m : b.channels.write t i v with
  | none => exact .refl hs
  | some x =>
    exact { Keeps.refl hs with
      ch := fun t' j hj => kept_write m t' j (by rintro ⟨rfl, rfl⟩; exact hj i0 hi), chInv := write_inv (fun t => (hs.chs t).rinv) m }

/-- Every call leaves alone what its program has no name for. -/
theorem step_keeps (hs : PairedOn S N a b) (he : RelEnv N e e') (ord : HashOrder) (i : Instr) (hreg : ∀ C : ContractTy, i = .register C → S.own C.id) :
    Keeps S.own N b (i.step ord e' b).2.2 := by
  cases i with
  | register C => exact register_keeps hs C (hreg C rfl)
  | unregister C k =>
    rcases he.cases k with ⟨h1, h2⟩ | ⟨C', h, h', h1, h2, hr⟩ | ⟨h, h', h1, h2, hr⟩ | ⟨o, o', h1, h2, hr⟩ | ⟨t, i, j, h1, h2, hr⟩ | ⟨t, i, j, h1, h2, hr⟩ <;>
      simp only [Instr.step, h2]
    case inr.inr.inl => exact unregister_keeps hs C ord hr
    all_goals exact .refl hs
  | create k ss cs =>
    rcases he.cases k with ⟨h1, h2⟩ | ⟨C', h, h', h1, h2, hr⟩ | ⟨h, h', h1, h2, hr⟩ | ⟨o, o', h1, h2, hr⟩ | ⟨t, i, j, h1, h2, hr⟩ | ⟨t, i, j, h1, h2, hr⟩ <;>
      simp only [Instr.step, h2]
    case inr.inl =>
      cases evalList (evalProp e') ss with
      | none => exact .refl hs
      | some ss =>
        cases evalList (evalDynChan e') cs with
        | none => exact .refl hs
        | some cs => exact create_keeps hs hr ss cs
    all_goals exact .refl hs
  | remove C k =>
    rcases he.cases k with ⟨h1, h2⟩ | ⟨C', h, h', h1, h2, hr⟩ | ⟨h, h', h1, h2, hr⟩ | ⟨o, o', h1, h2, hr⟩ | ⟨t, i, j, h1, h2, hr⟩ | ⟨t, i, j, h1, h2, hr⟩ <;>
      simp only [Instr.step, h2]
    case inr.inr.inr.inl => exact remove_keeps hs C hr
    all_goals exact .refl hs
  | writeState k x =>
    rcases he.cases k with ⟨h1, h2⟩ | ⟨C', h, h', h1, h2, hr⟩ | ⟨h, h', h1, h2, hr⟩ | ⟨o, o', h1, h2, hr⟩ | ⟨t, i, j, h1, h2, hr⟩ | ⟨t, i, j, h1, h2, hr⟩ <;>
      simp only [Instr.step, h2]
    case inr.inr.inr.inr.inl =>
      cases evalVal e' x.1 x.2 with
      | none => exact .refl hs
      | some v =>
        simp only
        split
        · exact stateWrite_keeps hs hr _
        · exact .refl hs
    all_goals exact .refl hs
  | writeChannel k x =>
    rcases he.cases k with ⟨h1, h2⟩ | ⟨C', h, h', h1, h2, hr⟩ | ⟨h, h', h1, h2, hr⟩ | ⟨o, o', h1, h2, hr⟩ | ⟨t, i, j, h1, h2, hr⟩ | ⟨t, i, j, h1, h2, hr⟩ <;>
      simp only [Instr.step, h2]
    case inr.inr.inr.inr.inr =>
      cases evalChan e' x.1 x.2 with
      | none => exact .refl hs
      | some v =>
        simp only
        split
        · exact channelWrite_keeps hs hr _
        · exact .refl hs
    all_goals exact .refl hs
  | setWarp k w =>
    rcases he.cases k with ⟨h1, h2⟩ | ⟨C', h, h', h1, h2, hr⟩ | ⟨h, h', h1, h2, hr⟩ | ⟨o, o', h1, h2, hr⟩ | ⟨t, i, j, h1, h2, hr⟩ | ⟨t, i, j, h1, h2, hr⟩ <;>
      simp only [Instr.step, h2]
    case inr.inr.inr.inl => exact setWarp_keeps hs hr w
    all_goals exact .refl hs
  | _ => all_goals (simp only [Instr.step]; (repeat' split) <;> exact .refl hs)

end

/-- No handle has a name in both. -/
structure Names.Disjoint (N M : Names) : Prop where
  con : ∀ (C D : ContractTy) (i i' j : Idx), N.con C i j → ¬ M.con D i' j
  obj : ∀ i i' j : Idx, N.obj i j → ¬ M.obj i' j
  st : ∀ (t : PropType) (i i' j : Idx), N.st t i j → ¬ M.st t i' j
  ch : ∀ (t : PropType) (i i' j : Idx), N.ch t i j → ¬ M.ch t i' j

theorem Names.Disjoint.symm {N M : Names} (h : N.Disjoint M) : M.Disjoint N :=
  ⟨fun C D i i' j x y => h.con D C i' i j y x, fun i i' j x y => h.obj i' i j y x, fun t i i' j x y => h.st t i' i j y x, fun t i i' j x y => h.ch t i' i j y x⟩

theorem Kept.matched {α β : Type} {r : Idx → Idx → Prop} {R : α → β → Prop} {a : Arena α} {b b' : Arena β} (h : Matched r R a b) (hb : Arena.Inv b')
    (hk : ∀ i j : Idx, r i j → Kept b b' j) : Matched r R a b' :=
  ⟨h.linv, hb, h.det, h.inj, fun i j hr => (h.pair i j hr).imp (fun ⟨v, w, h1, h2, h3⟩ => ⟨v, w, h1, (hk i j hr).1 w h2, h3⟩)
    fun ⟨h1, h2⟩ => ⟨h1, (hk i j hr).2 h2⟩⟩

/-- A call of one program keeps the correspondence of another. -/
theorem Keeps.frame {own own' : ContractId → Prop} {N M : Names} {a b b' : Baseline} (hk : Keeps own N b b') (hs : PairedOn ⟨own', False⟩ M a b)
    (hd : N.Disjoint M) (ho : ∀ id : ContractId, own id → ¬ own' id) : PairedOn ⟨own', False⟩ M a b' := by
  refine ⟨hs.kind.trans hk.kind.symm, ?_, hs.ty, hs.conL, ?_, ?_, fun _ _ _ z => z.elim, fun _ _ _ z => z.elim, ?_, ?_⟩
  · exact Kept.matched hs.cons hk.conInv fun i j ⟨D, hr⟩ => hk.con j fun C i' z => hd.con C D i' i j z hr
  · intro h cd g hw
    rcases hk.new h cd g with ⟨cd0, g0, e0⟩ | hn
    · exact hs.conR h cd0 g0 (e0 ▸ hw)
    · exact absurd hw (ho _ hn)
  · exact Kept.matched hs.objs hk.objInv fun i j hr => hk.obj j fun i' z => hd.obj i' i j z hr
  · exact fun t => Kept.matched (hs.sts t) (hk.stInv t) fun i j hr => hk.st t j fun i' z => hd.st t i' i j z hr
  · exact fun t => Kept.matched (hs.chs t) (hk.chInv t) fun i j hr => hk.ch t j fun i' z => hd.ch t i' i j z hr

/-- New names are not those of another program. -/
theorem Names.Grow.disjoint {S : Scope} {N N' M : Names} {a b : Baseline} (hg : N.Grow b N') (hs : PairedOn S M a b) (hd : N.Disjoint M) :
    N'.Disjoint M := by
  refine ⟨fun C D i i' j x y => ?_, fun i i' j x y => ?_, fun t i i' j x y => ?_, fun t i i' j x y => ?_⟩
  · rcases hg.con C i j x with z | z
    · exact hd.con C D i i' j z y
    · exact hs.cons.not_new ⟨D, y⟩ z
  · rcases hg.obj i j x with z | z
    · exact hd.obj i i' j z y
    · exact hs.objs.not_new y z
  · rcases hg.st t i j x with z | z
    · exact hd.st t i i' j z y
    · exact (hs.sts t).not_new y z
  · rcases hg.ch t i j x with z | z
    · exact hd.ch t i i' j z y
    · exact (hs.chs t).not_new y z

/-! ## Many programs -/

/-- Program `p` is where it would be alone: with the variables `E p` and the baseline `B p`. -/
structure Together {ι : Type} (own : ι → ContractId → Prop) (N : ι → Names) (E : ι → Env) (B : ι → Baseline) (env : ι → Option Env) (b : Baseline) : Prop where
  pair : ∀ (p : ι) (e : Env), env p = some e → PairedOn ⟨own p, False⟩ (N p) (B p) b ∧ RelEnv (N p) (E p) e
  apart : ∀ (p q : ι) (e e' : Env), env p = some e → env q = some e' → p ≠ q → (N p).Disjoint (N q)

theorem ofProg_cons_self {ι α : Type} [DecidableEq ι] (p : ι) (x : α) (l : List (ι × α)) : ofProg p ((p, x) :: l) = x :: ofProg p l := by simp [ofProg]

theorem ofProg_cons_ne {ι α : Type} [DecidableEq ι] {p q : ι} (h : p ≠ q) {x : α} {l : List (ι × α)} : ofProg p ((q, x) :: l) = ofProg p l := by
  have h' : q ≠ p := fun z => h z.symm
  simp [ofProg, h']

/-- A program that has ended sees nothing. -/
theorem ended_silent {ι : Type} [DecidableEq ι] (is : List (ι × Instr)) : ∀ (ords : Nat → HashOrder) (env : ι → Option Env) (b : Baseline) (p : ι),
    env p = none → ofProg p (runShared is ords env b) = [] := by
  induction is with
  | nil => intro ords env b p _; rfl
  | cons x is ih =>
    intro ords env b p hp
    obtain ⟨q, i⟩ := x
    cases hq : env q with
    | none => simp only [runShared, hq]; exact ih _ _ _ p hp
    | some f =>
      have hne : p ≠ q := by rintro rfl; rw [hp] at hq; cases hq
      simp only [runShared, hq]
      rw [ofProg_cons_ne hne]
      exact ih _ _ _ p (by simp [hne, hp])

theorem shared_run {ι : Type} [DecidableEq ι] {own : ι → ContractId → Prop} (hdis : ∀ (p q : ι) (id : ContractId), own p id → own q id → p = q)
    (p : ι) (is : List (ι × Instr)) :
    (∀ (q : ι) (C : ContractTy), (q, Instr.register C) ∈ is → own q C.id) → (p, Instr.countObjects) ∉ is → ∀ {N : ι → Names} {E : ι → Env} {B : ι → Baseline} {env : ι → Option Env} {b : Baseline},
    Together own N E B env b → ∀ e : Env, env p = some e → ∀ ords ords' : Nat → HashOrder,
    ofProg p (runShared is ords env b) = (runProg (ofProg p is) ords' (E p) (B p)).1 := by
  induction is with
  | nil => intro _ _ N E B env b _ e _ ords ords'; rfl
  | cons x is ih =>
    intro hw hcn N E B env b hT e hp ords ords'
    obtain ⟨q, i⟩ := x
    have hw' : ∀ (z : ι) (C : ContractTy), (z, Instr.register C) ∈ is → own z C.id := fun z C hx => hw z C (List.mem_cons_of_mem _ hx)
    have hcn' : (p, Instr.countObjects) ∉ is := fun hx => hcn (List.mem_cons_of_mem _ hx)
    have hreg : ∀ C : ContractTy, i = .register C → own q C.id := by rintro C rfl; exact hw q C List.mem_cons_self
    by_cases hcount : i = .countObjects
    · subst hcount
      have hne : q ≠ p := by rintro rfl; exact hcn List.mem_cons_self
      have hpq : p ≠ q := fun h => hne h.symm
      rw [ofProg_cons_ne hpq]
      cases hq : env q with
      | none =>
        have e1 : runShared ((q, Instr.countObjects) :: is) ords env b = runShared is (fun k => ords (k + 1)) env b := by simp only [runShared, hq]
        rw [e1]
        exact ih hw' hcn' hT e hp _ _
      | some f =>
        have ef : (fun z => if z = q then some f else env z) = env := by
          funext z
          split
          · rename_i ez; rw [ez, hq]
          · rfl
        have e1 : runShared ((q, Instr.countObjects) :: is) ords env b = (q, .count b.iterObjects.length) :: runShared is (fun k => ords (k + 1))
            (fun z => if z = q then some f else env z) b := by
          simp [runShared, hq, Instr.step, Seen.isPanic]
        rw [e1, ofProg_cons_ne hpq, ef]
        exact ih hw' hcn' hT e hp _ _
    have hcnt : i = .countObjects → False := hcount
    cases hq : env q with
    | none =>
      have hne : q ≠ p := by rintro rfl; rw [hp] at hq; cases hq
      have e1 : runShared ((q, i) :: is) ords env b = runShared is (fun k => ords (k + 1)) env b := by simp only [runShared, hq]
      have e2 : ofProg p ((q, i) :: is) = ofProg p is := by simp [ofProg, hne]
      rw [e1, e2]
      exact ih hw' hcn' hT e hp _ _
    | some f =>
      obtain ⟨hsq, heq⟩ := hT.pair q f hq
      have hK := step_keeps hsq heq (ords 0) i hreg
      have hA := step_agree_on hsq heq (ords' 0) (ords 0) i hreg hcnt
      generalize hr : i.step (ords 0) f b = r at hK hA
      obtain ⟨s, f', b'⟩ := r
      have e1 : runShared ((q, i) :: is) ords env b = (q, s) :: runShared is (fun k => ords (k + 1))
          (fun z => if z = q then (if s.isPanic then none else some f') else env z) b' := by simp only [runShared, hq, hr]
      rw [e1]
      -- the others, after this call
      have hframe : ∀ (z : ι) (ez : Env), z ≠ q → env z = some ez → PairedOn ⟨own z, False⟩ (N z) (B z) b' := fun z ez hz hez =>
        hK.frame (hT.pair z ez hez).1 (hT.apart q z f ez hq hez fun h => hz h.symm) fun id h1 h2 => hz (hdis z q id h2 h1)
      have hsee : (i.step (ords' 0) (E q) (B q)).1 = s := hA.1
      by_cases hpan : s.isPanic = true
      · by_cases hqp : q = p
        · subst hqp
          have e2 : ofProg q ((q, i) :: is) = i :: ofProg q is := by simp [ofProg]
          have e3 : ofProg q ((q, s) :: runShared is (fun k => ords (k + 1)) (fun z => if z = q then (if s.isPanic then none else some f') else env z) b') = [s] := by
            rw [ofProg_cons_self, ended_silent is _ _ _ q (by simp [hpan])]
          rw [e2, e3]
          simp only [runProg, hsee, hpan, if_true]
        · have e2 : ofProg p ((q, i) :: is) = ofProg p is := by simp [ofProg, hqp]
          rw [e2, ofProg_cons_ne (fun h => hqp h.symm)]
          have hpq : p ≠ q := fun h => hqp h.symm
          refine ih hw' hcn' (N := N) (E := E) (B := B) ⟨?_, ?_⟩ e (by simp [hpq, hp]) _ _
          · intro z ez hz
            by_cases hzq : z = q
            · simp [hzq, hpan] at hz
            · simp only [if_neg hzq] at hz
              exact ⟨hframe z ez hzq hz, (hT.pair z ez hz).2⟩
          · intro z w ez ew hz hw hne
            by_cases hzq : z = q
            · simp [hzq, hpan] at hz
            · by_cases hwq : w = q
              · simp [hwq, hpan] at hw
              · simp only [if_neg hzq] at hz
                simp only [if_neg hwq] at hw
                exact hT.apart z w ez ew hz hw hne
      · obtain ⟨N', hgr, hs', he'⟩ := hA.2 (by rw [hsee]; simpa using hpan)
        simp only at hs' he'
        have hT' : Together own (fun z => if z = q then N' else N z) (fun z => if z = q then (i.step (ords' 0) (E q) (B q)).2.1 else E z)
            (fun z => if z = q then (i.step (ords' 0) (E q) (B q)).2.2 else B z) (fun z => if z = q then (if s.isPanic then none else some f') else env z) b' := by
          have hd' : ∀ (z : ι) (ez : Env), z ≠ q → env z = some ez → N'.Disjoint (N z) := fun z ez hz hez =>
            hgr.disjoint (hT.pair z ez hez).1 (hT.apart q z f ez hq hez fun h => hz h.symm)
          refine ⟨?_, ?_⟩
          · intro z ez hz
            by_cases hzq : z = q
            · subst hzq
              simp only [if_pos, if_neg hpan] at hz ⊢
              cases hz
              exact ⟨hs', he'⟩
            · simp only [if_neg hzq] at hz ⊢
              exact ⟨hframe z ez hzq hz, (hT.pair z ez hz).2⟩
          · intro z w ez ew hz hw hne
            by_cases hzq : z = q
            · have hwq : w ≠ q := fun h => hne (hzq.trans h.symm)
              simp only [if_neg hwq] at hw
              simp only [if_pos hzq, if_neg hwq]
              exact hd' w ew hwq hw
            · simp only [if_neg hzq] at hz
              by_cases hwq : w = q
              · simp only [if_neg hzq, if_pos hwq]
                exact (hd' z ez hzq hz).symm
              · simp only [if_neg hwq] at hw
                simp only [if_neg hzq, if_neg hwq]
                exact hT.apart z w ez ew hz hw hne
        by_cases hqp : q = p
        · subst hqp
          have e2 : ofProg q ((q, i) :: is) = i :: ofProg q is := by simp [ofProg]
          rw [e2, ofProg_cons_self]
          have := ih hw' hcn' hT' f' (by simp [hpan]) (fun k => ords (k + 1)) (fun k => ords' (k + 1))
          rw [this]
          simp only [runProg, hsee, if_neg hpan, if_true]
        · have hpq : p ≠ q := fun h => hqp h.symm
          have e2 : ofProg p ((q, i) :: is) = ofProg p is := by simp [ofProg, hqp]
          rw [e2, ofProg_cons_ne hpq]
          have := ih hw' hcn' hT' e (by simp [hpq, hp]) (fun k => ords (k + 1)) ords'
          rw [this]
          simp only [if_neg hpq]

end Verif
