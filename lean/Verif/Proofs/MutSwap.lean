import Verif.Model.MutSwap
import Verif.Proofs.BaselineInv
/-! # Worlds of baselines with exchanged objects: lemmas -/
namespace Verif
open Arena Store Baseline

/-! ## Arena shapes -/

def Slot.shape {α : Type} : Slot α → Slot Unit
  | .free n => .free n
  | .occ g _ => .occ g ()

/-- The arena without its values. -/
def Arena.shape {α : Type} (a : Arena α) : Arena Unit :=
  ⟨a.slots.map Slot.shape, a.generation, a.head, a.count⟩

theorem shape_get {α : Type} (a : Arena α) (i : Idx) : a.shape.get i = (a.get i).map (fun _ => ()) := by
  unfold Arena.get Arena.shape
  simp only [List.getElem?_map]
  cases h : a.slots[i.slot]? with
  | none => rfl
  | some s =>
    cases s with
    | free n => rfl
    | occ g v => simp only [Option.map_some, Slot.shape]; split <;> rfl

theorem shape_set {α : Type} (l : List (Slot α)) (n : Nat) (s : Slot α) :
    (l.set n s).map Slot.shape = (l.map Slot.shape).set n s.shape := List.map_set

theorem shape_reserve {α : Type} (a : Arena α) (n : Nat) : (a.reserve n).shape = a.shape.reserve n := by
  unfold Arena.reserve Arena.shape
  simp only [List.map_append, List.map_map, List.length_map]
  congr 2
  apply List.map_congr_left
  intro k _
  simp only [Function.comp]
  split <;> rfl

def TryInsert.shape {α : Type} : Arena.TryInsert α → Arena.TryInsert Unit
  | .done a i => .done a.shape i
  | .full => .full
  | .corrupt => .corrupt

theorem shape_tryInsert {α : Type} (a : Arena α) (v : α) :
    a.shape.tryInsert () = TryInsert.shape (a.tryInsert v) := by
  unfold Arena.tryInsert
  simp only [Arena.shape, List.getElem?_map]
  cases a.head with
  | none => rfl
  | some i =>
    simp only
    cases h : a.slots[i]? with
    | none => rfl
    | some s =>
      cases s with
      | free n => simp only [Option.map_some, Slot.shape, TryInsert.shape, Arena.shape, shape_set]
      | occ g v => rfl

theorem shape_insert? {α : Type} (a : Arena α) (v : α) :
    a.shape.insert? () = (a.insert? v).map (fun r => (r.1.shape, r.2)) := by
  unfold Arena.insert?
  rw [shape_tryInsert a v]
  cases a.tryInsert v with
  | done a' i => rfl
  | corrupt => rfl
  | full =>
    have hl : a.shape.slots.length = a.slots.length := by simp [Arena.shape]
    simp only [TryInsert.shape, hl, ← shape_reserve, shape_tryInsert _ v]
    cases (a.reserve a.slots.length).tryInsert v <;> rfl

theorem shape_insert {α : Type} (a : Arena α) (v : α) :
    a.shape.insert () = ((a.insert v).1.shape, (a.insert v).2) := by
  unfold Arena.insert
  rw [shape_insert? a v]
  cases a.insert? v with
  | none => simp [Arena.shape]
  | some r => rfl

theorem shape_remove {α : Type} (a : Arena α) (i : Idx) : (a.remove i).1.shape = (a.shape.remove i).1 := by
  unfold Arena.remove
  simp only [Arena.shape, List.getElem?_map]
  cases h : a.slots[i.slot]? with
  | none => rfl
  | some s =>
    cases s with
    | free n => rfl
    | occ g v =>
      simp only [Option.map_some, Slot.shape]
      split
      · simp only [shape_set, Slot.shape]
      · rfl

theorem shape_modify {α : Type} {a a' : Arena α} {i : Idx} {f : α → α} (h : a.modify i f = some a') :
    a'.shape = a.shape := by
  unfold Arena.modify at h
  cases hs : a.slots[i.slot]? with
  | none => simp only [hs] at h; cases h
  | some s =>
    cases s with
    | free n => simp only [hs] at h; cases h
    | occ g v =>
      simp only [hs] at h
      split at h
      · cases h
        simp only [Arena.shape, shape_set, Slot.shape]
        congr 1
        apply List.ext_getElem?
        intro n
        rw [List.getElem?_set]
        split
        · rename_i e; subst e
          simp only [List.getElem?_map, hs, Option.map_some, Slot.shape, List.length_map]
          have := (List.getElem?_eq_some_iff.1 hs).1
          simp [this]
        · rfl
      · cases h

theorem shape_isSome {α : Type} {a a' : Arena α} (h : a.shape = a'.shape) (i : Idx) :
    (a.get i).isSome = (a'.get i).isSome := by
  have h1 := shape_get a i
  have h2 := shape_get a' i
  rw [h] at h1
  rw [h1] at h2
  have := congrArg Option.isSome h2
  simpa using this

theorem shape_removeList {α : Type} {a a' : Arena α} (h : a.shape = a'.shape) (os : List Idx) :
    (removeList a os).shape = (removeList a' os).shape := by
  induction os generalizing a a' with
  | nil => exact h
  | cons o os ih =>
    simp only [removeList, List.foldl_cons]
    exact ih (by rw [shape_remove, shape_remove, h])

/-! ## Baselines that differ only in what their objects contain -/

/-- Same kind, contracts, states, channels and live handles. -/
structure Alike (b b' : Baseline) : Prop where
  kind : b'.kind = b.kind
  contracts : b'.contracts = b.contracts
  states : b'.states = b.states
  channels : b'.channels = b.channels
  shape : b'.objects.shape = b.objects.shape

theorem Alike.refl (b : Baseline) : Alike b b := ⟨rfl, rfl, rfl, rfl, rfl⟩

theorem Alike.get_none {b b' : Baseline} (h : Alike b b') (o : Idx) :
    b'.objects.get o = none ↔ b.objects.get o = none := by
  have := shape_isSome h.shape o
  cases h1 : b.objects.get o <;> cases h2 : b'.objects.get o <;> simp [h1, h2] at this ⊢

theorem objectRemove_alike {b b' : Baseline} (h : Alike b b') (C : ContractTy) (o : Idx) :
    Alike (b.objectRemove C o).1 (b'.objectRemove C o).1 ∧ (b'.objectRemove C o).2 = (b.objectRemove C o).2 := by
  have hfst : Alike (b.objectRemove C o).1 (b'.objectRemove C o).1 := by
    rw [objectRemove_fst, objectRemove_fst]
    exact ⟨h.kind, h.contracts, h.states, h.channels, shape_removeList h.shape [o]⟩
  refine ⟨hfst, ?_⟩
  cases hg : b.objects.get o with
  | none => rw [objectRemove_none hg, objectRemove_none ((h.get_none o).2 hg)]
  | some ob =>
    cases hg' : b'.objects.get o with
    | none => rw [(h.get_none o).1 hg'] at hg; cases hg
    | some ob' => rw [objectRemove_some hg, objectRemove_some hg']

theorem removeObjects_alike (C : ContractTy) (os : List Idx) : ∀ {b b' : Baseline}, Alike b b' →
    Alike (removeObjects C os b).1 (removeObjects C os b').1 ∧
      (removeObjects C os b').2 = (removeObjects C os b).2 := by
  induction os with
  | nil => intro b b' h; exact ⟨h, rfl⟩
  | cons o os ih =>
    intro b b' h
    obtain ⟨h1, h2⟩ := objectRemove_alike h C o
    unfold removeObjects
    rcases hr : b.objectRemove C o with ⟨b1, r⟩
    rcases hr' : b'.objectRemove C o with ⟨b1', r'⟩
    rw [hr, hr'] at h1 h2
    simp only at h1 h2
    subst h2
    cases r' with
    | ok u => exact ih h1
    | err m => exact ⟨h1, rfl⟩
    | panic m => exact ⟨h1, rfl⟩

theorem unregister_alike {b b' : Baseline} (h : Alike b b') (C : ContractTy) (k : Idx) (ord : HashOrder) :
    Alike (b.unregisterContract C k ord).1 (b'.unregisterContract C k ord).1 ∧
      (b'.unregisterContract C k ord).2 = (b.unregisterContract C k ord).2 := by
  unfold unregisterContract
  rw [h.contracts]
  cases hg : b.contracts.get k with
  | none => exact ⟨h, rfl⟩
  | some cd =>
    simp only
    by_cases hid : cd.id ≠ C.id
    · rw [if_pos hid, if_pos hid]; exact ⟨h, rfl⟩
    · rw [if_neg hid, if_neg hid]
      cases hm : b.contracts.modify k (fun cd => { cd with objects := [] }) with
      | none => exact ⟨h, rfl⟩
      | some cons =>
        simp only
        have ha : Alike { b with contracts := cons } { b' with contracts := cons } :=
          ⟨h.kind, rfl, h.states, h.channels, h.shape⟩
        obtain ⟨h1, h2⟩ := removeObjects_alike C (ord.order cd.objects) ha
        rcases hr : removeObjects C (ord.order cd.objects) { b with contracts := cons } with ⟨b1, r⟩
        rcases hr' : removeObjects C (ord.order cd.objects) { b' with contracts := cons } with ⟨b1', r'⟩
        rw [hr, hr'] at h1 h2
        simp only at h1 h2
        subst h2
        cases r' with
        | ok u => exact ⟨⟨h1.kind, by show (b1'.contracts.remove k).1 = (b1.contracts.remove k).1; rw [h1.contracts], h1.states, h1.channels, h1.shape⟩, rfl⟩
        | err m => exact ⟨h1, rfl⟩
        | panic m => exact ⟨h1, rfl⟩

theorem create_alike {b b' : Baseline} (h : Alike b b') (C : ContractTy) (k : Idx) (ss : List DynProp) (cs : List DynChannel) :
    Alike (b.objectCreate C k ss cs).1 (b'.objectCreate C k ss cs).1 ∧
      (b'.objectCreate C k ss cs).2 = (b.objectCreate C k ss cs).2 := by
  obtain ⟨kind, objects, contracts, states, channels⟩ := b
  obtain ⟨kind', objects', contracts', states', channels'⟩ := b'
  obtain ⟨h1, h2, h3, h4, h5⟩ := h
  simp only at h1 h2 h3 h4 h5
  subst h1 h2 h3 h4
  unfold objectCreate
  simp only
  split
  · exact ⟨⟨rfl, rfl, rfl, rfl, h5⟩, rfl⟩
  · cases checkTypes DynProp.propType ss C.stateTypes with
    | err m => exact ⟨⟨rfl, rfl, rfl, rfl, h5⟩, rfl⟩
    | panic m => exact ⟨⟨rfl, rfl, rfl, rfl, h5⟩, rfl⟩
    | ok ss' =>
      simp only
      cases checkTypes Sigma.fst cs C.channelTypes with
      | err m => exact ⟨⟨rfl, rfl, rfl, rfl, h5⟩, rfl⟩
      | panic m => exact ⟨⟨rfl, rfl, rfl, rfl, h5⟩, rfl⟩
      | ok cs' =>
        simp only
        have e1 := shape_insert objects ⟨(createAll states' (ss'.map DynProp.typed)).2, (createAll channels' cs').2, k, TimeWarp.default⟩
        have e2 := shape_insert objects' ⟨(createAll states' (ss'.map DynProp.typed)).2, (createAll channels' cs').2, k, TimeWarp.default⟩
        rw [h5, e1] at e2
        have e3 := congrArg Prod.fst e2
        have e4 := congrArg Prod.snd e2
        simp only at e3 e4
        rw [← e4]
        split
        · exact ⟨⟨rfl, rfl, rfl, rfl, e3.symm⟩, rfl⟩
        · exact ⟨⟨rfl, rfl, rfl, rfl, e3.symm⟩, rfl⟩

theorem setWarp_alike {b b' : Baseline} (h : Alike b b') (o : Idx) (w : TimeWarp) :
    Alike (b.setWarp o w).1 (b'.setWarp o w).1 ∧ (b'.setWarp o w).2 = (b.setWarp o w).2 := by
  unfold Baseline.setWarp
  cases hm : b.objects.modify o (fun ob => { ob with warp := w }) with
  | none =>
    have := (h.get_none o).2 (modify_eq_none.1 hm)
    rw [modify_eq_none.2 this]
    exact ⟨h, rfl⟩
  | some a =>
    cases hm' : b'.objects.modify o (fun ob => { ob with warp := w }) with
    | none =>
      have := (h.get_none o).1 (modify_eq_none.1 hm')
      rw [modify_eq_none.2 this] at hm; cases hm
    | some a' =>
      exact ⟨⟨h.kind, h.contracts, h.states, h.channels, by
        simp only; rw [shape_modify hm, shape_modify hm', h.shape]⟩, rfl⟩

/-- An API call cannot tell two alike baselines apart. -/
theorem step_alike {b b' : Baseline} (h : Alike b b') (op : BOp) :
    Alike (b.step op).1 (b'.step op).1 ∧ (b'.step op).2 = (b.step op).2 := by
  cases op with
  | register C =>
    simp only [Baseline.step]
    unfold registerContract
    rw [h.contracts]
    split
    · exact ⟨h, rfl⟩
    · exact ⟨⟨h.kind, rfl, h.states, h.channels, h.shape⟩, rfl⟩
  | unregister C k ord =>
    obtain ⟨h1, h2⟩ := unregister_alike h C k ord
    exact ⟨h1, by simp only [Baseline.step, h2]⟩
  | create C k ss cs =>
    obtain ⟨h1, h2⟩ := create_alike h C k ss cs
    exact ⟨h1, by simp only [Baseline.step, h2]⟩
  | remove C o =>
    obtain ⟨h1, h2⟩ := objectRemove_alike h C o
    exact ⟨h1, by simp only [Baseline.step, h2]⟩
  | writeState t k v =>
    simp only [Baseline.step, stateWrite]
    rw [h.states]
    cases b.states.write t k v with
    | none => exact ⟨h, rfl⟩
    | some s => exact ⟨⟨h.kind, h.contracts, rfl, h.channels, h.shape⟩, rfl⟩
  | writeChannel t k v =>
    simp only [Baseline.step, channelWrite]
    rw [h.channels]
    cases b.channels.write t k v with
    | none => exact ⟨h, rfl⟩
    | some s => exact ⟨⟨h.kind, h.contracts, h.states, rfl, h.shape⟩, rfl⟩
  | setWarp o w =>
    obtain ⟨h1, h2⟩ := setWarp_alike h o w
    exact ⟨h1, by simp only [Baseline.step, h2]⟩

theorem swapObjects_cases (a b : Baseline) (x y : Idx) :
    (∃ p q oa ob, a.objects.get x = some p ∧ b.objects.get y = some q ∧
      a.objects.modify x (fun _ => q) = some oa ∧ b.objects.modify y (fun _ => p) = some ob ∧
      swapObjects a b x y = ({ a with objects := oa }, { b with objects := ob }, .ok none)) ∨
    ((a.objects.get x = none ∨ b.objects.get y = none) ∧
      swapObjects a b x y = (a, b, .err "the given handle doesn't exist in the arena")) := by
  unfold swapObjects
  cases hx : a.objects.get x with
  | none => exact .inr ⟨.inl rfl, rfl⟩
  | some p =>
    cases hy : b.objects.get y with
    | none => exact .inr ⟨.inr rfl, rfl⟩
    | some q =>
      obtain ⟨oa, ha⟩ := modify_isSome hx (fun _ => q)
      obtain ⟨ob, hb⟩ := modify_isSome hy (fun _ => p)
      refine .inl ⟨p, q, oa, ob, rfl, rfl, ha, hb, ?_⟩
      simp only [ha, hb]

theorem swapObjects_alike (a b : Baseline) (x y : Idx) :
    Alike a (swapObjects a b x y).1 ∧ Alike b (swapObjects a b x y).2.1 := by
  rcases swapObjects_cases a b x y with ⟨p, q, oa, ob, _, _, h1, h2, h3⟩ | ⟨_, h3⟩
  · rw [h3]
    exact ⟨⟨rfl, rfl, rfl, rfl, shape_modify h1⟩, ⟨rfl, rfl, rfl, rfl, shape_modify h2⟩⟩
  · rw [h3]; exact ⟨.refl _, .refl _⟩

/-! ## Worlds -/

/-- Two worlds whose baselines are pairwise alike. -/
structure WAlike (w w' : Baselines) : Prop where
  len : w'.length = w.length
  each : ∀ (i : Nat) (b b' : Baseline), w[i]? = some b → w'[i]? = some b' → Alike b b'

theorem WAlike.refl (w : Baselines) : WAlike w w := ⟨rfl, fun i b b' h h' => by rw [h] at h'; cases h'; exact .refl b⟩

theorem WAlike.none {w w' : Baselines} (h : WAlike w w') (i : Nat) : w'[i]? = none ↔ w[i]? = none := by
  simp only [List.getElem?_eq_none_iff, h.len]

theorem WAlike.set {w w' : Baselines} (h : WAlike w w') (i : Nat) {b b' : Baseline} (hb : Alike b b') :
    WAlike (w.set i b) (w'.set i b') := by
  refine ⟨by simp [h.len], ?_⟩
  intro j c c' hc hc'
  rw [List.getElem?_set] at hc hc'
  split at hc
  · rename_i e
    rw [if_pos e] at hc'
    split at hc
    · rw [h.len] at hc'
      rename_i hl
      rw [if_pos hl] at hc'
      cases hc; cases hc'; exact hb
    · cases hc
  · rename_i e
    rw [if_neg e] at hc'
    exact h.each j c c' hc hc'

theorem step_call_none {w : Baselines} {i : Nat} (h : w[i]? = none) (op : BOp) :
    w.step (.call i op) = (w, .err "no such baseline") := by
  simp only [Baselines.step, h]

theorem step_call_some {w : Baselines} {i : Nat} {b : Baseline} (h : w[i]? = some b) (op : BOp) :
    w.step (.call i op) = (w.set i (b.step op).1, (b.step op).2) := by
  simp only [Baselines.step, h]

theorem step_swap_some {w : Baselines} {i j : Nat} (e : i ≠ j) {a b : Baseline} (hi : w[i]? = some a) (hj : w[j]? = some b)
    (x y : Idx) : w.step (.swapObj i x j y) =
      ((w.set i (swapObjects a b x y).1).set j (swapObjects a b x y).2.1, (swapObjects a b x y).2.2) := by
  simp only [Baselines.step, hi, hj, if_neg e]

theorem call_alike {w w' : Baselines} (h : WAlike w w') (i : Nat) (op : BOp) :
    WAlike (w.step (.call i op)).1 (w'.step (.call i op)).1 ∧
      (w'.step (.call i op)).2 = (w.step (.call i op)).2 := by
  cases hi : w[i]? with
  | none => rw [step_call_none hi, step_call_none ((h.none i).2 hi)]; exact ⟨h, rfl⟩
  | some b =>
    cases hi' : w'[i]? with
    | none => rw [(h.none i).1 hi'] at hi; cases hi
    | some b' =>
      obtain ⟨h1, h2⟩ := step_alike (h.each i b b' hi hi') op
      rw [step_call_some hi, step_call_some hi']
      exact ⟨h.set i h1, h2⟩

theorem WAlike.trans {u v w : Baselines} (h : WAlike u v) (k : WAlike v w) : WAlike u w := by
  refine ⟨by rw [k.len, h.len], ?_⟩
  intro i b b' hb hb'
  cases hv : v[i]? with
  | none => rw [(h.none i).1 hv] at hb; cases hb
  | some c =>
    have h1 := h.each i b c hb hv
    have h2 := k.each i c b' hv hb'
    exact ⟨by rw [h2.kind, h1.kind], by rw [h2.contracts, h1.contracts], by rw [h2.states, h1.states],
      by rw [h2.channels, h1.channels], by rw [h2.shape, h1.shape]⟩

theorem swap_alike (w : Baselines) (i j : Nat) (x y : Idx) : WAlike w (w.step (.swapObj i x j y)).1 := by
  unfold Baselines.step
  by_cases e : i = j
  · simp only [e, if_true]; exact .refl w
  · simp only [if_neg e]
    cases hi : w[i]? with
    | none => exact .refl w
    | some a =>
      cases hj : w[j]? with
      | none => exact .refl w
      | some b =>
        obtain ⟨h1, h2⟩ := swapObjects_alike a b x y
        refine ⟨by simp, ?_⟩
        intro k c c' hc hc'
        simp only [List.getElem?_set, List.length_set] at hc'
        have li := (List.getElem?_eq_some_iff.1 hi).1
        have lj := (List.getElem?_eq_some_iff.1 hj).1
        by_cases ej : j = k
        · subst ej
          rw [if_pos rfl, if_pos lj] at hc'
          cases hc'; rw [hj] at hc; cases hc; exact h2
        · rw [if_neg ej] at hc'
          by_cases ei : i = k
          · subst ei
            rw [if_pos rfl, if_pos li] at hc'
            cases hc'; rw [hi] at hc; cases hc; exact h1
          · rw [if_neg ei, hc] at hc'
            cases hc'; exact .refl c

theorem isCall_call (i : Nat) (op : BOp) : (WOp.call i op).isCall = true := rfl
theorem isCall_swap (i j : Nat) (x y : Idx) : (WOp.swapObj i x j y).isCall = false := rfl

theorem run_erase (ops : List WOp) : ∀ {w w' : Baselines}, WAlike w w' →
    (w'.run ops).1.filter (fun e => e.1.isCall) = (w.run (ops.filter WOp.isCall)).1 ∧
      WAlike (w.run (ops.filter WOp.isCall)).2 (w'.run ops).2 := by
  induction ops with
  | nil => intro w w' h; exact ⟨rfl, h⟩
  | cons op ops ih =>
    intro w w' h
    cases op with
    | call i op =>
      obtain ⟨h1, h2⟩ := call_alike h i op
      obtain ⟨h3, h4⟩ := ih h1
      simp only [Baselines.run, List.filter_cons, isCall_call, if_true]
      exact ⟨by rw [h3, h2], h4⟩
    | swapObj i x j y =>
      have h1 := h.trans (swap_alike w' i j x y)
      obtain ⟨h3, h4⟩ := ih h1
      simp only [Baselines.run, List.filter_cons, isCall_swap, Bool.false_eq_true, if_false]
      exact ⟨h3, h4⟩

/-! ## What one call does to objects and stores -/

/-- Either a successful creation, or objects only vanish or change warp and stored fields stay. -/
theorem step_effect {b : Baseline} (ho : Arena.Inv b.objects) (hs : b.states.Inv) (hc : b.channels.Inv) (op : BOp) :
    (∃ C k ss cs, op = .create C k ss cs ∧ ss.map DynProp.propType = C.stateTypes ∧ cs.map Sigma.fst = C.channelTypes ∧
      (b.step op).1.objects = (b.objects.insert (createdObj b k ss cs)).1 ∧
      (b.step op).1.states = (createAll b.states (ss.map DynProp.typed)).1 ∧
      (b.step op).1.channels = (createAll b.channels cs).1 ∧
      (b.step op).2 = .ok (some (b.objects.insert (createdObj b k ss cs)).2)) ∨
    (ObjMono b.objects (b.step op).1.objects ∧ StoreMono b.states (b.step op).1.states ∧ (b.step op).1.states.Inv ∧
      StoreMono b.channels (b.step op).1.channels ∧ (b.step op).1.channels.Inv ∧
      ∀ (C : ContractTy) (k : Idx) (ss : List DynProp) (cs : List DynChannel) (o : Idx),
        (op, (b.step op).2) ≠ (BOp.create C k ss cs, Outcome.ok (some o))) := by
  cases op with
  | register C =>
    right
    have : ∀ b' : Baseline, b'.objects = b.objects → b'.states = b.states → b'.channels = b.channels →
        ObjMono b.objects b'.objects ∧ StoreMono b.states b'.states ∧ b'.states.Inv ∧ StoreMono b.channels b'.channels ∧ b'.channels.Inv := by
      intro b' e1 e2 e3
      rw [e1, e2, e3]; exact ⟨.refl ho, storeMono_refl _, hs, storeMono_refl _, hc⟩
    rcases registerContract_cases b C with ⟨_, hr⟩ | ⟨_, hr⟩
    · obtain ⟨h1, h2, h3, h4, h5⟩ := this (b.step (.register C)).1 (by simp only [Baseline.step, hr]) (by simp only [Baseline.step, hr]) (by simp only [Baseline.step, hr])
      exact ⟨h1, h2, h3, h4, h5, fun _ _ _ _ _ e => (by cases congrArg Prod.fst e)⟩
    · obtain ⟨h1, h2, h3, h4, h5⟩ := this (b.step (.register C)).1 (by simp only [Baseline.step, hr]) (by simp only [Baseline.step, hr]) (by simp only [Baseline.step, hr])
      exact ⟨h1, h2, h3, h4, h5, fun _ _ _ _ _ e => (by cases congrArg Prod.fst e)⟩
  | unregister C k ord =>
    right
    have hfst : (b.step (.unregister C k ord)).1 = (b.unregisterContract C k ord).1 := rfl
    rw [hfst]
    rcases unregister_cases b C k ord with ⟨h1, _, _⟩ | ⟨cd, cons, done, _, _, _, _, h5⟩
    · rw [h1]
      exact ⟨.refl ho, storeMono_refl _, hs, storeMono_refl _, hc, fun _ _ _ _ _ e => (by cases congrArg Prod.fst e)⟩
    · rcases h5 with ⟨_, h5⟩ | ⟨h5, _⟩
      · rw [h5]
        exact ⟨.removeList ho done, storeMono_refl _, hs, storeMono_refl _, hc, fun _ _ _ _ _ e => (by cases congrArg Prod.fst e)⟩
      · rw [h5]
        exact ⟨.removeList ho done, storeMono_refl _, hs, storeMono_refl _, hc, fun _ _ _ _ _ e => (by cases congrArg Prod.fst e)⟩
  | create C k ss cs =>
    rcases objectCreate_cases b C k ss cs with ⟨⟨cd, hcd⟩, h1, h2⟩ | ⟨h1, h2, _⟩
    · left
      obtain ⟨cons, _, hr⟩ := objectCreate_ok hcd h1 h2
      refine ⟨C, k, ss, cs, rfl, h1, h2, ?_⟩
      simp only [Baseline.step, hr, Outcome.map, Outcome.bind, and_self]
    · right
      have hfst : (b.step (.create C k ss cs)).1 = b := h1
      rw [hfst]
      refine ⟨.refl ho, storeMono_refl _, hs, storeMono_refl _, hc, ?_⟩
      intro C' k' ss' cs' o e
      have e2 := congrArg Prod.snd e
      simp only [Baseline.step] at e2
      cases hr : (b.objectCreate C k ss cs).2 with
      | ok _ => rw [hr] at h2; cases h2
      | err m => rw [hr] at e2; cases e2
      | panic m => rw [hr] at e2; cases e2
  | remove C o =>
    right
    have hfst : (b.step (.remove C o)).1 = (b.objectRemove C o).1 := rfl
    rw [hfst, objectRemove_fst]
    exact ⟨.removeList ho [o], storeMono_refl _, hs, storeMono_refl _, hc, fun _ _ _ _ _ e => (by cases congrArg Prod.fst e)⟩
  | writeState t k v =>
    right
    have hfst : (b.step (.writeState t k v)).1 = (b.stateWrite t k v).1 := rfl
    rw [hfst]
    unfold stateWrite
    cases hw : b.states.write t k v with
    | none => exact ⟨.refl ho, storeMono_refl _, hs, storeMono_refl _, hc, fun _ _ _ _ _ e => (by cases congrArg Prod.fst e)⟩
    | some s =>
      exact ⟨.refl ho, fun _ _ => get_write_live hw, write_inv hs hw, storeMono_refl _, hc, fun _ _ _ _ _ e => (by cases congrArg Prod.fst e)⟩
  | writeChannel t k v =>
    right
    have hfst : (b.step (.writeChannel t k v)).1 = (b.channelWrite t k v).1 := rfl
    rw [hfst]
    unfold channelWrite
    cases hw : b.channels.write t k v with
    | none => exact ⟨.refl ho, storeMono_refl _, hs, storeMono_refl _, hc, fun _ _ _ _ _ e => (by cases congrArg Prod.fst e)⟩
    | some s =>
      exact ⟨.refl ho, storeMono_refl _, hs, fun _ _ => get_write_live hw, write_inv hc hw, fun _ _ _ _ _ e => (by cases congrArg Prod.fst e)⟩
  | setWarp o w =>
    right
    have hfst : (b.step (.setWarp o w)).1 = (b.setWarp o w).1 := rfl
    rw [hfst]
    unfold Baseline.setWarp
    cases hm : b.objects.modify o (fun ob => { ob with warp := w }) with
    | none => exact ⟨.refl ho, storeMono_refl _, hs, storeMono_refl _, hc, fun _ _ _ _ _ e => (by cases congrArg Prod.fst e)⟩
    | some a => exact ⟨.warp ho hm, storeMono_refl _, hs, storeMono_refl _, hc, fun _ _ _ _ _ e => (by cases congrArg Prod.fst e)⟩

/-! ## Where each object came from -/

/-- The creation an object record stems from: baseline variable, handle and contract type. -/
structure Home where
  at_ : Nat
  handle : Idx
  ty : ContractTy

abbrev WLog := List (WOp × BOut)

def WCreated (log : WLog) (j : Nat) (y : Idx) (C : ContractTy) (k : Idx) : Prop :=
  ∃ ss cs, (WOp.call j (.create C k ss cs), Outcome.ok (some y)) ∈ log

/-- The record under handle `x` of baseline `i`. -/
def Baselines.rec (w : Baselines) (i : Nat) (x : Idx) (ob : ObjectD) : Prop :=
  ∃ b, w[i]? = some b ∧ b.objects.get x = some ob

structure WInv (log : WLog) (w : Baselines) (home : Nat → Idx → Home) : Prop where
  base : ∀ (i : Nat) (b : Baseline), w[i]? = some b → Arena.Inv b.objects ∧ b.states.Inv ∧ b.channels.Inv
  issued : ∀ (j : Nat) (y : Idx) (C : ContractTy) (k : Idx) (b : Baseline), WCreated log j y C k → w[j]? = some b →
    (∃ ob, b.objects.get y = some ob) ∨ Dead b.objects y
  live : ∀ (i : Nat) (x : Idx) (ob : ObjectD), w.rec i x ob →
    WCreated log (home i x).at_ (home i x).handle (home i x).ty ob.contract ∧
    ∃ b, w[(home i x).at_]? = some b ∧ FieldsOk b.states (home i x).ty.stateTypes ob.states ∧
      FieldsOk b.channels (home i x).ty.channelTypes ob.channels
  inj : ∀ (i i' : Nat) (x x' : Idx) (ob ob' : ObjectD), w.rec i x ob → w.rec i' x' ob' →
    (home i x).at_ = (home i' x').at_ → (home i x).handle = (home i' x').handle → i = i' ∧ x = x'
  aliasS : ∀ (i i' : Nat) (x x' : Idx) (ob ob' : ObjectD) (n n' : Nat) (t : PropType) (f : Idx),
    w.rec i x ob → w.rec i' x' ob' → (home i x).at_ = (home i' x').at_ →
    (home i x).ty.stateTypes[n]? = some t → ob.states[n]? = some f →
    (home i' x').ty.stateTypes[n']? = some t → ob'.states[n']? = some f → (i = i' ∧ x = x') ∧ n = n'
  aliasC : ∀ (i i' : Nat) (x x' : Idx) (ob ob' : ObjectD) (n n' : Nat) (t : PropType) (f : Idx),
    w.rec i x ob → w.rec i' x' ob' → (home i x).at_ = (home i' x').at_ →
    (home i x).ty.channelTypes[n]? = some t → ob.channels[n]? = some f →
    (home i' x').ty.channelTypes[n']? = some t → ob'.channels[n']? = some f → (i = i' ∧ x = x') ∧ n = n'

theorem get_new_objects (k : Kind) (x : Idx) : (Baseline.new k).objects.get x = none := get_new x

theorem fresh_winv (kinds : List Kind) (home : Nat → Idx → Home) : WInv [] (Baselines.fresh kinds) home := by
  have hr : ∀ (i : Nat) (x : Idx) (ob : ObjectD), ¬ (Baselines.fresh kinds).rec i x ob := by
    rintro i x ob ⟨b, hb, hg⟩
    simp only [Baselines.fresh, List.getElem?_map] at hb
    cases hk : kinds[i]? with
    | none => rw [hk] at hb; cases hb
    | some k => rw [hk] at hb; cases hb; rw [get_new_objects] at hg; cases hg
  refine ⟨?_, ?_, fun i x ob h => absurd h (hr _ _ _), fun _ _ _ _ _ _ h => absurd h (hr _ _ _),
    fun _ _ _ _ _ _ _ _ _ _ h => absurd h (hr _ _ _), fun _ _ _ _ _ _ _ _ _ _ h => absurd h (hr _ _ _)⟩
  · intro i b hb
    simp only [Baselines.fresh, List.getElem?_map] at hb
    cases hk : kinds[i]? with
    | none => rw [hk] at hb; cases hb
    | some k => rw [hk] at hb; cases hb; exact ⟨new_inv, empty_inv, empty_inv⟩
  · rintro j y C k b ⟨ss, cs, hm⟩; cases hm

/-- A step that loses records, moves none, and keeps every stored field. -/
theorem WInv.mono {log : WLog} {w w' : Baselines} {home : Nat → Idx → Home} (h : WInv log w home) {e : WOp × BOut}
    (he : ∀ (j : Nat) (C : ContractTy) (k : Idx) (ss : List DynProp) (cs : List DynChannel) (y : Idx),
      e ≠ (WOp.call j (.create C k ss cs), Outcome.ok (some y)))
    (hb : ∀ (i : Nat) (b' : Baseline), w'[i]? = some b' → ∃ b, w[i]? = some b ∧ ObjMono b.objects b'.objects ∧
      StoreMono b.states b'.states ∧ b'.states.Inv ∧ StoreMono b.channels b'.channels ∧ b'.channels.Inv)
    (hf : ∀ (i : Nat) (b : Baseline), w[i]? = some b → ∃ b', w'[i]? = some b') :
    WInv (log ++ [e]) w' home := by
  have hcr : ∀ (j : Nat) (y : Idx) (C : ContractTy) (k : Idx), WCreated (log ++ [e]) j y C k ↔ WCreated log j y C k := by
    intro j y C k
    constructor
    · rintro ⟨ss, cs, hm⟩
      rcases List.mem_append.1 hm with hm | hm
      · exact ⟨ss, cs, hm⟩
      · simp at hm; exact absurd hm.symm (he j C k ss cs y)
    · rintro ⟨ss, cs, hm⟩; exact ⟨ss, cs, by simp [hm]⟩
  have back : ∀ (i : Nat) (x : Idx) (ob' : ObjectD), w'.rec i x ob' → ∃ ob, w.rec i x ob ∧ SameShape ob ob' := by
    rintro i x ob' ⟨b', h1, h2⟩
    obtain ⟨b, h3, h4, _⟩ := hb i b' h1
    obtain ⟨ob, h5, h6⟩ := h4.back x ob' h2
    exact ⟨ob, ⟨b, h3, h5⟩, h6⟩
  refine ⟨?_, ?_, ?_, ?_, ?_, ?_⟩
  · intro i b' h1
    obtain ⟨b, _, h4, _, h5, _, h6⟩ := hb i b' h1
    exact ⟨h4.inv, h5, h6⟩
  · intro j y C k b' hc h1
    obtain ⟨b, h3, h4, _⟩ := hb j b' h1
    rcases h.issued j y C k b ((hcr _ _ _ _).1 hc) h3 with ⟨ob, hob⟩ | hd
    · rcases h4.fwd y ob hob with ⟨ob', h5, _⟩ | hd
      · exact .inl ⟨ob', h5⟩
      · exact .inr hd
    · exact .inr (h4.dead y hd)
  · intro i x ob' hr
    obtain ⟨ob, h1, e1, e2, e3⟩ := back i x ob' hr
    obtain ⟨h2, b, h3, h4, h5⟩ := h.live i x ob h1
    obtain ⟨b', h6⟩ := hf _ _ h3
    obtain ⟨b0, h7, _, h8, _, h9, _⟩ := hb _ b' h6
    rw [h3] at h7; cases h7
    exact ⟨by rw [e3]; exact (hcr _ _ _ _).2 h2, b', h6, by rw [e1]; exact h4.mono h8, by rw [e2]; exact h5.mono h9⟩
  · intro i i' x x' ob ob' h1 h2
    obtain ⟨o1, h1, _⟩ := back _ _ _ h1
    obtain ⟨o2, h2, _⟩ := back _ _ _ h2
    exact h.inj i i' x x' o1 o2 h1 h2
  · intro i i' x x' ob ob' n n' t f h1 h2 h3 h4 h5 h6 h7
    obtain ⟨o1, h1, e1, _⟩ := back _ _ _ h1
    obtain ⟨o2, h2, e2, _⟩ := back _ _ _ h2
    exact h.aliasS i i' x x' o1 o2 n n' t f h1 h2 h3 h4 (by rw [← e1]; exact h5) h6 (by rw [← e2]; exact h7)
  · intro i i' x x' ob ob' n n' t f h1 h2 h3 h4 h5 h6 h7
    obtain ⟨o1, h1, _, e1, _⟩ := back _ _ _ h1
    obtain ⟨o2, h2, _, e2, _⟩ := back _ _ _ h2
    exact h.aliasC i i' x x' o1 o2 n n' t f h1 h2 h3 h4 (by rw [← e1]; exact h5) h6 (by rw [← e2]; exact h7)


theorem set_get {w : Baselines} {i : Nat} {b b' : Baseline} (h : w[i]? = some b) (j : Nat) :
    (w.set i b')[j]? = if i = j then some b' else w[j]? := by
  have hl := (List.getElem?_eq_some_iff.1 h).1
  rw [List.getElem?_set]
  split
  · rfl
  · rfl

/-- A successful creation adds one record, at home where it was created. -/
theorem WInv.create {log : WLog} {w : Baselines} {home : Nat → Idx → Home} (h : WInv log w home) {i : Nat} {b b' : Baseline}
    (hi : w[i]? = some b) {C : ContractTy} {k : Idx} {ss : List DynProp} {cs : List DynChannel}
    (hss : ss.map DynProp.propType = C.stateTypes) (hcs : cs.map Sigma.fst = C.channelTypes)
    (e1 : b'.objects = (b.objects.insert (createdObj b k ss cs)).1)
    (e2 : b'.states = (createAll b.states (ss.map DynProp.typed)).1)
    (e3 : b'.channels = (createAll b.channels cs).1) :
    WInv (log ++ [(WOp.call i (.create C k ss cs), Outcome.ok (some (b.objects.insert (createdObj b k ss cs)).2))])
      (w.set i b')
      (fun i0 x0 => if i0 = i ∧ x0 = (b.objects.insert (createdObj b k ss cs)).2 then
        ⟨i, (b.objects.insert (createdObj b k ss cs)).2, C⟩ else home i0 x0) := by
  obtain ⟨hO, hS, hC⟩ := h.base i b hi
  have kS := createAll_created hS (ss.map DynProp.typed)
  have kC := createAll_created hC cs
  have kS' : Created b.states (ss.map DynProp.typed) b'.states (createdObj b k ss cs).states := by rw [e2]; exact kS
  have kC' : Created b.channels cs b'.channels (createdObj b k ss cs).channels := by rw [e3]; exact kC
  have hst : (ss.map DynProp.typed).map Sigma.fst = C.stateTypes := by rw [typed_map_fst, hss]
  have hspec := insert_spec hO (createdObj b k ss cs)
  generalize hnew : (b.objects.insert (createdObj b k ss cs)).2 = new at *
  generalize hobj : createdObj b k ss cs = obj at *
  have hk : obj.contract = k := by rw [← hobj]; rfl
  have hget : ∀ x : Idx, b'.objects.get x = if x = new then some obj else b.objects.get x := by
    intro x; rw [e1, get_insert hO, hnew]
  have newdead : b.objects.get new = none := hspec.dead
  have cases_ : ∀ (i0 : Nat) (x0 : Idx) (ob0 : ObjectD), Baselines.rec (w.set i b') i0 x0 ob0 →
      (i0 = i ∧ x0 = new ∧ ob0 = obj) ∨ (¬ (i0 = i ∧ x0 = new) ∧ w.rec i0 x0 ob0) := by
    rintro i0 x0 ob0 ⟨b0, h1, h2⟩
    rw [set_get hi] at h1
    split at h1
    · rename_i e; subst e
      cases h1
      rw [hget] at h2
      split at h2
      · rename_i e; cases h2; exact .inl ⟨rfl, e, rfl⟩
      · rename_i e; exact .inr ⟨fun q => e q.2, b, hi, h2⟩
    · rename_i e; exact .inr ⟨fun q => e q.1.symm, b0, h1, h2⟩
  have hcr : ∀ (j : Nat) (y : Idx) (D : ContractTy) (m : Idx), WCreated log j y D m →
      WCreated (log ++ [(WOp.call i (.create C k ss cs), Outcome.ok (some new))]) j y D m := by
    rintro j y D m ⟨ss', cs', hm⟩; exact ⟨ss', cs', by simp [hm]⟩
  have notnew : ∀ (i0 : Nat) (x0 : Idx) (ob0 : ObjectD), w.rec i0 x0 ob0 → ¬ ((home i0 x0).at_ = i ∧ (home i0 x0).handle = new) := by
    rintro i0 x0 ob0 hr ⟨q1, q2⟩
    have hl := (h.live i0 x0 ob0 hr).1
    rw [q1, q2] at hl
    rcases h.issued _ _ _ _ b hl hi with ⟨ob, hob⟩ | hd
    · rw [newdead] at hob; cases hob
    · have h1 := hd.2; have h2 := hspec.gen; omega
  have oldS : ∀ (i0 : Nat) (x0 : Idx) (ob0 : ObjectD), w.rec i0 x0 ob0 → (home i0 x0).at_ = i →
      FieldsOk b.states (home i0 x0).ty.stateTypes ob0.states ∧ FieldsOk b.channels (home i0 x0).ty.channelTypes ob0.channels := by
    intro i0 x0 ob0 hr q
    obtain ⟨_, b1, h1, h2, h3⟩ := h.live i0 x0 ob0 hr
    rw [q, hi] at h1; cases h1; exact ⟨h2, h3⟩
  have typeAt : ∀ {F : PropType → Type} {ps : List ((t : PropType) × F t)} {types : List PropType} (n : Nat) (t : PropType),
      ps.map Sigma.fst = types → types[n]? = some t → ∃ p, ps[n]? = some p ∧ p.1 = t := by
    intro F ps types n t hp ht
    rw [← hp, List.getElem?_map] at ht
    cases hq : ps[n]? with
    | none => rw [hq] at ht; cases ht
    | some p => rw [hq] at ht; exact ⟨p, rfl, by simpa using ht⟩
  refine ⟨?_, ?_, ?_, ?_, ?_, ?_⟩
  · intro i0 b0 h1
    rw [set_get hi] at h1
    split at h1
    · cases h1
      rw [e1, e2, e3]
      exact ⟨insert_inv hO _, kS.inv, kC.inv⟩
    · exact h.base i0 b0 h1
  · rintro j y D m b0 ⟨ss', cs', hm⟩ h1
    rw [set_get hi] at h1
    rcases List.mem_append.1 hm with hm | hm
    · split at h1
      · rename_i e; subst e
        cases h1
        rcases h.issued _ y D m b ⟨ss', cs', hm⟩ hi with ⟨ob, hob⟩ | hd
        · exact .inl ⟨ob, by rw [e1]; exact get_insert_of_some hO _ _ hob⟩
        · exact .inr (by rw [e1]; exact insert_dead hO hd _)
      · exact h.issued j y D m b0 ⟨ss', cs', hm⟩ h1
    · simp at hm
      obtain ⟨⟨rfl, _⟩, rfl⟩ := hm
      rw [if_pos rfl] at h1
      cases h1
      exact .inl ⟨obj, by rw [hget, if_pos rfl]⟩
  · intro i0 x0 ob0 hr
    rcases cases_ i0 x0 ob0 hr with ⟨rfl, rfl, rfl⟩ | ⟨q, hr⟩
    · simp only [and_self, if_true]
      refine ⟨⟨ss, cs, by simp [hk]⟩, b', by rw [set_get hi, if_pos rfl], ?_, ?_⟩
      · exact fieldsOk_created hst kS'
      · exact fieldsOk_created hcs kC'
    · simp only [if_neg q]
      obtain ⟨h1, b1, h2, h3, h4⟩ := h.live i0 x0 ob0 hr
      refine ⟨hcr _ _ _ _ h1, ?_⟩
      by_cases e : i = (home i0 x0).at_
      · rw [← e, hi] at h2; cases h2
        exact ⟨b', by rw [set_get hi, if_pos e], h3.mono kS'.mono, h4.mono kC'.mono⟩
      · exact ⟨b1, by rw [set_get hi, if_neg e]; exact h2, h3, h4⟩
  · intro i1 i2 x1 x2 o1 o2 h1 h2 q1 q2
    rcases cases_ _ _ _ h1 with ⟨rfl, rfl, rfl⟩ | ⟨n1, r1⟩
    · rcases cases_ _ _ _ h2 with ⟨rfl, rfl, rfl⟩ | ⟨n2, r2⟩
      · exact ⟨rfl, rfl⟩
      · simp only [and_self, if_true, if_neg n2] at q1 q2
        exact absurd ⟨q1.symm, q2.symm⟩ (notnew _ _ _ r2)
    · rcases cases_ _ _ _ h2 with ⟨rfl, rfl, rfl⟩ | ⟨n2, r2⟩
      · simp only [and_self, if_true, if_neg n1] at q1 q2
        exact absurd ⟨q1, q2⟩ (notnew _ _ _ r1)
      · simp only [if_neg n1, if_neg n2] at q1 q2
        exact h.inj _ _ _ _ _ _ r1 r2 q1 q2
  · intro i1 i2 x1 x2 o1 o2 n1 n2 t f h1 h2 q t1 f1 t2 f2
    rcases cases_ _ _ _ h1 with ⟨rfl, rfl, rfl⟩ | ⟨m1, r1⟩
    · rcases cases_ _ _ _ h2 with ⟨rfl, rfl, rfl⟩ | ⟨m2, r2⟩
      · simp only [and_self, if_true] at t1 t2
        obtain ⟨p1, g1, y1⟩ := typeAt n1 t hst t1
        obtain ⟨p2, g2, y2⟩ := typeAt n2 t hst t2
        exact ⟨⟨rfl, rfl⟩, kS'.distinct n1 n2 p1 p2 f g1 f1 g2 f2 (by rw [y1, y2])⟩
      · simp only [and_self, if_true, if_neg m2] at q t1 t2
        obtain ⟨p1, g1, y1⟩ := typeAt n1 t hst t1
        obtain ⟨v, hv⟩ := (oldS _ _ _ r2 q.symm).1.2 n2 t f t2 f2
        have := kS'.fresh n1 p1 f g1 f1
        rw [y1, hv] at this; cases this
    · rcases cases_ _ _ _ h2 with ⟨rfl, rfl, rfl⟩ | ⟨m2, r2⟩
      · simp only [and_self, if_true, if_neg m1] at q t1 t2
        obtain ⟨p2, g2, y2⟩ := typeAt n2 t hst t2
        obtain ⟨v, hv⟩ := (oldS _ _ _ r1 q).1.2 n1 t f t1 f1
        have := kS'.fresh n2 p2 f g2 f2
        rw [y2, hv] at this; cases this
      · simp only [if_neg m1, if_neg m2] at q t1 t2
        exact h.aliasS _ _ _ _ _ _ _ _ _ _ r1 r2 q t1 f1 t2 f2
  · intro i1 i2 x1 x2 o1 o2 n1 n2 t f h1 h2 q t1 f1 t2 f2
    rcases cases_ _ _ _ h1 with ⟨rfl, rfl, rfl⟩ | ⟨m1, r1⟩
    · rcases cases_ _ _ _ h2 with ⟨rfl, rfl, rfl⟩ | ⟨m2, r2⟩
      · simp only [and_self, if_true] at t1 t2
        obtain ⟨p1, g1, y1⟩ := typeAt n1 t hcs t1
        obtain ⟨p2, g2, y2⟩ := typeAt n2 t hcs t2
        exact ⟨⟨rfl, rfl⟩, kC'.distinct n1 n2 p1 p2 f g1 f1 g2 f2 (by rw [y1, y2])⟩
      · simp only [and_self, if_true, if_neg m2] at q t1 t2
        obtain ⟨p1, g1, y1⟩ := typeAt n1 t hcs t1
        obtain ⟨v, hv⟩ := (oldS _ _ _ r2 q.symm).2.2 n2 t f t2 f2
        have := kC'.fresh n1 p1 f g1 f1
        rw [y1, hv] at this; cases this
    · rcases cases_ _ _ _ h2 with ⟨rfl, rfl, rfl⟩ | ⟨m2, r2⟩
      · simp only [and_self, if_true, if_neg m1] at q t1 t2
        obtain ⟨p2, g2, y2⟩ := typeAt n2 t hcs t2
        obtain ⟨v, hv⟩ := (oldS _ _ _ r1 q).2.2 n1 t f t1 f1
        have := kC'.fresh n2 p2 f g2 f2
        rw [y2, hv] at this; cases this
      · simp only [if_neg m1, if_neg m2] at q t1 t2
        exact h.aliasC _ _ _ _ _ _ _ _ _ _ r1 r2 q t1 f1 t2 f2

/-- The transposition of two places. -/
def transp (p q : Nat × Idx) (r : Nat × Idx) : Nat × Idx := if r = p then q else if r = q then p else r

theorem transp_inj (p q r s : Nat × Idx) (h : transp p q r = transp p q s) : r = s := by
  unfold transp at h
  by_cases h1 : r = p <;> by_cases h2 : s = p <;> by_cases h3 : r = q <;> by_cases h4 : s = q <;>
    simp_all

/-- A swap moves two records and their homes. -/
theorem WInv.swap {log : WLog} {w w' : Baselines} {home : Nat → Idx → Home} (h : WInv log w home) {e : WOp × BOut}
    (he : ∀ (j : Nat) (C : ContractTy) (k : Idx) (ss : List DynProp) (cs : List DynChannel) (y : Idx),
      e ≠ (WOp.call j (.create C k ss cs), Outcome.ok (some y)))
    (p q : Nat × Idx)
    (hw : WAlike w w') (hinv : ∀ (i : Nat) (b : Baseline), w'[i]? = some b → Arena.Inv b.objects)
    (hdead : ∀ (i : Nat) (b b' : Baseline) (y : Idx), w[i]? = some b → w'[i]? = some b' → Dead b.objects y → Dead b'.objects y)
    (hr : ∀ (i : Nat) (x : Idx) (ob : ObjectD), w'.rec i x ob → w.rec (transp p q (i, x)).1 (transp p q (i, x)).2 ob) :
    WInv (log ++ [e]) w' (fun i x => home (transp p q (i, x)).1 (transp p q (i, x)).2) := by
  have hcr : ∀ (j : Nat) (y : Idx) (C : ContractTy) (k : Idx), WCreated (log ++ [e]) j y C k ↔ WCreated log j y C k := by
    intro j y C k
    constructor
    · rintro ⟨ss, cs, hm⟩
      rcases List.mem_append.1 hm with hm | hm
      · exact ⟨ss, cs, hm⟩
      · simp at hm; exact absurd hm.symm (he j C k ss cs y)
    · rintro ⟨ss, cs, hm⟩; exact ⟨ss, cs, by simp [hm]⟩
  have fwd : ∀ (i : Nat) (b : Baseline), w[i]? = some b → ∃ b', w'[i]? = some b' ∧ Alike b b' := by
    intro i b hb
    cases h' : w'[i]? with
    | none => rw [(hw.none i).1 h'] at hb; cases hb
    | some b' => exact ⟨b', rfl, hw.each i b b' hb h'⟩
  have bwd : ∀ (i : Nat) (b' : Baseline), w'[i]? = some b' → ∃ b, w[i]? = some b ∧ Alike b b' := by
    intro i b' hb
    cases h' : w[i]? with
    | none => rw [(hw.none i).2 h'] at hb; cases hb
    | some b => exact ⟨b, rfl, hw.each i b b' h' hb⟩
  have eqof : ∀ (i i' : Nat) (x x' : Idx), ((transp p q (i, x)).1 = (transp p q (i', x')).1 ∧
      (transp p q (i, x)).2 = (transp p q (i', x')).2) → i = i' ∧ x = x' := by
    intro i i' x x' ⟨h1, h2⟩
    have := transp_inj p q _ _ (Prod.ext h1 h2)
    exact ⟨congrArg Prod.fst this, congrArg Prod.snd this⟩
  refine ⟨?_, ?_, ?_, ?_, ?_, ?_⟩
  · intro i b' hb
    obtain ⟨b, h1, h2⟩ := bwd i b' hb
    obtain ⟨_, h3, h4⟩ := h.base i b h1
    exact ⟨hinv i b' hb, by rw [h2.states]; exact h3, by rw [h2.channels]; exact h4⟩
  · intro j y C k b' hc hb
    obtain ⟨b, h1, h2⟩ := bwd j b' hb
    rcases h.issued j y C k b ((hcr _ _ _ _).1 hc) h1 with ⟨ob, hob⟩ | hd
    · left
      cases hg : b'.objects.get y with
      | none => rw [(h2.get_none y).1 hg] at hob; cases hob
      | some o => exact ⟨o, rfl⟩
    · exact .inr (hdead j b b' y h1 hb hd)
  · intro i x ob hrec
    obtain ⟨h1, b, h2, h3, h4⟩ := h.live _ _ ob (hr i x ob hrec)
    obtain ⟨b', h5, h6⟩ := fwd _ b h2
    exact ⟨(hcr _ _ _ _).2 h1, b', h5, by rw [h6.states]; exact h3, by rw [h6.channels]; exact h4⟩
  · intro i i' x x' ob ob' h1 h2 q1 q2
    exact eqof _ _ _ _ (h.inj _ _ _ _ _ _ (hr _ _ _ h1) (hr _ _ _ h2) q1 q2)
  · intro i i' x x' ob ob' n n' t f h1 h2 q1 t1 f1 t2 f2
    obtain ⟨h3, h4⟩ := h.aliasS _ _ _ _ _ _ _ _ _ _ (hr _ _ _ h1) (hr _ _ _ h2) q1 t1 f1 t2 f2
    exact ⟨eqof _ _ _ _ h3, h4⟩
  · intro i i' x x' ob ob' n n' t f h1 h2 q1 t1 f1 t2 f2
    obtain ⟨h3, h4⟩ := h.aliasC _ _ _ _ _ _ _ _ _ _ (hr _ _ _ h1) (hr _ _ _ h2) q1 t1 f1 t2 f2
    exact ⟨eqof _ _ _ _ h3, h4⟩

theorem step_winv {log : WLog} {w : Baselines} {home : Nat → Idx → Home} (h : WInv log w home) (op : WOp) :
    ∃ home', WInv (log ++ [(op, (w.step op).2)]) (w.step op).1 home' := by
  have same : ∀ e : WOp × BOut, (∀ (j : Nat) (C : ContractTy) (k : Idx) (ss : List DynProp) (cs : List DynChannel) (y : Idx),
      e ≠ (WOp.call j (.create C k ss cs), Outcome.ok (some y))) → WInv (log ++ [e]) w home := by
    intro e he
    refine h.mono he ?_ (fun i b hb => ⟨b, hb⟩)
    intro i b hb
    obtain ⟨h1, h2, h3⟩ := h.base i b hb
    exact ⟨b, hb, .refl h1, storeMono_refl _, h2, storeMono_refl _, h3⟩
  cases op with
  | call i op =>
    cases hi : w[i]? with
    | none =>
      rw [step_call_none hi]
      exact ⟨home, same _ (fun _ _ _ _ _ _ e => (by cases congrArg Prod.snd e))⟩
    | some b =>
      rw [step_call_some hi]
      obtain ⟨hO, hS, hC⟩ := h.base i b hi
      rcases step_effect hO hS hC op with ⟨C, k, ss, cs, rfl, h1, h2, e1, e2, e3, e4⟩ | ⟨h1, h2, h3, h4, h5, h6⟩
      · rw [e4]
        exact ⟨_, h.create hi h1 h2 e1 e2 e3⟩
      · refine ⟨home, h.mono ?_ ?_ ?_⟩
        · intro j C k ss cs y e
          have q1 := congrArg Prod.fst e
          have q2 := congrArg Prod.snd e
          simp only [WOp.call.injEq] at q1 q2
          exact h6 C k ss cs y (Prod.ext q1.2 q2)
        · intro j b' hb'
          rw [set_get hi] at hb'
          split at hb'
          · rename_i e; subst e
            cases hb'
            exact ⟨b, hi, h1, h2, h3, h4, h5⟩
          · obtain ⟨k1, k2, k3⟩ := h.base j b' hb'
            exact ⟨b', hb', .refl k1, storeMono_refl _, k2, storeMono_refl _, k3⟩
        · intro j b0 hb0
          rw [set_get hi]
          split
          · exact ⟨_, rfl⟩
          · exact ⟨b0, hb0⟩
  | swapObj i x j y =>
    by_cases e : i = j
    · have : w.step (.swapObj i x j y) = (w, .err "borrowed twice") := by simp only [Baselines.step, if_pos e]
      rw [this]
      exact ⟨home, same _ (fun _ _ _ _ _ _ e => (by cases congrArg Prod.snd e))⟩
    · cases hi : w[i]? with
      | none =>
        have : w.step (.swapObj i x j y) = (w, .err "no such baseline") := by simp only [Baselines.step, if_neg e, hi]
        rw [this]
        exact ⟨home, same _ (fun _ _ _ _ _ _ e => (by cases congrArg Prod.snd e))⟩
      | some a =>
        cases hj : w[j]? with
        | none =>
          have : w.step (.swapObj i x j y) = (w, .err "no such baseline") := by simp only [Baselines.step, if_neg e, hi, hj]
          rw [this]
          exact ⟨home, same _ (fun _ _ _ _ _ _ e => (by cases congrArg Prod.snd e))⟩
        | some b =>
          have hal := swap_alike w i j x y
          rw [step_swap_some e hi hj] at hal ⊢
          rcases swapObjects_cases a b x y with ⟨p, q, oa, ob, hp, hq, hma, hmb, hs⟩ | ⟨_, hs⟩
          · rw [hs] at hal ⊢
            simp only at hal ⊢
            have hgets : ∀ k : Nat, ((w.set i { a with objects := oa }).set j { b with objects := ob })[k]? =
                if j = k then some { b with objects := ob } else if i = k then some { a with objects := oa } else w[k]? := by
              intro k
              have hj' : (w.set i { a with objects := oa })[j]? = some b := by rw [set_get hi, if_neg e, hj]
              rw [set_get hj', set_get hi]
            refine ⟨_, h.swap (fun _ _ _ _ _ _ e => (by cases congrArg Prod.fst e)) (i, x) (j, y) hal ?_ ?_ ?_⟩
            · intro k c hc
              rw [hgets] at hc
              split at hc
              · cases hc; exact modify_inv (h.base j b hj).1 hmb
              · split at hc
                · cases hc; exact modify_inv (h.base i a hi).1 hma
                · exact (h.base k c hc).1
            · intro k c c' z hc hc' hd
              rw [hgets] at hc'
              split at hc'
              · rename_i ek; subst ek
                rw [hj] at hc; cases hc; cases hc'
                exact modify_dead hd hmb
              · split at hc'
                · rename_i ek; subst ek
                  rw [hi] at hc; cases hc; cases hc'
                  exact modify_dead hd hma
                · rw [hc] at hc'; cases hc'; exact hd
            · rintro k z o ⟨c, hc, hg⟩
              rw [hgets] at hc
              split at hc
              · rename_i ek; subst ek
                cases hc
                simp only at hg
                rw [get_modify hmb] at hg
                have n1 : ((j, z) : Nat × Idx) ≠ (i, x) := fun q => e (congrArg Prod.fst q).symm
                split at hg
                · rename_i ez; subst ez
                  rw [hq] at hg
                  simp only [Option.map_some, Option.some.injEq] at hg
                  subst hg
                  simp only [transp, if_neg n1, if_true]
                  exact ⟨a, hi, hp⟩
                · rename_i ez
                  have n2 : ((j, z) : Nat × Idx) ≠ (j, y) := fun q => ez (congrArg Prod.snd q)
                  simp only [transp, if_neg n1, if_neg n2]
                  exact ⟨b, hj, hg⟩
              · split at hc
                · rename_i ek; subst ek
                  cases hc
                  simp only at hg
                  rw [get_modify hma] at hg
                  split at hg
                  · rename_i ez; subst ez
                    rw [hp] at hg
                    simp only [Option.map_some, Option.some.injEq] at hg
                    subst hg
                    simp only [transp, if_true]
                    exact ⟨b, hj, hq⟩
                  · rename_i ez
                    have n1 : ((i, z) : Nat × Idx) ≠ (i, x) := fun q => ez (congrArg Prod.snd q)
                    have n2 : ((i, z) : Nat × Idx) ≠ (j, y) := fun q => e (congrArg Prod.fst q)
                    simp only [transp, if_neg n1, if_neg n2]
                    exact ⟨a, hi, hg⟩
                · rename_i ej ei
                  have n1 : ((k, z) : Nat × Idx) ≠ (i, x) := fun q => ei (congrArg Prod.fst q).symm
                  have n2 : ((k, z) : Nat × Idx) ≠ (j, y) := fun q => ej (congrArg Prod.fst q).symm
                  simp only [transp, if_neg n1, if_neg n2]
                  exact ⟨c, hc, hg⟩
          · rw [hs]
            simp only
            have hw : (w.set i a).set j b = w := by
              apply List.ext_getElem?
              intro k
              have hj' : (w.set i a)[j]? = some b := by rw [set_get hi, if_neg e, hj]
              rw [set_get hj', set_get hi]
              split
              · rename_i ek; subst ek; exact hj.symm
              · split
                · rename_i ek; subst ek; exact hi.symm
                · rfl
            rw [hw]
            exact ⟨home, same _ (fun _ _ _ _ _ _ e => (by cases congrArg Prod.snd e))⟩

theorem run_winv (ops : List WOp) : ∀ {log : WLog} {w : Baselines} {home : Nat → Idx → Home}, WInv log w home →
    ∃ home', WInv (log ++ (w.run ops).1) (w.run ops).2 home' := by
  induction ops with
  | nil => intro log w home h; exact ⟨home, by simpa [Baselines.run] using h⟩
  | cons op ops ih =>
    intro log w home h
    obtain ⟨h1, hh⟩ := step_winv h op
    obtain ⟨h2, hh2⟩ := ih hh
    refine ⟨h2, ?_⟩
    simpa [Baselines.run] using hh2

end Verif
