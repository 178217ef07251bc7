import Verif.Model.ArenaIter
import Verif.Props.Arena
/-!
# C86: iterating over an arena from both ends
-/
namespace Verif.Props
open Verif Verif.Arena

variable {α : Type}

/-- Specification: taking items from the ends of a list, with the number of items before each call. -/
def takeEnds : List α → List End → List ((Nat × Option Nat) × Option α)
  | _, [] => []
  | l, .front :: es => ((l.length, some l.length), l.head?) :: takeEnds l.tail es
  | l, .back :: es => ((l.length, some l.length), l.getLast?) :: takeEnds l.dropLast es

/-- Specification: `l` is all there is in the arena, in ascending order of handles. -/
def AllInOrder (a : Arena α) (l : List (Idx × α)) : Prop :=
  l.Pairwise (fun x y => Idx.lt x.1 y.1) ∧ ∀ i v, (i, v) ∈ l ↔ a.get i = some v

/-- The entries among numbered slots. -/
def liveOf : List (Nat × Slot α) → List (Idx × α)
  | [] => []
  | (_, .free _) :: r => liveOf r
  | (k, .occ g v) :: r => (⟨k, g⟩, v) :: liveOf r

theorem liveOf_number (l : List (Slot α)) (k : Nat) : liveOf (number k l) = entriesFrom k l := by
  induction l generalizing k with
  | nil => rfl
  | cons s l ih => cases s <;> simp [number, liveOf, entriesFrom, ih]

theorem liveOf_append (r s : List (Nat × Slot α)) : liveOf (r ++ s) = liveOf r ++ liveOf s := by
  induction r with
  | nil => rfl
  | cons x r ih =>
    obtain ⟨k, x⟩ := x
    cases x <;> simp [liveOf, ih]

theorem liveOf_reverse (r : List (Nat × Slot α)) : liveOf r.reverse = (liveOf r).reverse := by
  induction r with
  | nil => rfl
  | cons x r ih =>
    obtain ⟨k, x⟩ := x
    rw [List.reverse_cons, liveOf_append, ih]
    cases x <;> simp [liveOf]

theorem walk_spec (r : List (Nat × Slot α)) (n : Nat) (h : n = (liveOf r).length) :
    ∃ r', walk n r = .ok ((liveOf r).head?, r', n - 1) ∧ liveOf r' = (liveOf r).tail := by
  induction r with
  | nil => subst h; exact ⟨[], rfl, rfl⟩
  | cons x r ih =>
    obtain ⟨k, x⟩ := x
    cases x with
    | free nx =>
      obtain ⟨r', h1, h2⟩ := ih h
      exact ⟨r', h1, h2⟩
    | occ g v =>
      refine ⟨r, ?_, rfl⟩
      simp only [liveOf, List.length_cons] at h
      simp only [walk, liveOf, List.head?_cons]
      rw [if_neg (by omega)]

theorem take_spec (it : Iter α) (h : it.left = (liveOf it.rest).length) : ∀ e : End, ∃ it', it.take e =
    .ok ((match e with | .front => (liveOf it.rest).head? | .back => (liveOf it.rest).getLast?), it') ∧
    liveOf it'.rest = (match e with | .front => (liveOf it.rest).tail | .back => (liveOf it.rest).dropLast) ∧
    it'.left = (liveOf it'.rest).length
  | .front => by
    obtain ⟨r', h1, h2⟩ := walk_spec it.rest it.left h
    refine ⟨⟨r', it.left - 1⟩, ?_, h2, ?_⟩
    · simp only [Iter.take, h1]
    · simp only [h2, h, List.length_tail]
  | .back => by
    obtain ⟨r', h1, h2⟩ := walk_spec it.rest.reverse it.left (by rw [liveOf_reverse, List.length_reverse]; exact h)
    rw [liveOf_reverse] at h1 h2
    have h3 : liveOf r'.reverse = (liveOf it.rest).dropLast := by
      rw [liveOf_reverse, h2, List.tail_reverse, List.reverse_reverse]
    refine ⟨⟨r'.reverse, it.left - 1⟩, ?_, h3, ?_⟩
    · simp only [Iter.take, h1, List.head?_reverse]
    · simp only [h3, h, List.length_dropLast]

theorem run_spec (es : List End) : ∀ (it : Iter α), it.left = (liveOf it.rest).length → it.run es = .ok (takeEnds (liveOf it.rest) es) := by
  induction es with
  | nil => intro _ _; rfl
  | cons e es ih =>
    intro it h
    obtain ⟨it', h1, h2, h3⟩ := take_spec it h e
    have h4 := ih it' h3
    unfold Iter.run
    rw [h1]
    simp only [h4, Iter.sizeHint, h]
    cases e <;> simp only [takeEnds, h2]

theorem iterator_left (c : Nat) (ops : List (ArenaOp α)) : (history c ops).iterator.left = (liveOf (history c ops).iterator.rest).length := by
  have := iter_length (history_inv c ops)
  unfold Arena.iter at this
  simp only [iterator, liveOf_number]
  exact this.symm

theorem iter_allInOrder (a : Arena α) : AllInOrder a a.iter := by
  refine ⟨?_, fun i v => mem_iter⟩
  have h := (entriesFrom_slots (l := a.slots) (k := 0)).1
  rw [List.pairwise_map] at h
  exact h.imp fun hlt => .inl hlt

/-- There is only one such list. -/
theorem allInOrder_unique {a : Arena α} {l l' : List (Idx × α)} (h : AllInOrder a l) (h' : AllInOrder a l') : l = l' := by
  have irr : ∀ x : Idx, ¬ Idx.lt x x := by
    intro x hx
    rcases hx with hx | ⟨_, hx⟩ <;> omega
  have tr : ∀ x y z : Idx, Idx.lt x y → Idx.lt y z → Idx.lt x z := by
    intro x y z h1 h2
    unfold Idx.lt at *
    omega
  have key : ∀ (l l' : List (Idx × α)), l.Pairwise (fun x y => Idx.lt x.1 y.1) → l'.Pairwise (fun x y => Idx.lt x.1 y.1) →
      (∀ x, x ∈ l ↔ x ∈ l') → l = l' := by
    intro l
    induction l with
    | nil =>
      intro l' _ _ hm
      cases l' with
      | nil => rfl
      | cons y l' => exact absurd ((hm y).2 (by simp)) (by simp)
    | cons x l ih =>
      intro l' hp hp' hm
      cases l' with
      | nil => exact absurd ((hm x).1 (by simp)) (by simp)
      | cons y l' =>
        rw [List.pairwise_cons] at hp hp'
        have hxy : x = y := by
          rcases List.mem_cons.1 ((hm x).1 (by simp)) with e | e
          · exact e
          · rcases List.mem_cons.1 ((hm y).2 (by simp)) with e' | e'
            · exact e'.symm
            · exact absurd (tr _ _ _ (hp.1 y e') (hp'.1 x e)) (irr _)
        subst hxy
        rw [ih l' hp.2 hp'.2]
        intro z
        constructor
        · intro hz
          rcases List.mem_cons.1 ((hm z).1 (by simp [hz])) with e | e
          · subst e; exact absurd (hp.1 z hz) (irr _)
          · exact e
        · intro hz
          rcases List.mem_cons.1 ((hm z).2 (by simp [hz])) with e | e
          · subst e; exact absurd (hp'.1 z hz) (irr _)
          · exact e
  exact key l l' h.1 h'.1 fun x => (h.2 x.1 x.2).trans (h'.2 x.1 x.2).symm

/-- **C86.** After any history, and for any sequence of `next` and `next_back` calls: nothing panics, the items come from the two ends of the
list of all live entries in ascending order of handles, each once, and the size hint before each call is the number of items still to come;
after the last item there is only `None`. -/
theorem C86_iter_both_ends (c : Nat) (ops : List (ArenaOp α)) (es : List End) :
    ∃ l, AllInOrder (history c ops) l ∧ (∀ l', AllInOrder (history c ops) l' → l' = l) ∧ l.length = (history c ops).len ∧
      (history c ops).iterator.run es = .ok (takeEnds l es) := by
  refine ⟨(history c ops).iter, iter_allInOrder _, fun l' h => allInOrder_unique h (iter_allInOrder _), iter_length (history_inv c ops), ?_⟩
  rw [run_spec es _ (iterator_left c ops)]
  simp only [iterator, liveOf_number, Arena.iter]

/-- What is written through the items of `iter_mut`, as a list of handles and functions. -/
def written : List (Idx × α) → List (End × (α → α)) → List (Idx × (α → α))
  | _, [] => []
  | l, (.front, f) :: es => (match l.head? with | some x => [(x.1, f)] | none => []) ++ written l.tail es
  | l, (.back, f) :: es => (match l.getLast? with | some x => [(x.1, f)] | none => []) ++ written l.dropLast es

theorem get_modifyD (a : Arena α) (i j : Idx) (f : α → α) : ((a.modify i f).getD a).get j = if j = i then (a.get j).map f else a.get j := by
  cases hm : a.modify i f with
  | none =>
    rw [modify_eq_none] at hm
    simp only [Option.getD_none]
    split
    · rename_i e; subst e; rw [hm]; rfl
    · rfl
  | some a' =>
    simp only [Option.getD_some]
    rw [get_modify hm]
    by_cases e : j = i
    · subst e; simp
    · rw [if_neg (fun e' => e (by first | exact e' | exact e'.symm)), if_neg e]

theorem modifyD_same (a : Arena α) (i : Idx) (f : α → α) : ((a.modify i f).getD a).count = a.count ∧
    ((a.modify i f).getD a).slots.length = a.slots.length := by
  cases hg : a.get i with
  | none => rw [modify_eq_none.2 hg]; exact ⟨rfl, rfl⟩
  | some v => rw [modify_of_some f hg]; simp

theorem runMut_spec (es : List (End × (α → α))) : ∀ (a : Arena α) (it : Iter α), it.left = (liveOf it.rest).length →
    ∃ a', it.runMut a es = .ok (a', (takeEnds (liveOf it.rest) (es.map Prod.fst)).map Prod.snd) ∧
      a'.count = a.count ∧ a'.slots.length = a.slots.length ∧
      ∀ j, a'.get j = (written (liveOf it.rest) es).foldl (fun x w => if j = w.1 then x.map w.2 else x) (a.get j) := by
  induction es with
  | nil => intro a it _; exact ⟨a, rfl, rfl, rfl, fun _ => rfl⟩
  | cons ef es ih =>
    intro a it h
    obtain ⟨e, f⟩ := ef
    obtain ⟨it', h1, h2, h3⟩ := take_spec it h e
    cases e with
    | front =>
      simp only at h1 h2
      cases hx : (liveOf it.rest).head? with
      | none =>
        obtain ⟨a', k1, k2, k3, k4⟩ := ih a it' h3
        refine ⟨a', ?_, k2, k3, fun j => ?_⟩
        · simp only [Iter.runMut, h1, hx, k1, List.map_cons, takeEnds, h2]
        · rw [k4 j]; simp only [written, hx, h2, List.nil_append]
      | some x =>
        obtain ⟨a', k1, k2, k3, k4⟩ := ih ((a.modify x.1 f).getD a) it' h3
        refine ⟨a', ?_, by rw [k2, (modifyD_same a x.1 f).1], by rw [k3, (modifyD_same a x.1 f).2], fun j => ?_⟩
        · simp only [Iter.runMut, h1, hx, k1, List.map_cons, takeEnds, h2]
        · rw [k4 j, get_modifyD]; simp only [written, hx, h2, List.cons_append, List.nil_append, List.foldl_cons]
    | back =>
      simp only at h1 h2
      cases hx : (liveOf it.rest).getLast? with
      | none =>
        obtain ⟨a', k1, k2, k3, k4⟩ := ih a it' h3
        refine ⟨a', ?_, k2, k3, fun j => ?_⟩
        · simp only [Iter.runMut, h1, hx, k1, List.map_cons, takeEnds, h2]
        · rw [k4 j]; simp only [written, hx, h2, List.nil_append]
      | some x =>
        obtain ⟨a', k1, k2, k3, k4⟩ := ih ((a.modify x.1 f).getD a) it' h3
        refine ⟨a', ?_, by rw [k2, (modifyD_same a x.1 f).1], by rw [k3, (modifyD_same a x.1 f).2], fun j => ?_⟩
        · simp only [Iter.runMut, h1, hx, k1, List.map_cons, takeEnds, h2]
        · rw [k4 j, get_modifyD]; simp only [written, hx, h2, List.cons_append, List.nil_append, List.foldl_cons]

/-- The handles written are among those of the list, each once. -/
theorem written_sub (es : List (End × (α → α))) : ∀ l : List (Idx × α), l.Pairwise (fun x y => Idx.lt x.1 y.1) →
    (∀ w ∈ written l es, ∃ v, (w.1, v) ∈ l) ∧ ((written l es).map Prod.fst).Nodup := by
  have irr : ∀ x : Idx, ¬ Idx.lt x x := by
    intro x hx
    rcases hx with hx | ⟨_, hx⟩ <;> omega
  induction es with
  | nil => intro l _; simp [written]
  | cons ef es ih =>
    intro l hp
    obtain ⟨e, f⟩ := ef
    cases e with
    | front =>
      cases l with
      | nil =>
        have := ih [] (by simp)
        simpa [written] using this
      | cons x l =>
        rw [List.pairwise_cons] at hp
        obtain ⟨k1, k2⟩ := ih l hp.2
        simp only [written, List.head?_cons, List.tail_cons, List.cons_append, List.nil_append]
        refine ⟨?_, ?_⟩
        · intro w hw
          rcases List.mem_cons.1 hw with rfl | hw
          · exact ⟨x.2, by simp⟩
          · obtain ⟨v, hv⟩ := k1 w hw
            exact ⟨v, by simp [hv]⟩
        · rw [List.map_cons, List.nodup_cons]
          refine ⟨?_, k2⟩
          intro hm
          obtain ⟨w, hw, hwe⟩ := List.mem_map.1 hm
          obtain ⟨v, hv⟩ := k1 w hw
          have := hp.1 _ hv
          rw [hwe] at this
          exact irr _ this
    | back =>
      rcases List.eq_nil_or_concat l with rfl | ⟨l', x, rfl⟩
      · have := ih [] (by simp)
        simpa [written] using this
      · rw [List.concat_eq_append, List.pairwise_append] at hp
        obtain ⟨k1, k2⟩ := ih l' hp.1
        simp only [written, List.concat_eq_append, List.getLast?_append, List.getLast?_singleton, Option.some_or, List.dropLast_concat, List.cons_append,
          List.nil_append]
        refine ⟨?_, ?_⟩
        · intro w hw
          rcases List.mem_cons.1 hw with rfl | hw
          · exact ⟨x.2, by simp⟩
          · obtain ⟨v, hv⟩ := k1 w hw
            exact ⟨v, by simp [hv]⟩
        · rw [List.map_cons, List.nodup_cons]
          refine ⟨?_, k2⟩
          intro hm
          obtain ⟨w, hw, hwe⟩ := List.mem_map.1 hm
          obtain ⟨v, hv⟩ := k1 w hw
          have := hp.2.2 _ hv x (by simp)
          rw [hwe] at this
          exact irr _ this

theorem foldl_other (j : Idx) : ∀ (ws : List (Idx × (α → α))) (x : Option α), j ∉ ws.map Prod.fst →
    ws.foldl (fun x w => if j = w.1 then x.map w.2 else x) x = x
  | [], _, _ => rfl
  | w :: ws, x, h => by
    simp only [List.map_cons, List.mem_cons, not_or] at h
    rw [List.foldl_cons, if_neg h.1, foldl_other j ws x h.2]

theorem foldl_once (j : Idx) (f : α → α) : ∀ (ws : List (Idx × (α → α))) (x : Option α), (ws.map Prod.fst).Nodup → (j, f) ∈ ws →
    ws.foldl (fun x w => if j = w.1 then x.map w.2 else x) x = x.map f
  | [], _, _, h => by simp at h
  | w :: ws, x, hn, h => by
    rw [List.map_cons, List.nodup_cons] at hn
    rw [List.foldl_cons]
    rcases List.mem_cons.1 h with rfl | h
    · rw [if_pos rfl, foldl_other j ws _ hn.1]
    · have : j ≠ w.1 := fun e => hn.1 (e ▸ List.mem_map.2 ⟨(j, f), h, rfl⟩)
      rw [if_neg this]
      exact foldl_once j f ws x hn.2 h

/-- **C86.** `iter_mut`: the same items come out in the same order whatever is written, no value is visited twice; exactly the values
visited are changed, as they were written; and no handle, the length or the capacity changes. -/
theorem C86_iter_mut (c : Nat) (ops : List (ArenaOp α)) (es : List (End × (α → α))) :
    ∃ l a', AllInOrder (history c ops) l ∧
      (history c ops).iterator.runMut (history c ops) es = .ok (a', (takeEnds l (es.map Prod.fst)).map Prod.snd) ∧
      a'.len = (history c ops).len ∧ a'.capacity = (history c ops).capacity ∧ ((written l es).map Prod.fst).Nodup ∧
      (∀ j f, (j, f) ∈ written l es → a'.get j = ((history c ops).get j).map f) ∧
      (∀ j, (∀ f, (j, f) ∉ written l es) → a'.get j = (history c ops).get j) := by
  obtain ⟨a', h1, h2, h3, h4⟩ := runMut_spec es (history c ops) _ (iterator_left c ops)
  have hl : liveOf (history c ops).iterator.rest = (history c ops).iter := by simp only [iterator, liveOf_number, Arena.iter]
  rw [hl] at h1 h4
  have ho := iter_allInOrder (history c ops)
  obtain ⟨w1, w2⟩ := written_sub es _ ho.1
  refine ⟨_, a', ho, h1, h2, h3, w2, ?_, ?_⟩
  · intro j f hm
    rw [h4 j, foldl_once j f _ _ w2 hm]
  · intro j hj
    rw [h4 j, foldl_other]
    intro hm
    obtain ⟨w, hw, hwe⟩ := List.mem_map.1 hm
    subst hwe
    exact hj w.2 hw

/-! Concrete cases. -/
example : (history 1 demoOps).iterator.run [.back, .front, .front, .back, .front] =
    .ok [((3, some 3), some (⟨2, 0⟩, 12)), ((2, some 2), some (⟨0, 0⟩, 20)), ((1, some 1), some (⟨1, 1⟩, 13)), ((0, some 0), none), ((0, some 0), none)] := by
  decide
example : (match (history 1 demoOps).iterator.runMut (history 1 demoOps) [(.back, (· + 1)), (.front, fun _ => 0)] with
    | .ok (a, _) => (a.get ⟨2, 0⟩, a.get ⟨0, 0⟩, a.get ⟨1, 1⟩)
    | _ => (none, none, none)) = (some 13, some 0, some 13) := by decide

end Verif.Props
