import Verif.Spec.BorrowRules
/-!
# Disciplined programs keep wrappers and native heap in step
-/
namespace Verif.Ffi

/-- The pointer held by a wrapper. -/
def ptrAt (ws : List W) (i : Nat) : Option Ptr := ws[i]?.bind fun x => x.w.inner

/-- The wrappers, the heap and the checker's knowledge belong together. -/
structure Inv (ws : List W) (h : Heap) (bs : List B) : Prop where
  same : ∀ i : Nat, ws[i]?.map (fun x => (x.cls, x.w.own, x.w.inner.isSome)) = bs[i]?.map fun b => (b.cls, b.own, b.full)
  ownRoot : ∀ (i : Nat) (b : B), bs[i]? = some b → b.own = .owned → b.root = i
  borRoot : ∀ (i : Nat) (b : B), bs[i]? = some b → ∃ r, bs[b.root]? = some r ∧ r.own = .owned
  good : ∀ (i : Nat) (b : B) (p : Ptr), bs[i]? = some b → b.own = .owned → ptrAt ws i = some p →
    p.interior = false ∧ p.ty = b.cls ∧ p.writable = true ∧ h[p.alloc]? = some ⟨b.cls, true, b.moved⟩
  inj : ∀ (i j : Nat) (b c : B) (p q : Ptr), bs[i]? = some b → b.own = .owned → bs[j]? = some c → c.own = .owned →
    ptrAt ws i = some p → ptrAt ws j = some q → p.alloc = q.alloc → i = j
  borrow : ∀ (i : Nat) (b : B) (p q : Ptr), bs[i]? = some b → b.own ≠ .owned → ptrAt ws i = some p →
    ptrAt ws b.root = some q →
    p.interior = true ∧ p.ty = b.cls ∧ p.writable = decide (b.own = .mutRef) ∧ p.alloc = q.alloc ∧ p.ver = b.stamp
  noLeak : ∀ (a : Nat) (al : Alloc), h[a]? = some al → al.live = true → al.ty ≠ .rvec →
    ∃ i b p, bs[i]? = some b ∧ b.own = .owned ∧ ptrAt ws i = some p ∧ p.alloc = a

theorem ptrAt_isSome {ws : List W} {h : Heap} {bs : List B} (hi : Inv ws h bs) {i : Nat} {b : B} (hb : bs[i]? = some b) :
    (ptrAt ws i).isSome = b.full := by
  have := hi.same i
  rw [hb] at this
  cases hx : ws[i]? with
  | none => rw [hx] at this; simp at this
  | some x => rw [hx] at this; simp only [Option.map_some, Option.some.injEq, Prod.mk.injEq] at this; simp [ptrAt, hx, this.2.2]

theorem ws_some {ws : List W} {h : Heap} {bs : List B} (hi : Inv ws h bs) {i : Nat} {b : B} (hb : bs[i]? = some b) :
    ∃ x, ws[i]? = some x ∧ x.cls = b.cls ∧ x.w.own = b.own ∧ x.w.inner.isSome = b.full := by
  have := hi.same i
  rw [hb] at this
  cases hx : ws[i]? with
  | none => rw [hx] at this; simp at this
  | some x => rw [hx] at this; simp only [Option.map_some, Option.some.injEq, Prod.mk.injEq] at this; exact ⟨x, rfl, this⟩

theorem inv_length {ws : List W} {h : Heap} {bs : List B} (hi : Inv ws h bs) : ws.length = bs.length := by
  apply Nat.le_antisymm
  · by_cases hl : ws.length ≤ bs.length
    · exact hl
    · have := hi.same bs.length
      rw [List.getElem?_eq_none (Nat.le_refl _)] at this
      rw [List.getElem?_eq_getElem (by omega)] at this
      simp at this
  · by_cases hl : bs.length ≤ ws.length
    · exact hl
    · have := hi.same ws.length
      rw [List.getElem?_eq_none (Nat.le_refl _)] at this
      rw [List.getElem?_eq_getElem (by omega)] at this
      simp at this

/-- What holds of a usable wrapper's pointer. -/
theorem usable_ptr {ws : List W} {h : Heap} {bs : List B} (hi : Inv ws h bs) {i : Nat} {b : B} (hu : usable bs i)
    (hb : bs[i]? = some b) : ∃ p q r, ptrAt ws i = some p ∧ ptrAt ws b.root = some q ∧ bs[b.root]? = some r ∧
      r.own = .owned ∧ p.alloc = q.alloc ∧ p.ty = b.cls ∧ h.valid p = true ∧
      (b.own = .owned → p.interior = false ∧ p.writable = true) ∧ (b.own = .mutRef → p.writable = true) ∧
      h[q.alloc]? = some ⟨r.cls, true, r.moved⟩ := by
  obtain ⟨b', r, e1, e2, f1, f2, hs⟩ := hu
  rw [hb] at e1; injection e1 with e1; subst e1
  have hp := ptrAt_isSome hi hb
  have hq := ptrAt_isSome hi e2
  rw [f1] at hp; rw [f2] at hq
  obtain ⟨p, hp⟩ := Option.isSome_iff_exists.1 hp
  obtain ⟨q, hq⟩ := Option.isSome_iff_exists.1 hq
  obtain ⟨r', hr', hro⟩ := hi.borRoot i b hb
  rw [e2] at hr'; injection hr' with hr'; subst hr'
  obtain ⟨g1, g2, g3, g4⟩ := hi.good b.root r q e2 hro hq
  refine ⟨p, q, r, hp, hq, e2, hro, ?_⟩
  by_cases ho : b.own = .owned
  · have := hi.ownRoot i b hb ho
    rw [this] at hq e2
    rw [hp] at hq; injection hq with hq; subst hq
    rw [hb] at e2; injection e2 with e2; subst e2
    refine ⟨rfl, g2, ?_, fun _ => ⟨g1, g3⟩, fun _ => g3, g4⟩
    simp [Heap.valid, g4, g1]
  · obtain ⟨c1, c2, c3, c4, c5⟩ := hi.borrow i b p q hb ho hp hq
    refine ⟨c4, c2, ?_, fun h => absurd h ho, fun h => by simp [c3, h], g4⟩
    rcases hs with hs | hs
    · exact absurd hs ho
    · simp [Heap.valid, c4, g4, c5, hs]

/-- A wrapper with its pointer taken out. -/
def emptied (ws : List W) (i : Nat) : List W := ws.modify i fun x => { x with w := { x.w with inner := none } }

theorem ptrAt_emptied (ws : List W) (i j : Nat) : ptrAt (emptied ws i) j = if j = i then none else ptrAt ws j := by
  unfold ptrAt emptied
  rw [List.getElem?_modify]
  by_cases hij : i = j
  · subst hij; cases ws[i]? <;> simp
  · have : j ≠ i := fun e => hij e.symm
    cases ws[j]? <;> simp [hij, this]

theorem modify_get {α : Type} (l : List α) (f : α → α) (i j : Nat) :
    (l.modify i f)[j]? = if i = j then l[j]?.map f else l[j]? := by
  rw [List.getElem?_modify]
  by_cases h : i = j <;> cases l[j]? <;> simp [h]

theorem inv_empty_of {ws : List W} {h h' : Heap} {bs : List B} (hi : Inv ws h bs) (i : Nat)
    (hheap : ∀ (j : Nat) (b : B) (p : Ptr), bs[j]? = some b → b.own = .owned → ptrAt ws j = some p → j ≠ i →
      h'[p.alloc]? = h[p.alloc]?)
    (hleak : ∀ (a : Nat) (al : Alloc), h'[a]? = some al → al.live = true → al.ty ≠ .rvec →
      (∀ b p, bs[i]? = some b → b.own = .owned → ptrAt ws i = some p → p.alloc ≠ a) ∧ h[a]? = some al) :
    Inv (emptied ws i) h' (bs.modify i fun b => { b with full := false }) := by
  have hget : ∀ (j : Nat) (b : B), (bs.modify i fun b => { b with full := false })[j]? = some b →
      ∃ b0, bs[j]? = some b0 ∧ b.own = b0.own ∧ b.cls = b0.cls ∧ b.root = b0.root ∧ b.stamp = b0.stamp ∧ b.moved = b0.moved := by
    intro j b hb
    rw [modify_get] at hb
    split at hb
    · cases hb0 : bs[j]? with
      | none => rw [hb0] at hb; simp at hb
      | some b0 => rw [hb0] at hb; simp at hb; subst hb; exact ⟨b0, rfl, rfl, rfl, rfl, rfl, rfl⟩
    · exact ⟨b, hb, rfl, rfl, rfl, rfl, rfl⟩
  have hptr : ∀ (j : Nat) (p : Ptr), ptrAt (emptied ws i) j = some p → j ≠ i ∧ ptrAt ws j = some p := by
    intro j p hp
    rw [ptrAt_emptied] at hp
    split at hp
    · cases hp
    · exact ⟨by assumption, hp⟩
  constructor
  · intro j
    have hs := hi.same j
    unfold emptied
    rw [modify_get, modify_get]
    split
    · rw [Option.map_map, Option.map_map]
      cases hw : ws[j]? <;> cases hb : bs[j]? <;> rw [hw, hb] at hs <;> simp_all
    · exact hs
  · intro j b hb ho
    obtain ⟨b0, e0, e1, e2, e3, e4, e5⟩ := hget j b hb
    rw [e3]; exact hi.ownRoot j b0 e0 (e1 ▸ ho)
  · intro j b hb
    obtain ⟨b0, e0, e1, e2, e3, e4, e5⟩ := hget j b hb
    obtain ⟨r, hr, hro⟩ := hi.borRoot j b0 e0
    refine ⟨if i = b.root then { r with full := false } else r, ?_, ?_⟩
    · rw [modify_get, e3, hr]; split <;> rfl
    · split <;> exact hro
  · intro j b p hb ho hp
    obtain ⟨b0, e0, e1, e2, e3, e4, e5⟩ := hget j b hb
    obtain ⟨hj, hp⟩ := hptr j p hp
    obtain ⟨g1, g2, g3, g4⟩ := hi.good j b0 p e0 (e1 ▸ ho) hp
    refine ⟨g1, by rw [e2]; exact g2, g3, ?_⟩
    rw [hheap j b0 p e0 (e1 ▸ ho) hp hj, g4, e2, e5]
  · intro j k b c p q hb ho hc hco hp hq
    obtain ⟨b0, e0, e1, _⟩ := hget j b hb
    obtain ⟨c0, d0, d1, _⟩ := hget k c hc
    exact hi.inj j k b0 c0 p q e0 (e1 ▸ ho) d0 (d1 ▸ hco) (hptr j p hp).2 (hptr k q hq).2
  · intro j b p q hb ho hp hq
    obtain ⟨b0, e0, e1, e2, e3, e4, e5⟩ := hget j b hb
    rw [e3] at hq
    obtain ⟨g1, g2, g3, g4, g5⟩ := hi.borrow j b0 p q e0 (e1 ▸ ho) (hptr j p hp).2 (hptr _ q hq).2
    exact ⟨g1, by rw [e2]; exact g2, by rw [e1]; exact g3, g4, by rw [e4]; exact g5⟩
  · intro a al ha hl ht
    obtain ⟨hne, ha⟩ := hleak a al ha hl ht
    obtain ⟨j, b, p, hb, ho, hp, hpa⟩ := hi.noLeak a al ha hl ht
    have hj : i ≠ j := by rintro rfl; exact hne b p hb ho hp hpa
    refine ⟨j, b, p, by rw [modify_get, if_neg hj]; exact hb, ho, ?_, hpa⟩
    rw [ptrAt_emptied, if_neg (fun e => hj e.symm)]; exact hp

/-- Disposing or giving away an owner frees its allocation. -/
theorem inv_free {ws : List W} {h : Heap} {bs : List B} (hi : Inv ws h bs) {i : Nat} {b : B} {p : Ptr}
    (hb : bs[i]? = some b) (ho : b.own = .owned) (hp : ptrAt ws i = some p) :
    Inv (emptied ws i) (h.modify p.alloc fun a => { a with live := false }) (bs.modify i fun b => { b with full := false }) := by
  apply inv_empty_of hi
  · intro j c q hc hco hq hj
    rw [modify_get, if_neg]
    intro e
    exact hj (hi.inj j i c b q p hc hco hb ho hq hp e.symm)
  · intro a al ha hl ht
    rw [modify_get] at ha
    split at ha
    · cases hx : h[a]? with
      | none => rw [hx] at ha; simp at ha
      | some x => rw [hx] at ha; simp at ha; subst ha; simp at hl
    · rename_i hne
      refine ⟨?_, ha⟩
      intro c q _ _ hq
      rw [hp] at hq; injection hq with hq; subst hq
      exact hne

/-- Emptying a wrapper that owns nothing, or a vector's, leaves the heap alone. -/
theorem inv_forget {ws : List W} {h : Heap} {bs : List B} (hi : Inv ws h bs) (i : Nat)
    (hb : ∀ (b : B) (p : Ptr), bs[i]? = some b → b.own = .owned → ptrAt ws i = some p → b.cls = .rvec) :
    Inv (emptied ws i) h (bs.modify i fun b => { b with full := false }) := by
  apply inv_empty_of hi
  · intros; rfl
  · intro a al ha hl ht
    refine ⟨?_, ha⟩
    intro b p e1 e2 e3 e4
    obtain ⟨_, g2, _, g4⟩ := hi.good i b p e1 e2 e3
    rw [e4, ha] at g4
    injection g4 with g4
    rw [g4] at ht
    exact ht (hb b p e1 e2 e3)

/-- Moving the contents of an owner's object. -/
theorem inv_move {ws : List W} {h : Heap} {bs : List B} (hi : Inv ws h bs) {i : Nat} {b : B} {p : Ptr}
    (hb : bs[i]? = some b) (ho : b.own = .owned) (hp : ptrAt ws i = some p) :
    Inv ws (h.modify p.alloc fun a => { a with ver := a.ver + 1 }) (bs.modify i fun b => { b with moved := b.moved + 1 }) := by
  have hget : ∀ (j : Nat) (c : B), (bs.modify i fun b => { b with moved := b.moved + 1 })[j]? = some c →
      ∃ c0, bs[j]? = some c0 ∧ c.own = c0.own ∧ c.cls = c0.cls ∧ c.root = c0.root ∧ c.stamp = c0.stamp ∧
        c.moved = if j = i then c0.moved + 1 else c0.moved := by
    intro j c hc
    rw [modify_get] at hc
    split at hc
    · rename_i hij
      cases hc0 : bs[j]? with
      | none => rw [hc0] at hc; simp at hc
      | some c0 => rw [hc0] at hc; simp at hc; subst hc; exact ⟨c0, rfl, rfl, rfl, rfl, rfl, by simp [hij]⟩
    · rename_i hij
      exact ⟨c, hc, rfl, rfl, rfl, rfl, by rw [if_neg (fun e => hij e.symm)]⟩
  constructor
  · intro j
    have hs := hi.same j
    rw [modify_get]
    split
    · rw [hs, Option.map_map]; rfl
    · exact hs
  · intro j c hc hco
    obtain ⟨c0, e0, e1, e2, e3, e4, e5⟩ := hget j c hc
    rw [e3]; exact hi.ownRoot j c0 e0 (e1 ▸ hco)
  · intro j c hc
    obtain ⟨c0, e0, e1, e2, e3, e4, e5⟩ := hget j c hc
    obtain ⟨r, hr, hro⟩ := hi.borRoot j c0 e0
    refine ⟨if i = c.root then { r with moved := r.moved + 1 } else r, ?_, ?_⟩
    · rw [modify_get, e3, hr]; split <;> rfl
    · split <;> exact hro
  · intro j c q hc hco hq
    obtain ⟨c0, e0, e1, e2, e3, e4, e5⟩ := hget j c hc
    obtain ⟨g1, g2, g3, g4⟩ := hi.good j c0 q e0 (e1 ▸ hco) hq
    refine ⟨g1, by rw [e2]; exact g2, g3, ?_⟩
    rw [modify_get]
    by_cases hj : j = i
    · subst hj
      rw [hp] at hq; injection hq with hq; subst hq
      rw [g4, e2, e5]; simp
    · rw [if_neg, g4, e2, e5, if_neg hj]
      intro e
      exact hj (hi.inj j i c0 b q p e0 (e1 ▸ hco) hb ho hq hp e.symm)
  · intro j k c d q r hc hco hd hdo
    obtain ⟨c0, e0, e1, _⟩ := hget j c hc
    obtain ⟨d0, f0, f1, _⟩ := hget k d hd
    exact hi.inj j k c0 d0 q r e0 (e1 ▸ hco) f0 (f1 ▸ hdo)
  · intro j c q r hc hco hq hr
    obtain ⟨c0, e0, e1, e2, e3, e4, e5⟩ := hget j c hc
    rw [e3] at hr
    obtain ⟨g1, g2, g3, g4, g5⟩ := hi.borrow j c0 q r e0 (e1 ▸ hco) hq hr
    exact ⟨g1, by rw [e2]; exact g2, by rw [e1]; exact g3, g4, by rw [e4]; exact g5⟩
  · intro a al ha hl ht
    rw [modify_get] at ha
    have : ∃ al0, h[a]? = some al0 ∧ al0.live = true ∧ al0.ty ≠ .rvec := by
      split at ha
      · cases hx : h[a]? with
        | none => rw [hx] at ha; simp at ha
        | some x => rw [hx] at ha; simp at ha; subst ha; exact ⟨x, rfl, hl, ht⟩
      · exact ⟨al, ha, hl, ht⟩
    obtain ⟨al0, a1, a2, a3⟩ := this
    obtain ⟨j, c, q, e1, e2, e3, e4⟩ := hi.noLeak a al0 a1 a2 a3
    refine ⟨j, if i = j then { c with moved := c.moved + 1 } else c, q, ?_, ?_, e3, e4⟩
    · rw [modify_get, e1]; split <;> rfl
    · split <;> exact e2

theorem rootOf_eq {bs : List B} {i : Nat} {b : B} (hb : bs[i]? = some b) : rootOf bs i = b.root := by
  simp [rootOf, hb]

/-- Which wrappers are emptied by passing. -/
def isBox : Param → Bool
  | .box _ => true
  | _ => false

/-- The wrappers after passing one argument. -/
def passW (ws : List W) (x : Param × Nat) : List W := if isBox x.1 then emptied ws x.2 else ws

theorem inv_passed {ws : List W} {h : Heap} {bs : List B} (hi : Inv ws h bs) {q : Param} {i : Nat} {b : B} {p : Ptr}
    (hb : bs[i]? = some b) (hu : usable bs i) (hf : fits b q) (hp : ptrAt ws i = some p) :
    Inv (passW ws (q, i)) (Heap.applyParam h (q, p)) (passed bs (q, i)) := by
  obtain ⟨p', r, rb, hp', hr, hrb, hro, hal, hrest⟩ := usable_ptr hi hu hb
  rw [hp] at hp'; injection hp' with hp'; subst hp'
  cases q with
  | ref t => exact hi
  | refMut t moves =>
    cases moves with
    | false => exact hi
    | true =>
      have := inv_move hi hrb hro hr
      simpa [passW, isBox, Heap.applyParam, passed, rootOf_eq hb, hal] using this
  | box t =>
    have := inv_free hi hb hf.2 hp
    simpa [passW, isBox, Heap.applyParam, passed] using this

/-- Passing an argument does not change what the checker knows about class, ownership and roots. -/
theorem passed_get (bs : List B) (x : Param × Nat) (j : Nat) :
    (passed bs x)[j]?.map (fun b => (b.cls, b.own, b.root, b.stamp)) = bs[j]?.map fun b => (b.cls, b.own, b.root, b.stamp) := by
  unfold passed
  split
  · rfl
  · split
    · rw [modify_get]; split <;> cases bs[j]? <;> rfl
    · rfl
  · rw [modify_get]; split <;> cases bs[j]? <;> rfl

theorem passed_rootOf (bs : List B) (x : Param × Nat) (j : Nat) : rootOf (passed bs x) j = rootOf bs j := by
  have := passed_get bs x j
  unfold rootOf
  cases h1 : (passed bs x)[j]? <;> cases h2 : bs[j]? <;> rw [h1, h2] at this <;> simp_all

/-- Passing one argument does not disturb another one with a different object. -/
theorem passed_other {ws : List W} {h : Heap} {bs : List B} (hi : Inv ws h bs) {q q' : Param} {i j : Nat} {b c : B}
    (hb : bs[i]? = some b) (hf : fits b q) (hc : bs[j]? = some c) (hu : usable bs j) (hf' : fits c q')
    (hne : (q.exclusive || q'.exclusive) = true → rootOf bs i ≠ rootOf bs j) :
    (usable (passed bs (q, i)) j ∧ ∃ c', (passed bs (q, i))[j]? = some c' ∧ fits c' q') ∧ (isBox q = true → j ≠ i) := by
  obtain ⟨c0, r, e1, e2, f1, f2, hs⟩ := hu
  rw [hc] at e1; injection e1 with e1; subst e1
  have huj : usable bs j := ⟨c, r, hc, e2, f1, f2, hs⟩
  rw [rootOf_eq hb, rootOf_eq hc] at hne
  cases q with
  | ref t => exact ⟨⟨huj, c, hc, hf'⟩, by simp [isBox]⟩
  | refMut t moves =>
    cases moves with
    | false => exact ⟨⟨huj, c, hc, hf'⟩, by simp [isBox]⟩
    | true =>
      have hne := hne (by simp [Param.exclusive])
      refine ⟨⟨?_, ?_⟩, by simp [isBox]⟩
      · refine ⟨if b.root = j then { c with moved := c.moved + 1 } else c, r, ?_, ?_, ?_, f2, ?_⟩
        · simp only [passed, rootOf_eq hb, if_true, modify_get, hc]; split <;> rfl
        · have : (if b.root = j then { c with moved := c.moved + 1 } else c).root = c.root := by split <;> rfl
          rw [this]
          simp only [passed, rootOf_eq hb, if_true, modify_get, if_neg hne, e2]
        · split <;> exact f1
        · split <;> exact hs
      · refine ⟨if b.root = j then { c with moved := c.moved + 1 } else c, ?_, ?_⟩
        · simp only [passed, rootOf_eq hb, if_true, modify_get, hc]; split <;> rfl
        · split
          · cases q' <;> exact hf'
          · exact hf'
  | box t =>
    have hne := hne (by simp [Param.exclusive])
    have hroot := hi.ownRoot i b hb hf.2
    rw [hroot] at hne
    have hij : i ≠ j := by
      rintro rfl
      rw [hb] at hc; injection hc with hc; subst hc
      exact hne hroot.symm
    refine ⟨⟨⟨c, r, ?_, ?_, f1, f2, hs⟩, c, ?_, hf'⟩, fun _ e => hij e.symm⟩
    · simp only [passed, modify_get, if_neg hij, hc]
    · simp only [passed, modify_get, if_neg hne, e2]
    · simp only [passed, modify_get, if_neg hij, hc]

/-- How a faithful method passes its arguments. -/
def passList : List Param → Nat → List Pass
  | [], _ => []
  | q :: qs, n => (if isBox q then .steal n else .inner n) :: passList qs (n + 1)

theorem evalPass_faithful {ws : List W} {args : List Nat} {n i : Nat} {p : Ptr} (q : Param) (ha : args[n]? = some i)
    (hp : ptrAt ws i = some p) :
    World.evalPass ws args (if isBox q then .steal n else .inner n) = (passW ws (q, i), some p) := by
  unfold ptrAt at hp
  cases hw : ws[i]? with
  | none => rw [hw] at hp; simp at hp
  | some x =>
    rw [hw] at hp; simp at hp
    by_cases hq : isBox q = true
    · simp only [hq, if_true, World.evalPass, Pass.idx, ha, hw, Wrapper.stealInner, hp, passW, emptied]
      congr 1
      apply List.ext_getElem?
      intro k
      rw [modify_get, List.getElem?_set]
      by_cases hk : i = k
      · subst hk
        rw [if_pos rfl, if_pos (List.getElem?_eq_some_iff.1 hw).1, if_pos rfl, hw]; rfl
      · simp [hk]
    · rw [Bool.not_eq_true] at hq
      simp only [hq, Bool.false_eq_true, if_false, World.evalPass, Pass.idx, ha, hw, hp, passW]

theorem ptrAt_passW (ws : List W) (x : Param × Nat) (j : Nat) (hj : isBox x.1 = true → j ≠ x.2) :
    ptrAt (passW ws x) j = ptrAt ws j := by
  unfold passW
  split
  · rename_i h; rw [ptrAt_emptied, if_neg (hj h)]
  · rfl

/-- Evaluating and passing all arguments of a faithful method. -/
theorem inv_params (params : List Param) : ∀ (rest pre : List Nat) (ws : List W) (h : Heap) (bs : List B),
    Inv ws h bs → rest.length = params.length →
    (∀ x ∈ params.zip rest, usable bs x.2 ∧ ∃ b, bs[x.2]? = some b ∧ fits b x.1) →
    ((params.zip rest).Pairwise fun x y => (x.1.exclusive || y.1.exclusive) = true → rootOf bs x.2 ≠ rootOf bs y.2) →
    ∃ ws' ptrs, World.evalPasses ws (pre ++ rest) (passList params pre.length) = (ws', some ptrs) ∧
      ptrs.length = params.length ∧
      Inv ws' ((params.zip ptrs).foldl Heap.applyParam h) ((params.zip rest).foldl passed bs) ∧
      (∀ (k i : Nat) (p : Ptr), rest[k]? = some i → ptrs[k]? = some p → ptrAt ws i = some p) ∧
      (∀ m : Nat, (∀ x ∈ params.zip rest, isBox x.1 = true → m ≠ x.2) → ptrAt ws' m = ptrAt ws m) ∧
      (∀ m : Nat, ((params.zip rest).foldl passed bs)[m]?.map (fun b => (b.cls, b.own, b.root, b.stamp)) =
        bs[m]?.map fun b => (b.cls, b.own, b.root, b.stamp)) := by
  induction params with
  | nil =>
    intro rest pre ws h bs hi hl _ _
    exact ⟨ws, [], rfl, rfl, by simpa using hi, by simp, by simp, by simp⟩
  | cons q qs ih =>
    intro rest pre ws h bs hi hl hall hpw
    cases rest with
    | nil => simp at hl
    | cons i rest =>
      simp only [List.zip_cons_cons, List.pairwise_cons] at hpw
      obtain ⟨hu, b, hb, hf⟩ := hall (q, i) (by simp)
      obtain ⟨p, _, _, hp, _⟩ := usable_ptr hi hu hb
      have hi1 := inv_passed hi hb hu hf hp
      have hoth : ∀ y ∈ qs.zip rest, (usable (passed bs (q, i)) y.2 ∧ ∃ c, (passed bs (q, i))[y.2]? = some c ∧ fits c y.1) ∧
          (isBox q = true → y.2 ≠ i) := by
        intro y hy
        obtain ⟨hu', c, hc, hf'⟩ := hall y (by simp [hy])
        exact passed_other hi hb hf hc hu' hf' (hpw.1 y hy)
      obtain ⟨ws', ptrs, e1, e2, e3, e4, e5, e6⟩ := ih rest (pre ++ [i]) (passW ws (q, i)) (Heap.applyParam h (q, p)) (passed bs (q, i))
        hi1 (by simpa using hl) (fun y hy => (hoth y hy).1) (by simpa only [passed_rootOf] using hpw.2)
      have hmem : ∀ (k j : Nat), rest[k]? = some j → isBox q = true → j ≠ i := by
        intro k j hk hbx
        have hkl := (List.getElem?_eq_some_iff.1 hk).1
        have hlr : rest.length = qs.length := by simpa using hl
        have hm : (qs[k]'(by omega), j) ∈ qs.zip rest := by
          rw [List.mem_iff_getElem?]
          refine ⟨k, ?_⟩
          rw [List.getElem?_zip_eq_some]
          exact ⟨List.getElem?_eq_getElem (by omega), hk⟩
        exact (hoth _ hm).2 hbx
      refine ⟨ws', p :: ptrs, ?_, by simp [e2], by simpa using e3, ?_, ?_, ?_⟩
      · have h1 : (pre ++ i :: rest)[pre.length]? = some i := by simp
        simp only [passList, World.evalPasses, evalPass_faithful q h1 hp]
        have h2 : pre ++ i :: rest = (pre ++ [i]) ++ rest := by simp
        have h3 : (pre ++ [i]).length = pre.length + 1 := by simp
        rw [h2, ← h3, e1]
      · intro k j p' hk hp'
        cases k with
        | zero =>
          simp only [List.getElem?_cons_zero, Option.some.injEq] at hk hp'
          subst hk; subst hp'; exact hp
        | succ k =>
          rw [List.getElem?_cons_succ] at hk hp'
          have := e4 k j p' hk hp'
          rw [ptrAt_passW ws (q, i) j (hmem k j hk)] at this
          exact this
      · intro m hm
        rw [e5 m fun x hx => hm x (by simp [hx])]
        exact ptrAt_passW ws (q, i) m (hm (q, i) (by simp))
      · intro m
        simp only [List.zip_cons_cons, List.foldl_cons]
        rw [e6 m, passed_get]

/-- A new owner. -/
theorem inv_box {ws : List W} {h : Heap} {bs : List B} (hi : Inv ws h bs) (t : NTy) :
    Inv (ws ++ [⟨t, Wrapper.new ⟨h.length, t, false, true, 0⟩ .owned⟩]) (h ++ [⟨t, true, 0⟩])
      (bs ++ [⟨t, .owned, true, bs.length, 0, 0⟩]) := by
  have hlen := inv_length hi
  have hget : ∀ (j : Nat) (c : B), (bs ++ [⟨t, .owned, true, bs.length, 0, 0⟩])[j]? = some c →
      (bs[j]? = some c) ∨ (j = bs.length ∧ c = ⟨t, .owned, true, bs.length, 0, 0⟩) := by
    intro j c hc
    rw [List.getElem?_append] at hc
    split at hc
    · exact .inl hc
    · right
      have hj : j - bs.length = 0 := by
        have := (List.getElem?_eq_some_iff.1 hc).1; simp at this; omega
      rw [hj] at hc; simp at hc
      exact ⟨by omega, hc.symm⟩
  have hptrOld : ∀ (j : Nat), j < bs.length → ptrAt (ws ++ [⟨t, Wrapper.new ⟨h.length, t, false, true, 0⟩ .owned⟩]) j = ptrAt ws j := by
    intro j hj; unfold ptrAt; rw [List.getElem?_append_left (by omega)]
  have hptrNew : ptrAt (ws ++ [⟨t, Wrapper.new ⟨h.length, t, false, true, 0⟩ .owned⟩]) bs.length = some ⟨h.length, t, false, true, 0⟩ := by
    unfold ptrAt; rw [← hlen]; simp [Wrapper.new]
  have hlt : ∀ {j : Nat} {c : B}, bs[j]? = some c → j < bs.length := fun e => (List.getElem?_eq_some_iff.1 e).1
  have hmono : ∀ {j : Nat} {c : B}, bs[j]? = some c → (bs ++ [⟨t, .owned, true, bs.length, 0, 0⟩])[j]? = some c := by
    intro j c hc; rw [List.getElem?_append_left (hlt hc)]; exact hc
  constructor
  · intro j
    rw [List.getElem?_append, List.getElem?_append, hlen]
    split
    · exact hi.same j
    · cases j - bs.length <;> simp [Wrapper.new]
  · intro j c hc ho
    rcases hget j c hc with hc | ⟨rfl, rfl⟩
    · exact hi.ownRoot j c hc ho
    · rfl
  · intro j c hc
    rcases hget j c hc with hc | ⟨rfl, rfl⟩
    · obtain ⟨r, hr, hro⟩ := hi.borRoot j c hc
      exact ⟨r, hmono hr, hro⟩
    · exact ⟨_, hc, rfl⟩
  · intro j c p hc ho hp
    rcases hget j c hc with hc | ⟨rfl, rfl⟩
    · rw [hptrOld j (hlt hc)] at hp
      obtain ⟨g1, g2, g3, g4⟩ := hi.good j c p hc ho hp
      exact ⟨g1, g2, g3, by rw [List.getElem?_append_left (List.getElem?_eq_some_iff.1 g4).1]; exact g4⟩
    · rw [hptrNew] at hp; injection hp with hp; subst hp
      exact ⟨rfl, rfl, rfl, by simp⟩
  · have hfresh : ∀ (j : Nat) (c : B) (p : Ptr), bs[j]? = some c → c.own = .owned → ptrAt ws j = some p → p.alloc < h.length := by
      intro j c p hc ho hp
      exact (List.getElem?_eq_some_iff.1 (hi.good j c p hc ho hp).2.2.2).1
    intro j k c d p q hc hco hd hdo hp hq hpq
    rcases hget j c hc with hc | ⟨rfl, rfl⟩ <;> rcases hget k d hd with hd | ⟨rfl, rfl⟩
    · rw [hptrOld j (hlt hc)] at hp; rw [hptrOld k (hlt hd)] at hq
      exact hi.inj j k c d p q hc hco hd hdo hp hq hpq
    · rw [hptrOld j (hlt hc)] at hp; rw [hptrNew] at hq; injection hq with hq; subst hq
      have := hfresh j c p hc hco hp; simp only at hpq; omega
    · rw [hptrOld k (hlt hd)] at hq; rw [hptrNew] at hp; injection hp with hp; subst hp
      have := hfresh k d q hd hdo hq; simp only at hpq; omega
    · rfl
  · intro j c p q hc ho hp hq
    rcases hget j c hc with hc | ⟨rfl, rfl⟩
    · obtain ⟨r, hr, _⟩ := hi.borRoot j c hc
      rw [hptrOld j (hlt hc)] at hp; rw [hptrOld c.root (hlt hr)] at hq
      exact hi.borrow j c p q hc ho hp hq
    · exact absurd rfl ho
  · intro a al ha hl ht
    rw [List.getElem?_append] at ha
    split at ha
    · obtain ⟨j, c, p, e1, e2, e3, e4⟩ := hi.noLeak a al ha hl ht
      exact ⟨j, c, p, hmono e1, e2, by rw [hptrOld j (hlt e1)]; exact e3, e4⟩
    · have hj : a - h.length = 0 := by
        have := (List.getElem?_eq_some_iff.1 ha).1; simp at this; omega
      exact ⟨bs.length, ⟨t, .owned, true, bs.length, 0, 0⟩, ⟨h.length, t, false, true, 0⟩, by simp, rfl, hptrNew, by simp only; omega⟩

/-- A new borrower. -/
theorem inv_borrow {ws : List W} {h : Heap} {bs : List B} (hi : Inv ws h bs) (t : NTy) (wr : Bool) (r : Nat) (rb : B) (q : Ptr)
    (hr : bs[r]? = some rb) (hro : rb.own = .owned) (hq : ptrAt ws r = some q) :
    Inv (ws ++ [⟨t, Wrapper.new ⟨q.alloc, t, true, wr, rb.moved⟩ (if wr then .mutRef else .sharedRef)⟩]) h
      (bs ++ [⟨t, if wr then .mutRef else .sharedRef, true, r, rb.moved, 0⟩]) := by
  have hlen := inv_length hi
  have hno : (if wr then Ownership.mutRef else .sharedRef) ≠ .owned := by cases wr <;> decide
  have hget : ∀ (j : Nat) (c : B), (bs ++ [⟨t, if wr then .mutRef else .sharedRef, true, r, rb.moved, 0⟩])[j]? = some c →
      (bs[j]? = some c) ∨ (j = bs.length ∧ c = ⟨t, if wr then .mutRef else .sharedRef, true, r, rb.moved, 0⟩) := by
    intro j c hc
    rw [List.getElem?_append] at hc
    split at hc
    · exact .inl hc
    · right
      have hj : j - bs.length = 0 := by
        have := (List.getElem?_eq_some_iff.1 hc).1; simp at this; omega
      rw [hj] at hc; simp at hc
      exact ⟨by omega, hc.symm⟩
  have hptrOld : ∀ (j : Nat), j < bs.length → ptrAt (ws ++ [⟨t, Wrapper.new ⟨q.alloc, t, true, wr, rb.moved⟩ (if wr then .mutRef else .sharedRef)⟩]) j = ptrAt ws j := by
    intro j hj; unfold ptrAt; rw [List.getElem?_append_left (by omega)]
  have hptrNew : ptrAt (ws ++ [⟨t, Wrapper.new ⟨q.alloc, t, true, wr, rb.moved⟩ (if wr then .mutRef else .sharedRef)⟩]) bs.length = some ⟨q.alloc, t, true, wr, rb.moved⟩ := by
    unfold ptrAt; rw [← hlen]; simp [Wrapper.new]
  have hlt : ∀ {j : Nat} {c : B}, bs[j]? = some c → j < bs.length := fun e => (List.getElem?_eq_some_iff.1 e).1
  have hmono : ∀ {j : Nat} {c : B}, bs[j]? = some c → (bs ++ [⟨t, if wr then .mutRef else .sharedRef, true, r, rb.moved, 0⟩])[j]? = some c := by
    intro j c hc; rw [List.getElem?_append_left (hlt hc)]; exact hc
  constructor
  · intro j
    rw [List.getElem?_append, List.getElem?_append, hlen]
    split
    · exact hi.same j
    · cases j - bs.length <;> simp [Wrapper.new]
  · intro j c hc ho
    rcases hget j c hc with hc | ⟨rfl, rfl⟩
    · exact hi.ownRoot j c hc ho
    · exact absurd ho hno
  · intro j c hc
    rcases hget j c hc with hc | ⟨rfl, rfl⟩
    · obtain ⟨r, hr, hro⟩ := hi.borRoot j c hc
      exact ⟨r, hmono hr, hro⟩
    · exact ⟨rb, hmono hr, hro⟩
  · intro j c p hc ho hp
    rcases hget j c hc with hc | ⟨rfl, rfl⟩
    · rw [hptrOld j (hlt hc)] at hp
      exact hi.good j c p hc ho hp
    · exact absurd ho hno
  · intro j k c d p p' hc hco hd hdo hp hp' hpp
    rcases hget j c hc with hc | ⟨rfl, rfl⟩
    · rcases hget k d hd with hd | ⟨rfl, rfl⟩
      · rw [hptrOld j (hlt hc)] at hp; rw [hptrOld k (hlt hd)] at hp'
        exact hi.inj j k c d p p' hc hco hd hdo hp hp' hpp
      · exact absurd hdo hno
    · exact absurd hco hno
  · intro j c p p' hc ho hp hp'
    rcases hget j c hc with hc | ⟨rfl, rfl⟩
    · obtain ⟨r', hr', _⟩ := hi.borRoot j c hc
      rw [hptrOld j (hlt hc)] at hp; rw [hptrOld c.root (hlt hr')] at hp'
      exact hi.borrow j c p p' hc ho hp hp'
    · rw [hptrNew] at hp; injection hp with hp; subst hp
      rw [hptrOld r (hlt hr), hq] at hp'; injection hp' with hp'; subst hp'
      exact ⟨rfl, rfl, by cases wr <;> rfl, rfl, rfl⟩
  · intro a al ha hl ht
    obtain ⟨j, c, p, e1, e2, e3, e4⟩ := hi.noLeak a al ha hl ht
    exact ⟨j, c, p, hmono e1, e2, by rw [hptrOld j (hlt e1)]; exact e3, e4⟩

/-- A method passes to the native function what it expects, and wraps the result as what it is. -/
structure Faithful (m : Method) : Prop where
  pass : m.pass = passList m.sig.params 0
  args : m.args = m.sig.params.map Param.ty
  notShared : ∀ k ∈ m.notShared, ∃ t mv, m.sig.params[k]? = some (.refMut t mv)
  owned : ∀ k ∈ m.owned, ∃ t, m.sig.params[k]? = some (.box t)
  ret : match m.sig.ret with
    | .nothing => m.ret = none
    | .box t => m.ret = some (t, .owned)
    | .borrow i t w => m.ret = some (t, if w then .mutRef else .sharedRef) ∧
        ∃ q, m.sig.params[i]? = some q ∧ isBox q = false

theorem faithful_of_not_broken (a : Api) (h : a.broken = false) : Faithful a.method := by
  cases a <;> first
    | (exact absurd h (by decide))
    | (constructor <;> simp [Api.method, passList, isBox, Param.ty])

theorem mem_zip_of_get {α β : Type} {l : List α} {r : List β} {k : Nat} {a : α} {b : β} (h1 : l[k]? = some a) (h2 : r[k]? = some b) :
    (a, b) ∈ l.zip r := List.mem_iff_getElem?.2 ⟨k, List.getElem?_zip_eq_some.2 ⟨h1, h2⟩⟩

theorem typed_of_allowed {ws : List W} {h : Heap} {bs : List B} (hi : Inv ws h bs) (params : List Param) (args : List Nat)
    (hl : args.length = params.length)
    (hall : ∀ x ∈ params.zip args, usable bs x.2 ∧ ∃ b, bs[x.2]? = some b ∧ fits b x.1) :
    World.typed ws args (params.map Param.ty) = true := by
  unfold World.typed
  rw [beq_iff_eq]
  apply List.ext_getElem?
  intro k
  rw [List.getElem?_map, List.getElem?_map, List.getElem?_map]
  cases ha : args[k]? with
  | none =>
    have : params[k]? = none := by rw [List.getElem?_eq_none_iff] at ha ⊢; omega
    rw [this]; rfl
  | some i =>
    have hk := (List.getElem?_eq_some_iff.1 ha).1
    have hp : params[k]? = some (params[k]'(by omega)) := List.getElem?_eq_getElem (by omega)
    obtain ⟨_, b, hb, hf⟩ := hall _ (mem_zip_of_get hp ha)
    obtain ⟨x, hx, hc, _⟩ := ws_some hi hb
    rw [hp]
    simp only [Option.map_some, hx, hc, Option.some.injEq]
    generalize params[k]'(by omega) = q at hf
    cases q with
    | ref t => exact hf
    | refMut t m => exact hf.1
    | box t => exact hf.1

theorem guards_of_allowed {ws : List W} {h : Heap} {bs : List B} (hi : Inv ws h bs) (m : Method) (hm : Faithful m) (args : List Nat)
    (hl : args.length = m.sig.params.length)
    (hall : ∀ x ∈ m.sig.params.zip args, usable bs x.2 ∧ ∃ b, bs[x.2]? = some b ∧ fits b x.1) :
    World.guards ws args m = true := by
  have key : ∀ (k : Nat) (q : Param), m.sig.params[k]? = some q → ∃ i x, args[k]? = some i ∧ ws[i]? = some x ∧
      ((∃ t mv, q = .refMut t mv) → x.w.own ≠ .sharedRef) ∧ ((∃ t, q = .box t) → x.w.own = .owned) := by
    intro k q hq
    have hk := (List.getElem?_eq_some_iff.1 hq).1
    have ha : args[k]? = some (args[k]'(by omega)) := List.getElem?_eq_getElem (by omega)
    obtain ⟨_, b, hb, hf⟩ := hall _ (mem_zip_of_get hq ha)
    obtain ⟨x, hx, _, ho, _⟩ := ws_some hi hb
    refine ⟨_, x, ha, hx, ?_, ?_⟩
    · rintro ⟨t, mv, rfl⟩; rw [ho]; exact hf.2
    · rintro ⟨t, rfl⟩; rw [ho]; exact hf.2
  unfold World.guards
  rw [Bool.and_eq_true, List.all_eq_true, List.all_eq_true]
  constructor
  · intro k hk
    obtain ⟨t, mv, hq⟩ := hm.notShared k hk
    obtain ⟨i, x, ha, hx, h1, _⟩ := key k _ hq
    simp [ha, hx, h1 ⟨t, mv, rfl⟩]
  · intro k hk
    obtain ⟨t, hq⟩ := hm.owned k hk
    obtain ⟨i, x, ha, hx, _, h1⟩ := key k _ hq
    simp [ha, hx, h1 ⟨t, rfl⟩]

theorem native_ok {ws : List W} {h : Heap} {bs : List B} (hi : Inv ws h bs) (s : Sig) (args : List Nat) (ha : allowed bs s args)
    (ptrs : List Ptr) (hl : ptrs.length = s.params.length)
    (hp : ∀ (k i : Nat) (p : Ptr), args[k]? = some i → ptrs[k]? = some p → ptrAt ws i = some p) :
    h.native s ptrs = .ok (Heap.applyRet ((s.params.zip ptrs).foldl Heap.applyParam h) ptrs s.ret) := by
  obtain ⟨hla, hall, hpw⟩ := ha
  have key : ∀ (k : Nat) (q : Param) (p : Ptr), s.params[k]? = some q → ptrs[k]? = some p →
      ∃ i b, args[k]? = some i ∧ bs[i]? = some b ∧ usable bs i ∧ fits b q ∧ ptrAt ws i = some p := by
    intro k q p hq hpk
    have hk := (List.getElem?_eq_some_iff.1 hq).1
    have hak : args[k]? = some (args[k]'(by omega)) := List.getElem?_eq_getElem (by omega)
    obtain ⟨hu, b, hb, hf⟩ := hall _ (mem_zip_of_get hq hak)
    exact ⟨_, b, hak, hb, hu, hf, hp k _ p hak hpk⟩
  have h1 : ((s.params.zip ptrs).findSome? fun x => h.checkParam x.1 x.2) = none := by
    rw [List.findSome?_eq_none_iff]
    rintro ⟨q, p⟩ hx
    obtain ⟨k, hk⟩ := List.mem_iff_getElem?.1 hx
    obtain ⟨hq, hpk⟩ := List.getElem?_zip_eq_some.1 hk
    obtain ⟨i, b, _, hb, hu, hf, hpi⟩ := key k q p hq hpk
    obtain ⟨p', r, rb, hp', _, _, _, _, hty, hval, hown, hmut, _⟩ := usable_ptr hi hu hb
    rw [hpi] at hp'; injection hp' with hp'; subst hp'
    unfold Heap.checkParam
    simp only [hval, Bool.not_true, Bool.false_eq_true, if_false, hty]
    cases q with
    | ref t => simp [Param.ty, show b.cls = t from hf]
    | refMut t mv =>
      have : p.writable = true := by
        cases ho : b.own with
        | owned => exact (hown ho).2
        | sharedRef => exact absurd ho hf.2
        | mutRef => exact hmut ho
      simp [Param.ty, hf.1, this]
    | box t => simp [Param.ty, hf.1, (hown hf.2).1]
  have h2 : (s.params.zip ptrs).Pairwise Heap.apart := by
    rw [List.pairwise_iff_getElem] at hpw ⊢
    intro j k hj hk hjk
    rw [List.length_zip] at hj hk
    have hpw := hpw j k (by rw [List.length_zip]; omega) (by rw [List.length_zip]; omega) hjk
    simp only [List.getElem_zip] at hpw ⊢
    intro hex
    have hne := hpw hex
    simp only
    have hq1 : s.params[j]? = some (s.params[j]'(by omega)) := List.getElem?_eq_getElem (by omega)
    have hq2 : s.params[k]? = some (s.params[k]'(by omega)) := List.getElem?_eq_getElem (by omega)
    have hp1 : ptrs[j]? = some (ptrs[j]'(by omega)) := List.getElem?_eq_getElem (by omega)
    have hp2 : ptrs[k]? = some (ptrs[k]'(by omega)) := List.getElem?_eq_getElem (by omega)
    obtain ⟨i, b, a1, hb, hu, hf, hpi⟩ := key j _ _ hq1 hp1
    obtain ⟨i', b', a2, hb', hu', hf', hpi'⟩ := key k _ _ hq2 hp2
    rw [List.getElem?_eq_getElem (by omega)] at a1 a2
    injection a1 with a1; injection a2 with a2
    rw [a1, a2, rootOf_eq hb, rootOf_eq hb'] at hne
    obtain ⟨p', r, rb, hp', hr, hrb, hro, hal, _⟩ := usable_ptr hi hu hb
    rw [hpi] at hp'; injection hp' with hp'; subst hp'
    obtain ⟨p'', r', rb', hp'', hr', hrb', hro', hal', _⟩ := usable_ptr hi hu' hb'
    rw [hpi'] at hp''; injection hp'' with hp''; subst hp''
    intro e
    rw [hal, hal'] at e
    exact hne (hi.inj _ _ rb rb' r r' hrb hro hrb' hro' hr hr' e)
  unfold Heap.native
  simp only [hl, ne_eq, not_true_eq_false, if_false, h1, h2, if_true]

/-- An allowed call of a faithful method succeeds and keeps everything in step. -/
theorem inv_call {w : World} {bs : List B} (hi : Inv w.ws w.heap bs) (m : Method) (hm : Faithful m) (args : List Nat)
    (ha : allowed bs m.sig args) :
    ∃ w' n, w.call m args = (w', .ok n) ∧ Inv w'.ws w'.heap (after bs m.sig args) := by
  have ha' := ha
  obtain ⟨hl, hall, hpw⟩ := ha'
  obtain ⟨ws', ptrs, e1, e2, e3, e4, e5, e6⟩ := inv_params m.sig.params args [] w.ws w.heap bs hi hl hall hpw
  have hn := native_ok hi m.sig args ha ptrs e2 e4
  have ht : World.typed w.ws args m.args = true := by rw [hm.args]; exact typed_of_allowed hi _ _ hl hall
  have hg := guards_of_allowed hi m hm args hl hall
  have he : World.evalPasses w.ws args m.pass = (ws', some ptrs) := by rw [hm.pass]; exact e1
  unfold World.call
  simp only [ht, hg, Bool.not_true, Bool.false_eq_true, if_false, he, hn]
  have hret := hm.ret
  unfold after
  cases hr : m.sig.ret with
  | nothing =>
    rw [hr] at hret
    simp only [Heap.applyRet, hret, returned]
    exact ⟨_, _, rfl, e3⟩
  | box t =>
    rw [hr] at hret
    simp only [Heap.applyRet, hret, returned]
    exact ⟨_, _, rfl, inv_box e3 t⟩
  | borrow k t wr =>
    rw [hr] at hret
    obtain ⟨hret, q, hq, hqb⟩ := hret
    have hk := (List.getElem?_eq_some_iff.1 hq).1
    have hpk : ptrs[k]? = some (ptrs[k]'(by omega)) := List.getElem?_eq_getElem (by omega)
    have hak : args[k]? = some (args[k]'(by omega)) := List.getElem?_eq_getElem (by omega)
    obtain ⟨hu, b, hb, hf⟩ := hall _ (mem_zip_of_get hq hak)
    obtain ⟨p', r, rb, hp', hrp, hrb, hro, hal, _⟩ := usable_ptr hi hu hb
    have hpi := e4 k _ _ hak hpk
    rw [hpi] at hp'; injection hp' with hp'; subst hp'
    -- the owner is still there afterwards
    have hroot : ptrAt ws' b.root = some r := by
      rw [e5, hrp]
      rintro ⟨q', i'⟩ hx hbx heq
      simp only at hbx heq
      obtain ⟨_, b', hb', hf'⟩ := hall _ hx
      have hex : q'.exclusive = true := by cases q' <;> simp_all [isBox, Param.exclusive]
      have hown' : b'.own = .owned := by
        cases q' with
        | box t => exact hf'.2
        | _ => simp [isBox] at hbx
      simp only at hb'
      have hrt := hi.ownRoot i' b' hb' hown'
      obtain ⟨k', hk'⟩ := List.mem_iff_getElem?.1 hx
      have hkz : (m.sig.params.zip args)[k]? = some (q, args[k]'(by omega)) := List.getElem?_zip_eq_some.2 ⟨hq, hak⟩
      have hkk : k ≠ k' := by
        rintro rfl
        rw [hk'] at hkz; injection hkz with hkz; injection hkz with h1 h2
        subst h1; rw [hqb] at hbx; cases hbx
      have hneq : rootOf bs (args[k]'(by omega)) ≠ rootOf bs i' := by
        rw [List.pairwise_iff_getElem] at hpw
        obtain ⟨l1, g1⟩ := List.getElem?_eq_some_iff.1 hkz
        obtain ⟨l2, g2⟩ := List.getElem?_eq_some_iff.1 hk'
        rcases Nat.lt_or_ge k k' with hlt | hge
        · have := hpw k k' l1 l2 hlt
          rw [g1, g2] at this
          exact this (by simp [hex])
        · have := hpw k' k l2 l1 (by omega)
          rw [g1, g2] at this
          exact fun e => this (by simp [hex]) e.symm
      rw [rootOf_eq hb, rootOf_eq hb', hrt] at hneq
      exact hneq heq
    have hbs' : ∀ (j : Nat) (c : B), bs[j]? = some c → ∃ c', ((m.sig.params.zip args).foldl passed bs)[j]? = some c' ∧
        c'.own = c.own ∧ c'.root = c.root := by
      intro j c hc
      have := e6 j
      rw [hc] at this
      cases hx : ((m.sig.params.zip args).foldl passed bs)[j]? with
      | none => rw [hx] at this; simp at this
      | some c' => rw [hx] at this; simp only [Option.map_some, Option.some.injEq, Prod.mk.injEq] at this; exact ⟨c', rfl, this.2.1, this.2.2.1⟩
    obtain ⟨b1, hb1, _, hb1r⟩ := hbs' _ b hb
    obtain ⟨rb1, hrb1, hrb1o, _⟩ := hbs' _ rb hrb
    rw [hro] at hrb1o
    obtain ⟨_, _, _, hver⟩ := e3.good b.root rb1 r hrb1 hrb1o hroot
    simp only [Heap.applyRet, hpk, hret, returned, hak, rootOf_eq hb1, hb1r, hrb1, Option.map_some, Option.getD_some, hal, hver]
    exact ⟨_, _, rfl, inv_borrow e3 t wr b.root rb1 r hrb1 hrb1o hroot⟩

theorem set_eq_emptied {ws : List W} {i : Nat} {x : W} (hx : ws[i]? = some x) :
    ws.set i ⟨x.cls, ⟨none, x.w.own⟩⟩ = emptied ws i := by
  apply List.ext_getElem?
  intro k
  rw [emptied, modify_get, List.getElem?_set]
  by_cases hk : i = k
  · subst hk
    rw [if_pos rfl, if_pos (List.getElem?_eq_some_iff.1 hx).1, if_pos rfl, hx]; rfl
  · simp [hk]

theorem inv_dispose {w : World} {bs : List B} (hi : Inv w.ws w.heap bs) (i : Nat) (hl : i < bs.length) :
    ∃ w' n, w.dispose i = (w', .ok n) ∧ Inv w'.ws w'.heap (bs.modify i fun b => { b with full := false }) := by
  obtain ⟨b, hb⟩ : ∃ b, bs[i]? = some b := ⟨_, List.getElem?_eq_getElem hl⟩
  obtain ⟨x, hx, hxc, hxo, hxf⟩ := ws_some hi hb
  unfold World.dispose
  simp only [hx, Wrapper.dispose]
  by_cases ho : x.w.own = .owned
  · cases hp : x.w.inner with
    | none =>
      simp only [ho]
      refine ⟨_, _, rfl, ?_⟩
      have h1 := inv_forget hi i (fun b p _ _ hp' => by simp [ptrAt, hx, hp] at hp')
      have h2 := set_eq_emptied hx
      rw [ho] at h2
      rw [h2]; exact h1
    | some p =>
      have hpa : ptrAt w.ws i = some p := by simp [ptrAt, hx, hp]
      have hbo : b.own = .owned := hxo ▸ ho
      simp only [ho]
      have h2 := set_eq_emptied hx
      rw [ho] at h2
      by_cases hr : x.cls = .rvec
      · simp only [hr, if_true]
        refine ⟨_, _, rfl, ?_⟩
        rw [hr] at h2
        rw [h2]
        exact inv_forget hi i fun b' p' hb' _ _ => by rw [hb] at hb'; injection hb' with hb'; subst hb'; rw [← hxc]; exact hr
      · simp only [hr, if_false]
        have hfull : b.full = true := by rw [← hxf, hp]; rfl
        have hu : usable bs i := ⟨b, b, hb, by rw [hi.ownRoot i b hb hbo]; exact hb, hfull, hfull, .inl hbo⟩
        have hn := native_ok hi ⟨[.box x.cls], .nothing⟩ [i]
          ⟨rfl, by intro y hy; simp at hy; subst hy; exact ⟨hu, b, hb, hxc.symm, hbo⟩, by simp⟩ [p] rfl
          (by intro k j q hj hq; cases k with
              | zero => simp at hj hq; subst hj; subst hq; exact hpa
              | succ k => simp at hj)
        rw [hn]
        refine ⟨_, _, rfl, ?_⟩
        rw [h2]
        simpa [Heap.applyRet, Heap.applyParam] using inv_free hi hb hbo hpa
  · have h1 := inv_forget hi i (fun b' p hb' ho' _ => by
      rw [hb] at hb'; injection hb' with hb'; subst hb'; exact absurd (hxo.trans ho') ho)
    have h2 := set_eq_emptied hx
    cases hown : x.w.own with
    | owned => exact absurd hown ho
    | _ =>
      rw [hown] at h2
      refine ⟨_, _, rfl, ?_⟩
      simp only
      rw [h2]; exact h1

theorem inv_init : Inv World.empty.ws World.empty.heap [] := by
  constructor <;> simp [World.empty]

/-- A disciplined program runs to its end. -/
theorem inv_run {bs bs' : List B} {cs : List Call} (hd : Disciplined bs cs bs') : ∀ (w : World), Inv w.ws w.heap bs →
    Inv (w.run cs).1.ws (w.run cs).1.heap bs' ∧ (w.run cs).2.length = cs.length ∧ ∀ r ∈ (w.run cs).2, ∃ n, r = .ok n := by
  induction hd with
  | nil bs => intro w hi; exact ⟨hi, rfl, by simp [World.run]⟩
  | method bs a args cs bs' hb ha _ ih =>
    intro w hi
    obtain ⟨w', n, e, hi'⟩ := inv_call hi a.method (faithful_of_not_broken a hb) args ha
    obtain ⟨h1, h2, h3⟩ := ih w' hi'
    simp only [World.run, World.step, e]
    exact ⟨h1, by simp [h2], fun r hr => (List.mem_cons.1 hr).elim (fun e => ⟨n, e⟩) (h3 r)⟩
  | dispose bs i cs bs' hl _ ih =>
    intro w hi
    obtain ⟨w', n, e, hi'⟩ := inv_dispose hi i hl
    obtain ⟨h1, h2, h3⟩ := ih w' hi'
    simp only [World.run, World.step, e]
    exact ⟨h1, by simp [h2], fun r hr => (List.mem_cons.1 hr).elim (fun e => ⟨n, e⟩) (h3 r)⟩

end Verif.Ffi
