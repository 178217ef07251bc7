import Verif.Proofs.FfiHeap
import Verif.Spec.KeepAlive
/-!
# Finalizers commute with native calls that do not touch what they free
-/
namespace Verif.Ffi

/-- Freeing an allocation. -/
def Heap.free (h : Heap) (a : Nat) : Heap := h.modify a fun x => { x with live := false }

theorem free_get (h : Heap) (a b : Nat) (hab : a ≠ b) : (h.free a)[b]? = h[b]? := by
  rw [Heap.free, modify_get, if_neg hab]

theorem free_length (h : Heap) (a : Nat) : (h.free a).length = h.length := by simp [Heap.free]

theorem checkParam_congr (h h' : Heap) (q : Param) (p : Ptr) (hh : h'[p.alloc]? = h[p.alloc]?) :
    h'.checkParam q p = h.checkParam q p := by
  have hv : h'.valid p = h.valid p := by unfold Heap.valid; rw [hh]
  unfold Heap.checkParam; rw [hv]

theorem modify_comm_of_ne {α : Type} (l : List α) (f g : α → α) (i j : Nat) (hij : i ≠ j) :
    (l.modify i f).modify j g = (l.modify j g).modify i f := by
  apply List.ext_getElem?
  intro k
  rw [modify_get, modify_get, modify_get, modify_get]
  by_cases h1 : j = k
  · subst h1; simp [hij]
  · by_cases h2 : i = k
    · subst h2; simp [h1]
    · simp [h1, h2]

theorem applyParam_free (h : Heap) (a : Nat) (x : Param × Ptr) (hx : a ≠ x.2.alloc) :
    Heap.applyParam (h.free a) x = (Heap.applyParam h x).free a := by
  unfold Heap.applyParam
  split
  · rfl
  · split
    · exact modify_comm_of_ne _ _ _ _ _ hx
    · rfl
  · exact modify_comm_of_ne _ _ _ _ _ hx

theorem foldl_applyParam_free (xs : List (Param × Ptr)) (a : Nat) : ∀ (h : Heap), (∀ x ∈ xs, a ≠ x.2.alloc) →
    xs.foldl Heap.applyParam (h.free a) = (xs.foldl Heap.applyParam h).free a := by
  induction xs with
  | nil => intro h _; rfl
  | cons x xs ih =>
    intro h hx
    rw [List.foldl_cons, List.foldl_cons, applyParam_free h a x (hx x (by simp)), ih _ (fun y hy => hx y (by simp [hy]))]

theorem applyParam_get (h : Heap) (a : Nat) (x : Param × Ptr) (hx : a ≠ x.2.alloc) : (Heap.applyParam h x)[a]? = h[a]? := by
  unfold Heap.applyParam
  split
  · rfl
  · split
    · rw [modify_get, if_neg (fun e => hx e.symm)]
    · rfl
  · rw [modify_get, if_neg (fun e => hx e.symm)]

theorem foldl_applyParam_get (xs : List (Param × Ptr)) (a : Nat) : ∀ (h : Heap), (∀ x ∈ xs, a ≠ x.2.alloc) →
    (xs.foldl Heap.applyParam h)[a]? = h[a]? := by
  induction xs with
  | nil => intro h _; rfl
  | cons x xs ih =>
    intro h hx
    rw [List.foldl_cons, ih _ (fun y hy => hx y (by simp [hy])), applyParam_get h a x (hx x (by simp))]

theorem foldl_applyParam_length (xs : List (Param × Ptr)) : ∀ (h : Heap), (xs.foldl Heap.applyParam h).length = h.length := by
  induction xs with
  | nil => intro h; rfl
  | cons x xs ih =>
    intro h
    rw [List.foldl_cons, ih]
    unfold Heap.applyParam
    split
    · rfl
    · split <;> simp
    · simp

theorem applyRet_free (h : Heap) (a : Nat) (ptrs : List Ptr) (r : Ret) (ha : a < h.length) (hp : ∀ p ∈ ptrs, a ≠ p.alloc) :
    Heap.applyRet (h.free a) ptrs r = ((Heap.applyRet h ptrs r).1.free a, (Heap.applyRet h ptrs r).2) := by
  cases r with
  | nothing => rfl
  | box t =>
    simp only [Heap.applyRet, free_length, Prod.mk.injEq, and_true]
    apply List.ext_getElem?
    intro k
    simp only [Heap.free]
    rw [modify_get, List.getElem?_append, List.getElem?_append, List.length_modify]
    by_cases hk : k < h.length
    · simp only [hk, if_true, modify_get]
    · have : a ≠ k := by omega
      simp [hk, this]
  | borrow i t wr =>
    simp only [Heap.applyRet]
    cases hpi : ptrs[i]? with
    | none => rfl
    | some p =>
      have := hp p (List.mem_of_getElem? hpi)
      simp only [free_get _ _ _ this]

/-- A native call does not notice that something it does not use has been freed. -/
theorem native_free (h h' : Heap) (s : Sig) (ptrs : List Ptr) (r : Option Ptr) (a : Nat) (hn : h.native s ptrs = .ok (h', r))
    (ha : a < h.length) (hp : ∀ p ∈ ptrs, a ≠ p.alloc) : (h.free a).native s ptrs = .ok (h'.free a, r) := by
  unfold Heap.native at hn ⊢
  split at hn
  · cases hn
  · rename_i hl
    simp only [hl, if_false] at hn ⊢
    have hz : ∀ x ∈ s.params.zip ptrs, a ≠ x.2.alloc := fun x hx => hp x.2 (List.of_mem_zip hx).2
    have hf : ((s.params.zip ptrs).findSome? fun x => (h.free a).checkParam x.1 x.2) =
        (s.params.zip ptrs).findSome? fun x => h.checkParam x.1 x.2 := by
      have : ∀ xs : List (Param × Ptr), (∀ x ∈ xs, a ≠ x.2.alloc) →
          (xs.findSome? fun x => (h.free a).checkParam x.1 x.2) = xs.findSome? fun x => h.checkParam x.1 x.2 := by
        intro xs
        induction xs with
        | nil => intro _; rfl
        | cons x xs ih =>
          intro hx
          rw [List.findSome?_cons, List.findSome?_cons, checkParam_congr h _ _ _ (free_get h a _ (hx x (by simp))),
            ih fun y hy => hx y (by simp [hy])]
      exact this _ hz
    rw [hf]
    split at hn
    · cases hn
    · split at hn
      · rename_i hpw
        injection hn with hn
        simp only [hpw, if_true]
        rw [foldl_applyParam_free _ _ _ hz, applyRet_free _ _ _ _ (by rw [foldl_applyParam_length]; exact ha) hp]
        rw [hn]
      · cases hn

theorem native_get (h h' : Heap) (s : Sig) (ptrs : List Ptr) (r : Option Ptr) (a : Nat) (hn : h.native s ptrs = .ok (h', r))
    (ha : a < h.length) (hp : ∀ p ∈ ptrs, a ≠ p.alloc) : h'[a]? = h[a]? := by
  unfold Heap.native at hn
  split at hn
  · cases hn
  · simp only at hn
    split at hn
    · cases hn
    · split at hn
      · injection hn with hn
        have hz : ∀ x ∈ s.params.zip ptrs, a ≠ x.2.alloc := fun x hx => hp x.2 (List.of_mem_zip hx).2
        have h1 := foldl_applyParam_get _ a h hz
        have hlen := foldl_applyParam_length (s.params.zip ptrs) h
        generalize (s.params.zip ptrs).foldl Heap.applyParam h = H at hn h1 hlen
        cases hr : s.ret with
        | nothing => rw [hr] at hn; simp only [Heap.applyRet, Prod.mk.injEq] at hn; rw [← hn.1]; exact h1
        | box t =>
          rw [hr] at hn; simp only [Heap.applyRet, Prod.mk.injEq] at hn
          rw [← hn.1, List.getElem?_append_left (by omega)]; exact h1
        | borrow i t wr =>
          rw [hr] at hn; simp only [Heap.applyRet] at hn
          split at hn <;> (simp only [Prod.mk.injEq] at hn; rw [← hn.1]; exact h1)
      · cases hn

theorem native_length (h h' : Heap) (s : Sig) (ptrs : List Ptr) (r : Option Ptr) (hn : h.native s ptrs = .ok (h', r)) :
    h.length ≤ h'.length := by
  unfold Heap.native at hn
  split at hn
  · cases hn
  · simp only at hn
    split at hn
    · cases hn
    · split at hn
      · injection hn with hn
        have hlen := foldl_applyParam_length (s.params.zip ptrs) h
        generalize (s.params.zip ptrs).foldl Heap.applyParam h = H at hn hlen
        cases hr : s.ret with
        | nothing => rw [hr] at hn; simp only [Heap.applyRet, Prod.mk.injEq] at hn; have e := hn.1; subst e; omega
        | box t => rw [hr] at hn; simp only [Heap.applyRet, Prod.mk.injEq] at hn; rw [← hn.1, List.length_append, hlen]; omega
        | borrow i t wr =>
          rw [hr] at hn; simp only [Heap.applyRet] at hn
          split at hn <;> (simp only [Prod.mk.injEq] at hn; have e := hn.1; subst e; omega)
      · cases hn

/-- What a native drop does. -/
theorem native_drop (h : Heap) (t : NTy) (p : Ptr) : h.native ⟨[.box t], .nothing⟩ [p] =
    match h.checkParam (.box t) p with
    | some f => .error f
    | none => .ok (h.free p.alloc, none) := by
  unfold Heap.native
  simp only [List.length_cons, List.length_nil, ne_eq, not_true_eq_false, if_false, List.zip_cons_cons, List.zip_nil_right,
    List.findSome?_cons, List.findSome?_nil, List.pairwise_cons, List.not_mem_nil, false_implies, implies_true, List.Pairwise.nil,
    and_self, if_true, List.foldl_cons, List.foldl_nil, Heap.applyParam, Heap.applyRet]
  cases h.checkParam (.box t) p <;> rfl

/-- The part of a finalizer that does not depend on the heap. -/
theorem dispose_eq (ws : List W) (h : Heap) (i : Nat) (x : W) (hx : ws[i]? = some x) :
    (⟨ws, h⟩ : World).dispose i =
      match x.w.own, x.w.inner with
      | .owned, some p =>
        if x.cls = .rvec then (⟨emptied ws i, h⟩, .ok none)
        else match h.checkParam (.box x.cls) p with
          | some f => (⟨emptied ws i, h⟩, .fault f)
          | none => (⟨emptied ws i, h.free p.alloc⟩, .ok none)
      | _, _ => (⟨emptied ws i, h⟩, .ok none) := by
  have hset := set_eq_emptied hx
  unfold World.dispose
  simp only [hx, Wrapper.dispose]
  cases ho : x.w.own <;> rw [ho] at hset
  · cases hp : x.w.inner with
    | none => simp only [hset]
    | some p =>
      simp only
      split
      · rw [hset]
      · rw [native_drop]
        cases h.checkParam (.box x.cls) p <;> simp only [hset]
  · simp only [hset]
  · simp only [hset]

theorem emptied_length (ws : List W) (i : Nat) : (emptied ws i).length = ws.length := by simp [emptied]

theorem emptied_get (ws : List W) (i j : Nat) (x : W) (hx : (emptied ws i)[j]? = some x) :
    ∃ y, ws[j]? = some y ∧ y.cls = x.cls ∧ y.w.own = x.w.own ∧ (x.w.inner = y.w.inner ∨ x.w.inner = none) := by
  rw [emptied, modify_get] at hx
  split at hx
  · cases hy : ws[j]? with
    | none => rw [hy] at hx; cases hx
    | some y => rw [hy] at hx; simp at hx; subst hx; exact ⟨y, rfl, rfl, rfl, .inr rfl⟩
  · exact ⟨x, hx, rfl, rfl, .inl rfl⟩

/-- Finalizers that free nothing a native call uses can run before the call as well as after it. -/
theorem finalize_native (s : Sig) (ptrs : List Ptr) (r : Option Ptr) (fs : List Nat) : ∀ (ws : List W) (h h' : Heap),
    h.native s ptrs = .ok (h', r) → (∀ i ∈ fs, i < ws.length) →
    (∀ i ∈ fs, ∀ x p, ws[i]? = some x → x.w.own = .owned → x.w.inner = some p →
      p.alloc < h.length ∧ ∀ q ∈ ptrs, p.alloc ≠ q.alloc) →
    (World.finalize ⟨ws, h⟩ fs).1.ws = (World.finalize ⟨ws, h'⟩ fs).1.ws ∧
    (World.finalize ⟨ws, h⟩ fs).2 = (World.finalize ⟨ws, h'⟩ fs).2 ∧
    (World.finalize ⟨ws, h⟩ fs).1.heap.native s ptrs = .ok ((World.finalize ⟨ws, h'⟩ fs).1.heap, r) := by
  induction fs with
  | nil => intro ws h h' hn _ _; exact ⟨rfl, rfl, hn⟩
  | cons i fs ih =>
    intro ws h h' hn hl hd
    obtain ⟨x, hx⟩ : ∃ x, ws[i]? = some x := ⟨_, List.getElem?_eq_getElem (hl i (by simp))⟩
    have hl' : ∀ k ∈ fs, k < (emptied ws i).length := fun k hk => by rw [emptied_length]; exact hl k (by simp [hk])
    have hd' : ∀ k ∈ fs, ∀ y p, (emptied ws i)[k]? = some y → y.w.own = .owned → y.w.inner = some p →
        p.alloc < h.length ∧ ∀ q ∈ ptrs, p.alloc ≠ q.alloc := by
      intro k hk y p hy ho hp
      obtain ⟨z, hz, _, hzo, hzi⟩ := emptied_get ws i k y hy
      rcases hzi with hzi | hzi
      · exact hd k (by simp [hk]) z p hz (hzo.trans ho) (hzi ▸ hp)
      · rw [hzi] at hp; cases hp
    simp only [World.finalize, dispose_eq ws h i x hx, dispose_eq ws h' i x hx]
    cases ho : x.w.own with
    | owned =>
      cases hp : x.w.inner with
      | none =>
        obtain ⟨a, b, c⟩ := ih (emptied ws i) h h' hn hl' hd'
        exact ⟨a, by rw [b], c⟩
      | some p =>
        obtain ⟨hpl, hpd⟩ := hd i (by simp) x p hx ho hp
        have hget := native_get h h' s ptrs r p.alloc hn hpl hpd
        simp only
        by_cases hr : x.cls = .rvec
        · simp only [hr, if_true]
          obtain ⟨a, b, c⟩ := ih (emptied ws i) h h' hn hl' hd'
          exact ⟨a, by rw [b], c⟩
        · simp only [hr, if_false]
          rw [checkParam_congr h h' _ p hget]
          cases h.checkParam (.box x.cls) p with
          | some f =>
            obtain ⟨a, b, c⟩ := ih (emptied ws i) h h' hn hl' hd'
            exact ⟨a, by rw [b], c⟩
          | none =>
            simp only
            obtain ⟨a, b, c⟩ := ih (emptied ws i) (h.free p.alloc) (h'.free p.alloc) (native_free h h' s ptrs r p.alloc hn hpl hpd) hl'
              (by simp only [free_length]; exact hd')
            exact ⟨a, by rw [b], c⟩
    | sharedRef =>
      obtain ⟨a, b, c⟩ := ih (emptied ws i) h h' hn hl' hd'
      exact ⟨a, by rw [b], c⟩
    | mutRef =>
      obtain ⟨a, b, c⟩ := ih (emptied ws i) h h' hn hl' hd'
      exact ⟨a, by rw [b], c⟩

theorem emptied_append (ws : List W) (x : W) (i : Nat) (hi : i < ws.length) : emptied (ws ++ [x]) i = emptied ws i ++ [x] := by
  apply List.ext_getElem?
  intro k
  rw [emptied, modify_get, List.getElem?_append, List.getElem?_append, emptied_length, emptied, modify_get]
  by_cases hk : k < ws.length
  · simp [hk]
  · have : i ≠ k := by omega
    simp [hk, this]

/-- A wrapper constructed later does not change what finalizers do. -/
theorem finalize_append (fs : List Nat) (x : W) : ∀ (ws : List W) (h : Heap), (∀ i ∈ fs, i < ws.length) →
    World.finalize ⟨ws ++ [x], h⟩ fs =
      (⟨(World.finalize ⟨ws, h⟩ fs).1.ws ++ [x], (World.finalize ⟨ws, h⟩ fs).1.heap⟩, (World.finalize ⟨ws, h⟩ fs).2) := by
  induction fs with
  | nil => intro ws h _; rfl
  | cons i fs ih =>
    intro ws h hl
    have hi := hl i (by simp)
    obtain ⟨y, hy⟩ : ∃ y, ws[i]? = some y := ⟨_, List.getElem?_eq_getElem hi⟩
    have hy' : (ws ++ [x])[i]? = some y := by rw [List.getElem?_append_left hi]; exact hy
    have hl' : ∀ k ∈ fs, k < (emptied ws i).length := fun k hk => by rw [emptied_length]; exact hl k (by simp [hk])
    simp only [World.finalize, dispose_eq ws h i y hy, dispose_eq (ws ++ [x]) h i y hy', emptied_append ws x i hi]
    cases y.w.own with
    | owned =>
      cases y.w.inner with
      | none => simp only [ih _ h hl']
      | some p =>
        simp only
        split
        · simp only [ih _ h hl']
        · cases h.checkParam (.box y.cls) p with
          | some f => simp only [ih _ h hl']
          | none => simp only [ih _ _ hl']
    | sharedRef => simp only [ih _ h hl']
    | mutRef => simp only [ih _ h hl']

theorem finalize_length (fs : List Nat) : ∀ (w : World), (∀ i ∈ fs, i < w.ws.length) →
    (w.finalize fs).1.ws.length = w.ws.length := by
  induction fs with
  | nil => intro w _; rfl
  | cons i fs ih =>
    intro w hl
    obtain ⟨y, hy⟩ : ∃ y, w.ws[i]? = some y := ⟨_, List.getElem?_eq_getElem (hl i (by simp))⟩
    have : (w.dispose i).1.ws = emptied w.ws i := by
      have := dispose_eq w.ws w.heap i y hy
      rw [show w = ⟨w.ws, w.heap⟩ from rfl, this]
      split
      · split
        · rfl
        · split <;> rfl
      · rfl
    simp only [World.finalize]
    rw [ih _ (by rw [this, emptied_length]; exact fun k hk => hl k (by simp [hk])), this, emptied_length]

/-- A call during which finalizers run that free nothing it uses is a call followed by these finalizers. -/
theorem callDuring_eq (w w' : World) (m : Method) (args fs : List Nat) (n : Option Nat) (hc : w.call m args = (w', .ok n))
    (hl : ∀ i ∈ fs, i < w.ws.length)
    (hd : ∀ ws' ptrs, World.evalPasses w.ws args m.pass = (ws', some ptrs) → ws'.length = w.ws.length ∧
      ∀ i ∈ fs, ∀ x p, ws'[i]? = some x → x.w.own = .owned → x.w.inner = some p →
        p.alloc < w.heap.length ∧ ∀ q ∈ ptrs, p.alloc ≠ q.alloc) :
    w.callDuring m args fs = ((w'.finalize fs).1, (w'.finalize fs).2 ++ [.ok n]) := by
  unfold World.call at hc
  unfold World.callDuring
  split at hc
  · injection hc with _ hc; cases hc
  · split at hc
    · injection hc with _ hc; cases hc
    · rename_i h1 h2
      simp only [h1, h2, if_false, Bool.false_eq_true]
      cases he : World.evalPasses w.ws args m.pass with
      | mk ws' o =>
        rw [he] at hc
        cases o with
        | none => injection hc with _ hc; cases hc
        | some ptrs =>
          simp only at hc ⊢
          obtain ⟨hlen, hd⟩ := hd ws' ptrs he
          cases hn : w.heap.native m.sig ptrs with
          | error f => rw [hn] at hc; injection hc with _ hc; cases hc
          | ok hr =>
            obtain ⟨h', r⟩ := hr
            rw [hn] at hc
            simp only at hc
            have hl' : ∀ i ∈ fs, i < ws'.length := fun i hi => by rw [hlen]; exact hl i hi
            obtain ⟨a, b, c⟩ := finalize_native m.sig ptrs r fs ws' w.heap h' hn hl' hd
            simp only [c]
            have hfl := finalize_length fs ⟨ws', h'⟩ hl'
            cases hm : m.ret with
            | none =>
              rw [hm] at hc
              simp only [Prod.mk.injEq, Res.ok.injEq] at hc
              obtain ⟨rfl, rfl⟩ := hc
              simp only [a, b]
            | some co =>
              rw [hm] at hc
              cases r with
              | none =>
                simp only [Prod.mk.injEq, Res.ok.injEq] at hc
                obtain ⟨rfl, rfl⟩ := hc
                simp only [a, b]
              | some p =>
                simp only [Prod.mk.injEq, Res.ok.injEq] at hc
                obtain ⟨rfl, rfl⟩ := hc
                simp only [finalize_append fs _ ws' h' hl', a, b, hfl]

theorem evalPass_length (ws : List W) (args : List Nat) (p : Pass) : (World.evalPass ws args p).1.length = ws.length := by
  unfold World.evalPass
  split
  · rfl
  · split
    · rfl
    · split
      · rfl
      · split <;> simp
      · rfl

theorem evalPasses_length (args : List Nat) (ps : List Pass) : ∀ (ws : List W),
    (World.evalPasses ws args ps).1.length = ws.length := by
  induction ps with
  | nil => intro ws; rfl
  | cons p ps ih =>
    intro ws
    have h1 := evalPass_length ws args p
    simp only [World.evalPasses]
    cases he : World.evalPass ws args p with
    | mk ws' o =>
      rw [he] at h1
      cases o with
      | none => exact h1
      | some q =>
        have h2 := ih ws'
        simp only
        cases he2 : World.evalPasses ws' args ps with
        | mk ws'' o2 =>
          rw [he2] at h2
          cases o2 <;> exact h2.trans h1

theorem inv_finalize {bs : List B} (fs : List Nat) : ∀ (w : World) (bs : List B), Inv w.ws w.heap bs → (∀ i ∈ fs, i < bs.length) →
    Inv (w.finalize fs).1.ws (w.finalize fs).1.heap (fs.foldl (fun bs i => bs.modify i fun b => { b with full := false }) bs) ∧
    ∀ r ∈ (w.finalize fs).2, ∃ n, r = .ok n := by
  induction fs with
  | nil => intro w bs hi _; exact ⟨hi, by simp [World.finalize]⟩
  | cons i fs ih =>
    intro w bs hi hl
    obtain ⟨w', n, e, hi'⟩ := inv_dispose hi i (hl i (by simp))
    obtain ⟨h1, h2⟩ := ih w' _ hi' (fun k hk => by rw [List.length_modify]; exact hl k (by simp [hk]))
    simp only [World.finalize, e, List.foldl_cons]
    exact ⟨h1, fun r hr => (List.mem_cons.1 hr).elim (fun e => ⟨n, e⟩) (h2 r)⟩

/-- What an allowed call reads, and what the wrappers passed by reference have to do with it. -/
theorem inv_call_eval {w : World} {bs : List B} (hi : Inv w.ws w.heap bs) (m : Method) (hm : Faithful m) (args : List Nat)
    (ha : allowed bs m.sig args) :
    ∃ ws' ptrs, World.evalPasses w.ws args m.pass = (ws', some ptrs) ∧ ptrs.length = m.sig.params.length ∧
      (∀ (k i : Nat) (p : Ptr), args[k]? = some i → ptrs[k]? = some p → ptrAt w.ws i = some p) ∧
      (∀ j : Nat, (∀ x ∈ m.sig.params.zip args, isBox x.1 = true → j ≠ x.2) → ptrAt ws' j = ptrAt w.ws j) ∧
      (∀ (j : Nat) (b : B), bs[j]? = some b → ∃ x, ws'[j]? = some x ∧ x.cls = b.cls ∧ x.w.own = b.own) ∧
      (∀ (j : Nat) (p : Ptr), ptrAt ws' j = some p → ptrAt w.ws j = some p ∧ ∀ x ∈ m.sig.params.zip args, isBox x.1 = true → j ≠ x.2) := by
  obtain ⟨hl, hall, hpw⟩ := ha
  obtain ⟨ws', ptrs, e1, e2, e3, e4, e5, e6⟩ := inv_params m.sig.params args [] w.ws w.heap bs hi hl hall hpw
  have hbox : ∀ x ∈ m.sig.params.zip args, isBox x.1 = true → ptrAt ws' x.2 = none := by
    intro x hx hb
    have hfull : ∀ (xs : List (Param × Nat)) (cs : List B), x ∈ xs → ∀ c, (xs.foldl passed cs)[x.2]? = some c → c.full = false := by
      intro xs
      induction xs with
      | nil => intro cs h; cases h
      | cons y ys ih =>
        intro cs hy c hc
        rw [List.foldl_cons] at hc
        by_cases hys : x ∈ ys
        · exact ih _ hys c hc
        · have hxy : x = y := (List.mem_cons.1 hy).resolve_right hys
          subst hxy
          have keep : ∀ (zs : List (Param × Nat)) (ds : List B), (∀ d, ds[x.2]? = some d → d.full = false) →
              ∀ d, (zs.foldl passed ds)[x.2]? = some d → d.full = false := by
            intro zs
            induction zs with
            | nil => intro ds hd; exact hd
            | cons z zs ih2 =>
              intro ds hd
              rw [List.foldl_cons]
              apply ih2
              intro d hd'
              unfold passed at hd'
              split at hd'
              · exact hd d hd'
              · split at hd'
                · rw [modify_get] at hd'
                  split at hd'
                  · cases hds : ds[x.2]? with
                    | none => rw [hds] at hd'; cases hd'
                    | some d0 => rw [hds] at hd'; simp at hd'; subst hd'; exact hd d0 hds
                  · exact hd d hd'
                · exact hd d hd'
              · rw [modify_get] at hd'
                split at hd'
                · cases hds : ds[x.2]? with
                  | none => rw [hds] at hd'; cases hd'
                  | some d0 => rw [hds] at hd'; simp at hd'; subst hd'; rfl
                · exact hd d hd'
          refine keep ys _ ?_ c hc
          intro d hd
          unfold passed at hd
          cases hq : x.1 with
          | box t =>
            rw [hq] at hd
            simp only [modify_get, if_true] at hd
            cases hds : cs[x.2]? with
            | none => rw [hds] at hd; cases hd
            | some d0 => rw [hds] at hd; simp at hd; subst hd; rfl
          | ref t => rw [hq] at hb; simp [isBox] at hb
          | refMut t mv => rw [hq] at hb; simp [isBox] at hb
    obtain ⟨_, b, hbb, _⟩ := hall x hx
    obtain ⟨c, hc⟩ : ∃ c, ((m.sig.params.zip args).foldl passed bs)[x.2]? = some c := by
      have := e6 x.2
      rw [hbb] at this
      cases hc : ((m.sig.params.zip args).foldl passed bs)[x.2]? with
      | none => rw [hc] at this; cases this
      | some c => exact ⟨c, rfl⟩
    have h1 := ptrAt_isSome e3 hc
    rw [hfull _ _ hx c hc] at h1
    simpa using h1
  refine ⟨ws', ptrs, by rw [hm.pass]; exact e1, e2, e4, e5, ?_, ?_⟩
  · intro j b hb
    obtain ⟨c, hc, hcb⟩ : ∃ c, ((m.sig.params.zip args).foldl passed bs)[j]? = some c ∧ c.cls = b.cls ∧ c.own = b.own := by
      have := e6 j
      rw [hb] at this
      cases hc : ((m.sig.params.zip args).foldl passed bs)[j]? with
      | none => rw [hc] at this; cases this
      | some c => rw [hc] at this; simp only [Option.map_some, Option.some.injEq, Prod.mk.injEq] at this; exact ⟨c, rfl, this.1, this.2.1⟩
    obtain ⟨x, h1, h2, h3, _⟩ := ws_some e3 hc
    exact ⟨x, h1, h2.trans hcb.1, h3.trans hcb.2⟩
  · intro j p hj
    have hne : ∀ x ∈ m.sig.params.zip args, isBox x.1 = true → j ≠ x.2 := by
      intro x hx hb e
      subst e
      rw [hbox x hx hb] at hj; cases hj
    exact ⟨by rw [← e5 j hne]; exact hj, hne⟩

/-- The pointers read by an allowed call point into the objects of the arguments. -/
theorem arg_alloc {w : World} {bs : List B} (hi : Inv w.ws w.heap bs) (s : Sig) (args : List Nat) (ha : allowed bs s args)
    (ptrs : List Ptr) (hl : ptrs.length = s.params.length)
    (hp : ∀ (k i : Nat) (p : Ptr), args[k]? = some i → ptrs[k]? = some p → ptrAt w.ws i = some p) (q : Ptr) (hq : q ∈ ptrs) :
    ∃ x b rb rp, x ∈ s.params.zip args ∧ bs[x.2]? = some b ∧ fits b x.1 ∧ bs[b.root]? = some rb ∧ rb.own = .owned ∧
      ptrAt w.ws b.root = some rp ∧ rp.alloc = q.alloc := by
  obtain ⟨k, hk⟩ := List.mem_iff_getElem?.1 hq
  have hkl := (List.getElem?_eq_some_iff.1 hk).1
  have hal := ha.1
  have h1 : s.params[k]? = some (s.params[k]'(by omega)) := List.getElem?_eq_getElem (by omega)
  have h2 : args[k]? = some (args[k]'(by omega)) := List.getElem?_eq_getElem (by omega)
  have hm := mem_zip_of_get h1 h2
  obtain ⟨hu, b, hb, hf⟩ := ha.2.1 _ hm
  obtain ⟨p', rp, rb, a1, a2, a3, a4, a5, _⟩ := usable_ptr hi hu hb
  rw [hp k _ q h2 hk] at a1; injection a1 with a1; subst a1
  exact ⟨_, b, rb, rp, hm, hb, hf, a3, a4, a2, a5.symm⟩

/-- A call during which wrappers are finalized that own nothing borrowed by the call. -/
theorem inv_callDuring {w : World} {bs : List B} (hi : Inv w.ws w.heap bs) (m : Method) (hm : Faithful m) (args fs : List Nat)
    (ha : allowed bs m.sig args) (hl : ∀ i ∈ fs, i < w.ws.length)
    (hk : ∀ i ∈ fs, ∀ x ∈ m.sig.params.zip args, x.1.borrows = true → rootOf bs x.2 ≠ i) :
    (∀ r ∈ (w.callDuring m args fs).2, ∃ n, r = .ok n) ∧
    Inv (w.callDuring m args fs).1.ws (w.callDuring m args fs).1.heap
      (fs.foldl (fun bs i => bs.modify i fun b => { b with full := false }) (after bs m.sig args)) := by
  obtain ⟨w', n, hc, hi'⟩ := inv_call hi m hm args ha
  obtain ⟨ws', ptrs, he, hpl, hp, _, hcls, hback⟩ := inv_call_eval hi m hm args ha
  have hlen : ws'.length = w.ws.length := by have := evalPasses_length args m.pass w.ws; rw [he] at this; exact this
  have heq := callDuring_eq w w' m args fs n hc hl (by
    intro ws2 ptrs2 he2
    rw [he] at he2
    injection he2 with e1 e2
    injection e2 with e2
    subst e1; subst e2
    refine ⟨hlen, ?_⟩
    intro i hif x p hx ho hpx
    have hpi : ptrAt ws' i = some p := by simp [ptrAt, hx, hpx]
    obtain ⟨hpw, hnb⟩ := hback i p hpi
    have hib : i < bs.length := by rw [← inv_length hi]; exact hl i hif
    obtain ⟨b, hb⟩ : ∃ b, bs[i]? = some b := ⟨_, List.getElem?_eq_getElem hib⟩
    obtain ⟨x2, hx2, _, hxo⟩ := hcls i b hb
    rw [hx] at hx2; injection hx2 with hx2; subst hx2
    have hbo : b.own = .owned := hxo.symm.trans ho
    obtain ⟨_, _, _, hlive⟩ := hi.good i b p hb hbo hpw
    refine ⟨(List.getElem?_eq_some_iff.1 hlive).1, ?_⟩
    intro q hq e
    obtain ⟨y, c, rb, rp, hy, hc, hf, hrb, hro, hrp, hra⟩ := arg_alloc hi m.sig args ha ptrs hpl hp q hq
    have hroot : i = c.root := hi.inj i c.root b rb p rp hb hbo hrb hro hpw hrp (e.trans hra.symm)
    cases hbr : y.1.borrows with
    | true => exact hk i hif y hy hbr (by rw [rootOf_eq hc]; exact hroot.symm)
    | false =>
      have hbox : isBox y.1 = true := by cases hq1 : y.1 <;> rw [hq1] at hbr <;> simp_all [Param.borrows, isBox]
      have hco : c.own = .owned := by
        cases hq1 : y.1 with
        | box t => rw [hq1] at hf; exact hf.2
        | ref t => rw [hq1] at hbr; simp [Param.borrows] at hbr
        | refMut t mv => rw [hq1] at hbr; simp [Param.borrows] at hbr
      have := hi.ownRoot y.2 c hc hco
      exact hnb y hy hbox (hroot.trans this))
  rw [heq]
  have hal : ∀ i ∈ fs, i < (after bs m.sig args).length := by
    intro i hif
    have h1 := hl i hif
    have h2 : w'.ws.length = (after bs m.sig args).length := inv_length hi'
    have h3 : w.ws.length ≤ w'.ws.length := by
      unfold World.call at hc
      split at hc
      · injection hc with _ hc; cases hc
      · split at hc
        · injection hc with _ hc; cases hc
        · rw [he] at hc
          simp only at hc
          split at hc
          · injection hc with _ hc; cases hc
          · split at hc
            · injection hc with hc _; rw [← hc]; simp; omega
            · injection hc with hc _; rw [← hc]; simp only; omega
    omega
  obtain ⟨h1, h2⟩ := inv_finalize (bs := []) fs w' _ hi' hal
  refine ⟨?_, h1⟩
  intro r hr
  rcases List.mem_append.1 hr with hr | hr
  · exact h2 r hr
  · exact ⟨n, by simpa using hr⟩

/-! ## The checker does not notice finalized wrappers that are not used any more -/

/-- What the checker knows of a wrapper, apart from whether it has been emptied. -/
def strip (b : B) : B := { b with full := true }

/-- Two states of the checker agree for the rest of a program. -/
def Agree (p : List Instr) (bs cs : List B) : Prop :=
  (∀ i : Nat, bs[i]?.map strip = cs[i]?.map strip) ∧ ∀ i : Nat, mentioned p i → bs[i]? = cs[i]?

theorem agree_length {p : List Instr} {bs cs : List B} (h : Agree p bs cs) : bs.length = cs.length := by
  have h1 : bs.map strip = cs.map strip := by
    apply List.ext_getElem?
    intro i
    rw [List.getElem?_map, List.getElem?_map]; exact h.1 i
  have := congrArg List.length h1
  simpa using this

theorem agree_cases {p : List Instr} {bs cs : List B} (h : Agree p bs cs) (i : Nat) :
    (bs[i]? = none ∧ cs[i]? = none) ∨ ∃ b c, bs[i]? = some b ∧ cs[i]? = some c ∧ strip b = strip c := by
  have := h.1 i
  cases h1 : bs[i]? with
  | none =>
    cases h2 : cs[i]? with
    | none => exact .inl ⟨rfl, rfl⟩
    | some c => rw [h1, h2] at this; cases this
  | some b =>
    cases h2 : cs[i]? with
    | none => rw [h1, h2] at this; cases this
    | some c =>
      rw [h1, h2] at this
      simp only [Option.map_some, Option.some.injEq] at this
      exact .inr ⟨b, c, rfl, rfl, this⟩

theorem agree_rootOf {p : List Instr} {bs cs : List B} (h : Agree p bs cs) (i : Nat) : rootOf bs i = rootOf cs i := by
  unfold rootOf
  rcases agree_cases h i with ⟨h1, h2⟩ | ⟨b, c, h1, h2, h3⟩
  · rw [h1, h2]
  · rw [h1, h2]
    have := congrArg B.root h3
    simpa [strip] using this

theorem agree_moved {p : List Instr} {bs cs : List B} (h : Agree p bs cs) (i : Nat) : bs[i]?.map B.moved = cs[i]?.map B.moved := by
  rcases agree_cases h i with ⟨h1, h2⟩ | ⟨b, c, h1, h2, h3⟩
  · rw [h1, h2]
  · rw [h1, h2]
    have := congrArg B.moved h3
    simpa [strip] using this

theorem agree_modify {p : List Instr} {bs cs : List B} (h : Agree p bs cs) (i : Nat) (f : B → B)
    (hf : ∀ b c, strip b = strip c → strip (f b) = strip (f c)) : Agree p (bs.modify i f) (cs.modify i f) := by
  refine ⟨fun j => ?_, fun j hj => ?_⟩
  · rw [modify_get, modify_get]
    split
    · rcases agree_cases h j with ⟨h1, h2⟩ | ⟨b, c, h1, h2, h3⟩
      · rw [h1, h2]
      · rw [h1, h2]; simp only [Option.map_some, Option.some.injEq]; exact hf _ _ h3
    · exact h.1 j
  · rw [modify_get, modify_get, h.2 j hj]

theorem strip_full (b c : B) (h : strip b = strip c) : strip { b with full := false } = strip { c with full := false } := by
  simpa [strip] using h

theorem strip_moved (b c : B) (h : strip b = strip c) : strip { b with moved := b.moved + 1 } = strip { c with moved := c.moved + 1 } := by
  simp only [strip, B.mk.injEq] at h ⊢
  obtain ⟨h1, h2, _, h4, h5, h6⟩ := h
  exact ⟨h1, h2, trivial, h4, h5, by rw [h6]⟩

/-- A finalizer of a wrapper that is not used any more. -/
theorem agree_finalize {p : List Instr} {bs cs : List B} (h : Agree p bs cs) (i : Nat) (hi : ¬ mentioned p i) :
    Agree p bs (cs.modify i fun b => { b with full := false }) := by
  refine ⟨fun j => ?_, fun j hj => ?_⟩
  · rw [h.1 j, modify_get]
    split
    · cases cs[j]? <;> simp [strip]
    · rfl
  · rw [modify_get, if_neg (by rintro rfl; exact hi hj)]; exact h.2 j hj

theorem agree_finalizes {p : List Instr} {bs : List B} (fs : List Nat) : ∀ (cs : List B), Agree p bs cs → (∀ i ∈ fs, ¬ mentioned p i) →
    Agree p bs (fs.foldl (fun bs i => bs.modify i fun b => { b with full := false }) cs) := by
  induction fs with
  | nil => intro cs h _; exact h
  | cons i fs ih => intro cs h hi; exact ih _ (agree_finalize h i (hi i (by simp))) fun k hk => hi k (by simp [hk])

theorem agree_passed {p : List Instr} {bs cs : List B} (h : Agree p bs cs) (x : Param × Nat) : Agree p (passed bs x) (passed cs x) := by
  unfold passed
  split
  · exact h
  · split
    · rw [agree_rootOf h]; exact agree_modify h _ _ strip_moved
    · exact h
  · exact agree_modify h _ _ strip_full

theorem agree_passeds {p : List Instr} (xs : List (Param × Nat)) : ∀ (bs cs : List B), Agree p bs cs →
    Agree p (xs.foldl passed bs) (xs.foldl passed cs) := by
  induction xs with
  | nil => intro bs cs h; exact h
  | cons x xs ih => intro bs cs h; exact ih _ _ (agree_passed h x)

theorem agree_append {p : List Instr} {bs cs : List B} (h : Agree p bs cs) (b : B) : Agree p (bs ++ [b]) (cs ++ [b]) := by
  have hl := agree_length h
  refine ⟨fun j => ?_, fun j hj => ?_⟩
  · rw [List.getElem?_append, List.getElem?_append, hl]
    split
    · exact h.1 j
    · rfl
  · rw [List.getElem?_append, List.getElem?_append, hl]
    split
    · exact h.2 j hj
    · rfl

theorem agree_after {p : List Instr} {bs cs : List B} (h : Agree p bs cs) (s : Sig) (args : List Nat) :
    Agree p (after bs s args) (after cs s args) := by
  have h1 := agree_passeds (s.params.zip args) bs cs h
  unfold after
  generalize (s.params.zip args).foldl passed bs = bs1 at h1
  generalize (s.params.zip args).foldl passed cs = cs1 at h1
  unfold returned
  cases s.ret with
  | nothing => exact h1
  | box t => simp only [agree_length h1]; exact agree_append h1 _
  | borrow i t wr =>
    simp only
    split
    · exact h1
    · rw [agree_rootOf h1, agree_moved h1]; exact agree_append h1 _

theorem agree_mono {p q : List Instr} {bs cs : List B} (h : Agree p bs cs) (hpq : ∀ i, mentioned q i → mentioned p i) : Agree q bs cs :=
  ⟨h.1, fun i hi => h.2 i (hpq i hi)⟩

theorem mentioned_tail {x : Instr} {p : List Instr} (i : Nat) (h : mentioned p i) : mentioned (x :: p) i := by
  obtain ⟨y, hy, hi⟩ := h
  exact ⟨y, by simp [hy], hi⟩

theorem agree_allowed {ws : List W} {h : Heap} {p : List Instr} {bs cs : List B} (a : Api) (args : List Nat)
    (hi : Inv ws h cs) (hag : Agree (.call (.method a args) :: p) bs cs) (ha : allowed bs a.method.sig args)
    (hk : ∀ x ∈ a.method.sig.params.zip args, x.1.borrows = true → mentioned p (rootOf bs x.2)) :
    allowed cs a.method.sig args := by
  obtain ⟨hl, hall, hpw⟩ := ha
  refine ⟨hl, ?_, ?_⟩
  · intro x hx
    obtain ⟨⟨b', r, e1, e2, f1, f2, hs⟩, b, hb, hf⟩ := hall x hx
    rw [hb] at e1; injection e1 with e1; subst e1
    have hmx : mentioned (.call (.method a args) :: p) x.2 :=
      ⟨_, List.mem_cons_self .., by simp only [Instr.uses]; exact (List.of_mem_zip hx).2⟩
    have hbc : cs[x.2]? = some b := by rw [← hag.2 _ hmx]; exact hb
    refine ⟨?_, b, hbc, hf⟩
    cases hbr : x.1.borrows with
    | true =>
      have hmr := mentioned_tail (x := .call (.method a args)) _ (hk x hx hbr)
      rw [rootOf_eq hb] at hmr
      exact ⟨b, r, hbc, by rw [← hag.2 _ hmr]; exact e2, f1, f2, hs⟩
    | false =>
      have hbo : b.own = .owned := by
        cases hq1 : x.1 with
        | box t => rw [hq1] at hf; exact hf.2
        | ref t => rw [hq1] at hbr; simp [Param.borrows] at hbr
        | refMut t mv => rw [hq1] at hbr; simp [Param.borrows] at hbr
      have hroot := hi.ownRoot x.2 b hbc hbo
      exact ⟨b, b, hbc, by rw [hroot]; exact hbc, f1, f1, .inl hbo⟩
  · refine List.Pairwise.imp ?_ hpw
    intro x y hxy hex
    rw [← agree_rootOf hag, ← agree_rootOf hag]
    exact hxy hex

theorem disciplined_method {bs bs' : List B} {a : Api} {args : List Nat} {cs : List Call} (h : Disciplined bs (.method a args :: cs) bs') :
    a.broken = false ∧ allowed bs a.method.sig args ∧ Disciplined (after bs a.method.sig args) cs bs' := by
  cases h with
  | method _ _ _ _ _ h1 h2 h3 => exact ⟨h1, h2, h3⟩

theorem disciplined_dispose {bs bs' : List B} {i : Nat} {cs : List Call} (h : Disciplined bs (.dispose i :: cs) bs') :
    i < bs.length ∧ Disciplined (bs.modify i fun b => { b with full := false }) cs bs' := by
  cases h with
  | dispose _ _ _ _ h1 h2 => exact ⟨h1, h2⟩

/-- A disciplined program that keeps owners alive succeeds under every schedule. -/
theorem gcRun_ok {w : World} {p : List Instr} {rs : List Res} (hr : GcRun w p rs) : ∀ (bs cs bs' : List B),
    Disciplined bs (calls p) bs' → KeepsAlive bs p → Agree p bs cs → Inv w.ws w.heap cs → ∀ r ∈ rs, ∃ n, r = .ok n := by
  induction hr with
  | stop w p => intro _ _ _ _ _ _ _ r hr; cases hr
  | finalize w p i rs hl hm _ ih =>
    intro bs cs bs' hd hk hag hi
    obtain ⟨w', n, e, hi'⟩ := inv_dispose hi i (by rw [← inv_length hi]; exact hl)
    rw [e] at ih ⊢
    have := ih bs _ bs' hd hk (agree_finalize hag i hm) hi'
    exact fun r hr => (List.mem_cons.1 hr).elim (fun e => ⟨n, e⟩) (this r)
  | keepAlive w i p rs _ ih =>
    intro bs cs bs' hd hk hag hi
    exact ih bs cs bs' hd hk (agree_mono hag mentioned_tail) hi
  | dispose w i p rs _ ih =>
    intro bs cs bs' hd hk hag hi
    obtain ⟨hl, hd'⟩ := disciplined_dispose hd
    obtain ⟨w', n, e, hi'⟩ := inv_dispose hi i (by rw [← agree_length hag]; exact hl)
    rw [e] at ih ⊢
    have := ih _ _ bs' hd' hk (agree_modify (agree_mono hag mentioned_tail) i _ strip_full) hi'
    exact fun r hr => (List.mem_cons.1 hr).elim (fun e => ⟨n, e⟩) (this r)
  | method w a args p fs rs hfs _ ih =>
    intro bs cs bs' hd hk hag hi
    obtain ⟨hb, ha, hd'⟩ := disciplined_method hd
    obtain ⟨hk1, hk2⟩ := hk
    have hac := agree_allowed a args hi hag ha hk1
    obtain ⟨h1, h2⟩ := inv_callDuring hi a.method (faithful_of_not_broken a hb) args fs hac (fun i hif => (hfs i hif).1) (by
      intro i hif x hx hbr e
      have := hk1 x hx hbr
      rw [agree_rootOf hag, e] at this
      exact (hfs i hif).2 this)
    have := ih _ _ bs' hd' hk2 (agree_finalizes fs _ (agree_after (agree_mono hag mentioned_tail) _ _) fun i hif => (hfs i hif).2) h2
    intro r hr
    rcases List.mem_append.1 hr with hr | hr
    · exact h1 r hr
    · exact this r hr

/-! ## A program that does not keep an owner alive fails under some schedule -/

/-- Nothing the checker knows of is a vector. -/
def NoVec (bs : List B) : Prop := ∀ b ∈ bs, b.cls ≠ .rvec

theorem novec_modify {bs : List B} (h : NoVec bs) (i : Nat) (f : B → B) (hf : ∀ b, (f b).cls = b.cls) : NoVec (bs.modify i f) := by
  intro b hb
  obtain ⟨j, hj⟩ := List.mem_iff_getElem?.1 hb
  rw [modify_get] at hj
  split at hj
  · cases hx : bs[j]? with
    | none => rw [hx] at hj; cases hj
    | some x => rw [hx] at hj; simp at hj; subst hj; rw [hf]; exact h x (List.mem_of_getElem? hx)
  · exact h b (List.mem_of_getElem? hj)

theorem novec_passed {bs : List B} (h : NoVec bs) (x : Param × Nat) : NoVec (passed bs x) := by
  unfold passed
  split
  · exact h
  · split
    · exact novec_modify h _ _ fun _ => rfl
    · exact h
  · exact novec_modify h _ _ fun _ => rfl

theorem novec_passeds (xs : List (Param × Nat)) : ∀ {bs : List B}, NoVec bs → NoVec (xs.foldl passed bs) := by
  induction xs with
  | nil => intro bs h; exact h
  | cons x xs ih => intro bs h; exact ih (novec_passed h x)

theorem novec_after {bs : List B} (h : NoVec bs) (a : Api) (args : List Nat) (ha : a ≠ .rvecNew) :
    NoVec (after bs a.method.sig args) := by
  have h1 := novec_passeds (a.method.sig.params.zip args) h
  have hret : (∀ t, a.method.sig.ret = .box t → t ≠ .rvec) ∧ (∀ i t w, a.method.sig.ret = .borrow i t w → t ≠ .rvec) := by
    cases a <;> simp_all [Api.method] <;> (try (rintro _ _ _ _ rfl _; simp)) <;> (try (intro t h; rw [← h]; simp))
  unfold after
  generalize (a.method.sig.params.zip args).foldl passed bs = bs1 at h1
  unfold returned
  cases hr : a.method.sig.ret with
  | nothing => exact h1
  | box t =>
    intro b hb
    rcases List.mem_append.1 hb with hb | hb
    · exact h1 b hb
    · simp at hb; subst hb; exact hret.1 t hr
  | borrow i t wr =>
    simp only
    split
    · exact h1
    · intro b hb
      rcases List.mem_append.1 hb with hb | hb
      · exact h1 b hb
      · simp at hb; subst hb; exact hret.2 i t wr hr

theorem callDuring_nil (w : World) (m : Method) (args : List Nat) : w.callDuring m args [] = ((w.call m args).1, [(w.call m args).2]) := by
  unfold World.callDuring World.call
  split
  · rfl
  · split
    · rfl
    · cases World.evalPasses w.ws args m.pass with
      | mk ws' o =>
        cases o with
        | none => rfl
        | some ptrs =>
          simp only [World.finalize]
          cases w.heap.native m.sig ptrs with
          | error f => rfl
          | ok hr =>
            obtain ⟨h', r⟩ := hr
            cases m.ret <;> cases r <;> rfl

/-- If the owner of something a call borrows is finalized while the pointers are already read, the call uses freed
memory. -/
theorem callDuring_fault {w : World} {bs : List B} (hi : Inv w.ws w.heap bs) (hv : NoVec bs) (m : Method) (hm : Faithful m)
    (args : List Nat) (ha : allowed bs m.sig args) (x : Param × Nat) (hx : x ∈ m.sig.params.zip args) (hbr : x.1.borrows = true) :
    rootOf bs x.2 < w.ws.length ∧ ∃ f, Res.fault f ∈ (w.callDuring m args [rootOf bs x.2]).2 := by
  have ha' := ha
  obtain ⟨hl, hall, hpw⟩ := ha'
  obtain ⟨ws', ptrs, he, hpl, hp, hkeep, hcls, _⟩ := inv_call_eval hi m hm args ha
  obtain ⟨hu, b, hb, hf⟩ := hall x hx
  obtain ⟨p, rp, rb, hpx, hrp, hrb, hro, hal, _, _, _, _, hlive⟩ := usable_ptr hi hu hb
  obtain ⟨g1, g2, _, _⟩ := hi.good b.root rb rp hrb hro hrp
  have hnv : rb.cls ≠ .rvec := hv rb (List.mem_of_getElem? hrb)
  rw [rootOf_eq hb]
  have hlt : b.root < w.ws.length := by rw [inv_length hi]; exact (List.getElem?_eq_some_iff.1 hrb).1
  refine ⟨hlt, ?_⟩
  -- the owner is not given away by the call
  have hne : ∀ y ∈ m.sig.params.zip args, isBox y.1 = true → b.root ≠ y.2 := by
    rintro ⟨q', i'⟩ hy hbx heq
    simp only at hbx heq
    obtain ⟨_, b', hb', hf'⟩ := hall _ hy
    have hown' : b'.own = .owned := by
      cases q' with
      | box t => exact hf'.2
      | _ => simp [isBox] at hbx
    simp only at hb'
    have hrt := hi.ownRoot i' b' hb' hown'
    obtain ⟨k', hk'⟩ := List.mem_iff_getElem?.1 hy
    obtain ⟨k, hk⟩ := List.mem_iff_getElem?.1 hx
    have hkk : k ≠ k' := by
      rintro rfl
      rw [hk'] at hk; injection hk with hk
      rw [← hk] at hbr
      cases q' <;> simp [isBox, Param.borrows] at hbx hbr
    have hex : q'.exclusive = true := by cases q' <;> simp_all [isBox, Param.exclusive]
    have hneq : rootOf bs x.2 ≠ rootOf bs i' := by
      rw [List.pairwise_iff_getElem] at hpw
      obtain ⟨l1, g1⟩ := List.getElem?_eq_some_iff.1 hk
      obtain ⟨l2, g2⟩ := List.getElem?_eq_some_iff.1 hk'
      rcases Nat.lt_or_ge k k' with hlt | hge
      · have := hpw k k' l1 l2 hlt
        rw [g1, g2] at this
        exact this (by simp [hex])
      · have := hpw k' k l2 l1 (by omega)
        rw [g1, g2] at this
        exact fun e => this (by simp [hex]) e.symm
    rw [rootOf_eq hb, rootOf_eq hb', hrt] at hneq
    exact hneq heq
  have hrp' : ptrAt ws' b.root = some rp := by rw [hkeep _ hne]; exact hrp
  obtain ⟨y, hy, hyc, hyo⟩ := hcls b.root rb hrb
  have hyi : y.w.inner = some rp := by simpa [ptrAt, hy] using hrp'
  have hcheck : Heap.checkParam w.heap (.box y.cls) rp = none := by
    simp [Heap.checkParam, Heap.valid, hlive, g1, g2, hyc, Param.ty]
  have hfin : World.finalize ⟨ws', w.heap⟩ [b.root] = (⟨emptied ws' b.root, w.heap.free rp.alloc⟩, [.ok none]) := by
    simp only [World.finalize, dispose_eq ws' w.heap b.root y hy, hyo, hro, hyi, hcheck]
    rw [if_neg (by rw [hyc]; exact hnv)]
  obtain ⟨k, hk⟩ := List.mem_iff_getElem?.1 hx
  obtain ⟨hk1, hk2⟩ := List.getElem?_zip_eq_some.1 hk
  have hkl : k < ptrs.length := by rw [hpl]; exact (List.getElem?_eq_some_iff.1 hk1).1
  have hpk : ptrs[k]? = some (ptrs[k]) := List.getElem?_eq_getElem hkl
  have hpe := hp k x.2 _ hk2 hpk
  rw [hpx] at hpe; injection hpe with hpe
  have hmem : (x.1, p) ∈ m.sig.params.zip ptrs := mem_zip_of_get hk1 (by rw [hpk, hpe])
  have hdang : Heap.checkParam (w.heap.free rp.alloc) x.1 p = some .dangling := by
    have : Heap.valid (w.heap.free rp.alloc) p = false := by
      simp only [Heap.valid, Heap.free, modify_get, hal, if_true, hlive, Option.map_some, Bool.false_and]
    simp [Heap.checkParam, this]
  have hnat : ∃ f, Heap.native (w.heap.free rp.alloc) m.sig ptrs = .error f := by
    unfold Heap.native
    simp only [hpl, ne_eq, not_true_eq_false, if_false]
    cases hfs : (m.sig.params.zip ptrs).findSome? (fun x => (w.heap.free rp.alloc).checkParam x.1 x.2) with
    | some f => exact ⟨f, rfl⟩
    | none =>
      rw [List.findSome?_eq_none_iff] at hfs
      have := hfs _ hmem
      rw [hdang] at this; cases this
  obtain ⟨f, hnat⟩ := hnat
  have ht : World.typed w.ws args m.args = true := by rw [hm.args]; exact typed_of_allowed hi _ _ hl hall
  have hg := guards_of_allowed hi m hm args hl hall
  refine ⟨f, ?_⟩
  unfold World.callDuring
  simp only [ht, hg, Bool.not_true, Bool.false_eq_true, if_false, he, hfin, hnat]
  simp

theorem gcRun_fault (p : List Instr) : ∀ (w : World) (bs bs' : List B), Inv w.ws w.heap bs → NoVec bs →
    (∀ args : List Nat, Instr.call (.method .rvecNew args) ∉ p) → Disciplined bs (calls p) bs' → ¬ KeepsAlive bs p →
    ∃ rs, GcRun w p rs ∧ ∃ f, Res.fault f ∈ rs := by
  induction p with
  | nil => intro w bs bs' _ _ _ _ hk; exact absurd trivial hk
  | cons x p ih =>
    intro w bs bs' hi hv hn hd hk
    have hn' : ∀ args : List Nat, Instr.call (.method .rvecNew args) ∉ p := fun args h => hn args (by simp [h])
    cases x with
    | keepAlive i =>
      obtain ⟨rs, h1, h2⟩ := ih w bs bs' hi hv hn' hd hk
      exact ⟨rs, .keepAlive w i p rs h1, h2⟩
    | call c =>
      cases c with
      | dispose i =>
        obtain ⟨hl, hd'⟩ := disciplined_dispose hd
        obtain ⟨w', n, e, hi'⟩ := inv_dispose hi i hl
        obtain ⟨rs, h1, f, h2⟩ := ih w' _ bs' hi' (novec_modify hv i _ fun _ => rfl) hn' hd' hk
        refine ⟨_, .dispose w i p rs (by rw [e]; exact h1), f, by simp [h2]⟩
      | method a args =>
        obtain ⟨hb, ha, hd'⟩ := disciplined_method hd
        have hm := faithful_of_not_broken a hb
        by_cases hk1 : ∀ x ∈ a.method.sig.params.zip args, x.1.borrows = true → mentioned p (rootOf bs x.2)
        · have hk2 : ¬ KeepsAlive (after bs a.method.sig args) p := fun h => hk ⟨hk1, h⟩
          obtain ⟨w', n, e, hi'⟩ := inv_call hi a.method hm args ha
          have hne : a ≠ .rvecNew := by rintro rfl; exact hn args (by simp)
          obtain ⟨rs, h1, f, h2⟩ := ih w' _ bs' hi' (novec_after hv a args hne) hn' hd' hk2
          refine ⟨_, .method w a args p [] rs (by simp) ?_, f, by simp [h2]⟩
          rw [callDuring_nil, e]; exact h1
        · have : ∃ x, x ∈ a.method.sig.params.zip args ∧ x.1.borrows = true ∧ ¬ mentioned p (rootOf bs x.2) := by
            apply Classical.byContradiction
            intro hno
            exact hk1 fun x hx hbr => Classical.byContradiction fun h => hno ⟨x, hx, hbr, h⟩
          obtain ⟨x, hx, hbr, hnm⟩ := this
          obtain ⟨hlt, f, hf⟩ := callDuring_fault hi hv a.method hm args ha x hx hbr
          exact ⟨_, .method w a args p [rootOf bs x.2] [] (by simp; exact ⟨hlt, hnm⟩) (.stop _ _), f, by simp [hf]⟩

end Verif.Ffi
