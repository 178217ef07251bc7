import Verif.Proofs.FfiSound
/-!
# Parts of a disciplined program
-/
namespace Verif.Ffi

/-- The pointer-free world after some steps. -/
def Cell.after (cells : List Cell) : List VCall → List Cell
  | [] => cells
  | c :: cs => Cell.after (Cell.step cells c).1 cs

/-- Splitting a run whose first part ran to its end. -/
theorem run_append (cs1 : List VCall) : ∀ (cells : List Cell) (cs2 : List VCall) (rs1 rs2 : List VRes), rs1.length = cs1.length → rs2 ≠ [] →
    Cell.run cells (cs1 ++ cs2) = rs1 ++ rs2 → Cell.run (Cell.after cells cs1) cs2 = rs2 ∧ Cell.run cells cs1 = rs1 ∧ ∀ r ∈ rs1, r.ends = false := by
  induction cs1 with
  | nil =>
    intro cells cs2 rs1 rs2 hl _ h
    cases rs1 with
    | nil => exact ⟨h, rfl, by simp⟩
    | cons => simp at hl
  | cons c cs1 ih =>
    intro cells cs2 rs1 rs2 hl hne h
    cases rs1 with
    | nil => simp at hl
    | cons r rs1 =>
      simp only [List.cons_append, Cell.run] at h
      cases hr : (Cell.step cells c).2.ends with
      | true =>
        simp only [hr, if_true, List.cons.injEq] at h
        have := h.2.symm
        rw [List.append_eq_nil_iff] at this
        exact absurd this.2 hne
      | false =>
        simp only [hr, Bool.false_eq_true, if_false, List.cons.injEq] at h
        obtain ⟨h1, h2, h3⟩ := ih _ cs2 rs1 rs2 (by simpa using hl) hne h.2
        refine ⟨h1, ?_, ?_⟩
        · simp only [Cell.run, hr, Bool.false_eq_true, if_false, h2]
          rw [h.1]
        · intro x hx
          rcases List.mem_cons.1 hx with rfl | hx
          · rw [← h.1]; exact hr
          · exact h3 x hx

theorem run_cons_of {cells : List Cell} {c : VCall} {cs : List VCall} {r : VRes} {rs : List VRes} (h : Cell.run cells (c :: cs) = r :: rs) :
    (Cell.step cells c).2 = r ∧ (r.ends = false → Cell.run (Cell.step cells c).1 cs = rs) := by
  simp only [Cell.run] at h
  cases hr : (Cell.step cells c).2.ends with
  | true =>
    simp only [hr, if_true, List.cons.injEq] at h
    exact ⟨h.1, fun e => by rw [← h.1, hr] at e; cases e⟩
  | false =>
    simp only [hr, Bool.false_eq_true, if_false, List.cons.injEq] at h
    exact ⟨h.1, fun _ => h.2⟩

/-- What is known between the steps of a disciplined program. -/
structure At (cells : List Cell) (bs : List B) : Prop where
  sim : ∃ s, Sim s cells bs
  sound : Sound cells bs

theorem at_init : At [] [] := ⟨⟨_, sim_init⟩, sound_init⟩

/-- One step of a disciplined program. -/
theorem at_step {cells : List Cell} {bs bs' : List B} {c : VCall} {cs : List VCall} (h : At cells bs)
    (hd : Disciplined bs ((c :: cs).map VCall.erase) bs') (hr : (Cell.step cells c).2.ends = false) :
    ∃ bs1, At (Cell.step cells c).1 bs1 ∧ Disciplined bs1 (cs.map VCall.erase) bs' ∧
      (∀ (i : Nat) (b : B), bs[i]? = some b → ∃ b1, bs1[i]? = some b1 ∧ b1.cls = b.cls ∧ b1.own = b.own ∧ b1.root = b.root) := by
  obtain ⟨s, hs⟩ := h.sim
  cases c with
  | method a d args =>
    cases hd with
    | method _ _ _ _ _ hb ha hd' =>
      obtain ⟨h1, h2⟩ := sim_method hs a hb d args ha
      obtain ⟨k1, k2⟩ := sound_method hs h.sound a hb d args ha
      refine ⟨_, ⟨⟨_, h2 (by rw [h1]; exact hr)⟩, k2 hr⟩, hd', ?_⟩
      intro i b hbi
      have hlt := (List.getElem?_eq_some_iff.1 hbi).1
      have hfl := foldl_passed_length (a.method.sig.params.zip args) bs
      have h3 : ((a.method.sig.params.zip args).foldl passed bs)[i]? = some _ := List.getElem?_eq_getElem (by rw [hfl]; exact hlt)
      obtain ⟨b0, e0, e1, e2, e3, _⟩ := foldl_passed_old _ h3
      rw [hbi] at e0; injection e0 with e0; subst e0
      refine ⟨_, ?_, e1, e2, e3⟩
      unfold after returned
      split
      · exact h3
      · rw [List.getElem?_append_left (by rw [hfl]; exact hlt)]; exact h3
      · split
        · exact h3
        · rw [List.getElem?_append_left (by rw [hfl]; exact hlt)]; exact h3
  | dispose j =>
    cases hd with
    | dispose _ _ _ _ hl hd' =>
      obtain ⟨h1, h2⟩ := sim_dispose hs j hl
      refine ⟨_, ⟨⟨_, h2⟩, sound_dispose h.sound j⟩, hd', ?_⟩
      intro i b hbi
      rw [modify_get, hbi]
      split
      · exact ⟨_, rfl, rfl, rfl, rfl⟩
      · exact ⟨_, rfl, rfl, rfl, rfl⟩

/-- Many steps of a disciplined program. -/
theorem at_steps (cs1 : List VCall) : ∀ (cells : List Cell) (bs bs' : List B) (cs2 : List VCall) (rs1 : List VRes), At cells bs →
    Disciplined bs ((cs1 ++ cs2).map VCall.erase) bs' → Cell.run cells cs1 = rs1 → rs1.length = cs1.length → (∀ r ∈ rs1, r.ends = false) →
    ∃ bs1, At (Cell.after cells cs1) bs1 ∧ Disciplined bs1 (cs2.map VCall.erase) bs' ∧
      (∀ (i : Nat) (b : B), bs[i]? = some b → ∃ b1, bs1[i]? = some b1 ∧ b1.cls = b.cls ∧ b1.own = b.own ∧ b1.root = b.root) := by
  induction cs1 with
  | nil => intro cells bs bs' cs2 rs1 h hd _ _ _; exact ⟨bs, h, hd, fun i b hb => ⟨b, hb, rfl, rfl, rfl⟩⟩
  | cons c cs1 ih =>
    intro cells bs bs' cs2 rs1 h hd hrun hl hne
    cases rs1 with
    | nil => simp at hl
    | cons r rs1 =>
      obtain ⟨e1, e2⟩ := run_cons_of hrun
      have hr := hne r (by simp)
      obtain ⟨bs1, h1, h2, h3⟩ := at_step h hd (by rw [e1]; exact hr)
      obtain ⟨bs2, k1, k2, k3⟩ := ih _ bs1 bs' cs2 rs1 h1 h2 (e2 hr) (by simpa using hl) (fun r hr => hne r (by simp [hr]))
      refine ⟨bs2, k1, k2, ?_⟩
      intro i b hb
      obtain ⟨b1, g1, g2, g3, g4⟩ := h3 i b hb
      obtain ⟨b2, f1, f2, f3, f4⟩ := k3 i b1 g1
      exact ⟨b2, f1, f2.trans g2, f3.trans g3, f4.trans g4⟩

/-- What a step does to the objects: nothing, or it replaces the object of the first argument's owner. -/
theorem step_objects {cells : List Cell} {bs bs' : List B} {a : Api} {d : a.Data} {args : List Nat} {cs : List VCall} (h : At cells bs)
    (hd : Disciplined bs ((.method a d args :: cs).map VCall.erase) bs') (hr : (Cell.step cells (.method a d args)).2.ends = false)
    (i : Nat) (o : NObj) (hi : cells[i]? = some (.own o)) :
    (Cell.step cells (.method a d args)).1[i]? = some (.own o) ∨
    ∃ (i0 : Nat) (b : B) (rest : List Nat) (os : List NObj) (n : NObj) (ret : RetV) (t : NTy) (mv : Bool), args = i0 :: rest ∧ bs[i0]? = some b ∧ b.root = i ∧
      Cell.reads cells args = some os ∧ exec a d os = .done (some n) ret ∧ a.method.sig.params[0]? = some (.refMut t mv) ∧ b.cls = t ∧ n.hasTy t ∧
      ((i0 = i ∧ b.own = .owned ∧ (Cell.step cells (.method a d args)).1[i]? = some (.own n)) ∨
        (b.own = .mutRef ∧ ∃ t' h' o', t = .state t' ∧ pathPut [.state t' h'] o n = some o' ∧
          (Cell.step cells (.method a d args)).1[i]? = some (.own o'))) := by
  obtain ⟨s, hs⟩ := h.sim
  have hk := h.sound
  cases hd with
  | method _ _ _ _ _ hb ha hd' =>
    have ha' := ha
    obtain ⟨hl, hall, hpw⟩ := ha'
    obtain ⟨os, hos, hfit⟩ := sound_reads hs hk a.method.sig.params args hl hall
    have hgood := exec_typed a hb d os hfit
    have hilt := (List.getElem?_eq_some_iff.1 hi).1
    have happ : ∀ (l l' : List Cell), i < l.length → (l ++ l')[i]? = l[i]? := fun l l' hlt => List.getElem?_append_left hlt
    revert hr
    unfold Cell.step
    simp only [hos]
    cases hex : exec a d os with
    | stuck => rw [hex] at hgood; exact hgood.elim
    | panic m => intro hr; simp [VRes.ends] at hr
    | done wr ret =>
      rw [hex] at hgood
      obtain ⟨g1, _, _⟩ := hgood
      cases wr with
      | none =>
        intro _
        left
        simp only [Cell.written]
        cases ret <;> simp only <;> first | exact hi | (rw [happ _ _ hilt]; exact hi)
      | some n =>
        obtain ⟨t, mv, hq, hn, hmv⟩ := g1 n rfl
        cases args with
        | nil =>
          have := (List.getElem?_eq_some_iff.1 hq).1
          simp at hl; omega
        | cons i0 rest =>
          obtain ⟨hu, b, hbi, hf⟩ := hall _ (mem_zip_of_get hq (by rfl : (i0 :: rest)[0]? = some i0))
          obtain ⟨o1, o1', e1, e2, _, _⟩ := sound_write hs hk hu hbi hf n hn hmv
          intro _
          simp only [Cell.written, e2]
          have hget : ∀ x : Cell, (cells.set b.root (.own o1'))[i]? = some x →
              (match ret with
                | .nothing => (cells.set b.root (.own o1'), VRes.ok none none)
                | .val o => (cells.set b.root (.own o1'), VRes.ok none (some o))
                | .box o => (cells.set b.root (.own o1') ++ [Cell.own o], VRes.ok (some cells.length) none)
                | .borrow st => (cells.set b.root (.own o1') ++ [Cell.part cells ((i0 :: rest).headD 0) st], VRes.ok (some cells.length) none)).1[i]? = some x := by
            intro x hx
            cases ret <;> simp only <;> first | exact hx | (rw [happ _ _ (by simpa using hilt)]; exact hx)
          by_cases hbr : b.root = i
          · right
            have hset : (cells.set b.root (.own o1'))[i]? = some (.own o1') := by
              rw [hbr, List.getElem?_set_self hilt]
            refine ⟨i0, b, rest, os, n, ret, t, mv, rfl, hbi, hbr, rfl, hex, hq, hf.1, hn, ?_⟩
            by_cases hbo : b.own = .owned
            · left
              have hri := hs.inv.ownRoot i0 b hbi hbo
              refine ⟨hri.symm.trans hbr, hbo, hget _ ?_⟩
              rw [hset]
              -- the owner's object is replaced by `n`
              have hc0 : cells[i0]? = some (.own o) := by rw [← hri, hbr]; exact hi
              simp only [Cell.write, hc0, Option.some.injEq] at e2
              have h3 : (cells.set i0 (.own n))[i]? = (cells.set b.root (.own o1'))[i]? := by rw [e2]
              rw [hset, ← hbr, hri, List.getElem?_set_self (by rw [← hri, hbr]; exact hilt)] at h3
              exact h3.symm
            · right
              have hmr : b.own = .mutRef := by
                cases hbo' : b.own with
                | owned => exact absurd hbo' hbo
                | sharedRef => exact absurd hbo' hf.2
                | mutRef => rfl
              obtain ⟨path, _, hv⟩ := hs.bor i0 b hbi hbo
              obtain ⟨t', h', hpath, hcls⟩ := hk.writable i0 b path hbi hmr hv
              subst hpath
              refine ⟨hmr, t', h', o1', by rw [← hf.1, hcls], ?_, hget _ hset⟩
              rw [hbr] at hv
              simp only [Cell.write, hv, hi] at e2
              cases hpp : pathPut [.state t' h'] o n with
              | none => rw [hpp] at e2; cases e2
              | some o2 =>
                rw [hpp] at e2
                simp only [Option.some.injEq] at e2
                have h3 : (cells.set i (.own o2))[i]? = (cells.set b.root (.own o1'))[i]? := by rw [e2]
                rw [hset, List.getElem?_set_self hilt] at h3
                simp only [Option.some.injEq, Cell.own.injEq] at h3
                rw [h3]
          · left
            exact hget _ (by rw [List.getElem?_set_ne hbr]; exact hi)

end Verif.Ffi
