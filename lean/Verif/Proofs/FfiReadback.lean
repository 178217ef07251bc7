import Verif.Proofs.FfiNoState
/-!
# What stays the same while a disciplined program runs
-/
namespace Verif.Ffi

/-- The call replaces the object of wrapper `i`, other than a baseline. -/
def VCall.sets (i : Nat) : VCall → Bool
  | .method (.stateSetValue _) _ (j :: _) => j == i
  | .method .rvecPush _ (j :: _) => j == i
  | _ => false

/-- The native functions that may panic. -/
def Api.canPanic : Api → Bool
  | .baselineContractData | .baselineState _ | .baselineStateMut _ | .baselineBindState _ | .rvecGet | .exRegister | .ballRegister
  | .ballUnregister => true
  | _ => false

theorem exec_no_panic (a : Api) (d : a.Data) (os : List NObj) (m : String) (h : exec a d os = .panic m) : a.canPanic = true := by
  revert h
  fun_cases exec a d os <;> intro h <;> first | rfl | (exact Exec.noConfusion h)

/-- Only these methods replace their first argument. -/
theorem exec_write (a : Api) (d : a.Data) (os : List NObj) (n : NObj) (ret : RetV) (h : exec a d os = .done (some n) ret) :
    (∃ t, a = .stateSetValue t) ∨ a = .rvecPush ∨ ∃ mv, a.method.sig.params[0]? = some (.refMut .baseline mv) := by
  revert h
  fun_cases exec a d os <;> intro h <;>
    first
    | (exact Or.inl ⟨_, rfl⟩)
    | (exact Or.inr (Or.inl rfl))
    | (exact Or.inr (Or.inr ⟨_, rfl⟩))
    | (exact Exec.noConfusion h)
    | (injection h with h1 h2; cases h1)
    | (obtain ⟨x, _, h2⟩ := unwrap_done h; injection h2 with h1 h2; cases h1)

theorem own_step {cells : List Cell} {bs bs' : List B} {c : VCall} {cs : List VCall} (h : At cells bs)
    (hd : Disciplined bs ((c :: cs).map VCall.erase) bs') (hr : (Cell.step cells c).2.ends = false) {i : Nat} {o : NObj}
    (hi : cells[i]? = some (.own o)) (ho : ∀ b, o ≠ .baseline b)
    (hset : c.sets i = true → (∀ v, o ≠ .state v) ∧ ∀ ks, o ≠ .vec ks) :
    (Cell.step cells c).1[i]? = some (.own o) := by
  cases c with
  | dispose j => exact hi
  | method a d args =>
    rcases step_objects h hd hr i o hi with h1 | ⟨i0, b, rest, os, n, ret, t, mv, hargs, hb, hroot, _, hex, hq, hcls, hn, h2⟩
    · exact h1
    · exfalso
      subst hargs
      rcases h2 with ⟨rfl, _, _⟩ | ⟨_, t', h', o', _, hp, _⟩
      · have hty := h.sound.own i0 b o hb hi
        rcases exec_write a d os n ret hex with ⟨t1, rfl⟩ | rfl | ⟨mv', hq'⟩
        · obtain ⟨k1, k2⟩ := hset (by simp [VCall.sets])
          simp only [Api.method, List.getElem?_cons_zero, Option.some.injEq, Param.refMut.injEq] at hq
          rw [hcls, ← hq.1] at hty
          cases o <;> simp [NObj.hasTy] at hty
          exact k1 _ rfl
        · obtain ⟨k1, k2⟩ := hset (by simp [VCall.sets])
          simp only [Api.method, List.getElem?_cons_zero, Option.some.injEq, Param.refMut.injEq] at hq
          rw [hcls, ← hq.1] at hty
          cases o <;> simp [NObj.hasTy] at hty
          exact k2 _ rfl
        · rw [hq] at hq'
          simp only [Option.some.injEq, Param.refMut.injEq] at hq'
          rw [hcls, hq'.1] at hty
          cases o <;> simp [NObj.hasTy] at hty
          exact ho _ rfl
      · cases o <;> simp [pathPut, PStep.get] at hp
        exact ho _ rfl

theorem own_steps (cs1 : List VCall) : ∀ (cells : List Cell) (bs bs' : List B) (cs2 : List VCall) (rs1 : List VRes), At cells bs →
    Disciplined bs ((cs1 ++ cs2).map VCall.erase) bs' → Cell.run cells cs1 = rs1 → rs1.length = cs1.length → (∀ r ∈ rs1, r.ends = false) →
    ∀ (i : Nat) (o : NObj), cells[i]? = some (.own o) → (∀ b, o ≠ .baseline b) → (∀ c ∈ cs1, c.sets i = true → (∀ v, o ≠ .state v) ∧ ∀ ks, o ≠ .vec ks) →
    (Cell.after cells cs1)[i]? = some (.own o) := by
  induction cs1 with
  | nil => intro cells bs bs' cs2 rs1 h hd _ _ _ i o hi _ _; exact hi
  | cons c cs1 ih =>
    intro cells bs bs' cs2 rs1 h hd hrun hl hne i o hi ho hset
    cases rs1 with
    | nil => simp at hl
    | cons r rs1 =>
      obtain ⟨e1, e2⟩ := run_cons_of hrun
      have hr := hne r (by simp)
      obtain ⟨bs1, h1, h2, _⟩ := at_step h hd (by rw [e1]; exact hr)
      exact ih _ bs1 bs' cs2 rs1 h1 h2 (e2 hr) (by simpa using hl) (fun r hr => hne r (by simp [hr])) i o
        (own_step h hd (by rw [e1]; exact hr) hi ho (hset c (by simp))) ho (fun c hc => hset c (by simp [hc]))

theorem sets_cases {c : VCall} {i : Nat} (h : c.sets i = true) :
    (∃ t d rest, c = .method (.stateSetValue t) d (i :: rest)) ∨ ∃ d rest, c = .method .rvecPush d (i :: rest) := by
  revert h
  unfold VCall.sets
  split
  · intro h; simp only [beq_iff_eq] at h; subst h; exact .inl ⟨_, _, _, rfl⟩
  · intro h; simp only [beq_iff_eq] at h; subst h; exact .inr ⟨_, _, rfl⟩
  · intro h; cases h

/-- The call appends to vector `i`. -/
def VCall.pushes (i : Nat) : VCall → Bool
  | .method .rvecPush _ (j :: _) => j == i
  | _ => false

theorem pushes_sets {c : VCall} {i : Nat} (h : c.pushes i = true) : c.sets i = true := by
  revert h
  unfold VCall.pushes
  split
  · intro h; simpa [VCall.sets] using h
  · intro h; cases h

/-- What a step does to a vector. -/
theorem vec_step {cells : List Cell} {bs bs' : List B} {c : VCall} {cs : List VCall} (h : At cells bs)
    (hd : Disciplined bs ((c :: cs).map VCall.erase) bs') (hr : (Cell.step cells c).2.ends = false) {i : Nat} {ks : List (DynProp × BitVec 64)}
    (hi : cells[i]? = some (.own (.vec ks))) :
    (c.pushes i = false ∧ (Cell.step cells c).1[i]? = some (.own (.vec ks))) ∨
    (c.pushes i = true ∧ ∃ k, (Cell.step cells c).1[i]? = some (.own (.vec (ks ++ [k])))) := by
  cases hset : c.sets i with
  | false =>
    have hnp : c.pushes i = false := by
      cases hp : c.pushes i with
      | false => rfl
      | true => rw [pushes_sets hp] at hset; cases hset
    exact .inl ⟨hnp, own_step h hd hr hi (by simp) (by simp [hset])⟩
  | true =>
    right
    rcases sets_cases hset with ⟨t, d, rest, rfl⟩ | ⟨d, rest, rfl⟩
    · cases hd with
      | method _ _ _ _ _ _ ha _ =>
        obtain ⟨hl, ha, _⟩ := ha
        obtain ⟨_, b, hb, hf⟩ := ha (.refMut (.state t) false, i) (by simp [Api.method])
        have := h.sound.own i b _ hb hi
        rw [hf.1] at this
        simp [NObj.hasTy] at this
    · refine ⟨by simp [VCall.pushes], ?_⟩
      revert hr
      unfold Cell.step
      simp only
      cases hrd : Cell.reads cells (i :: rest) with
      | none => intro hr; simp [VRes.ends] at hr
      | some os =>
        simp only [Cell.reads, Cell.read, hi] at hrd
        cases hrd2 : Cell.reads cells rest with
        | none => simp [hrd2] at hrd
        | some os' =>
          simp only [hrd2, Option.some.injEq] at hrd
          subst hrd
          have hlt := (List.getElem?_eq_some_iff.1 hi).1
          simp only
          cases os' with
          | nil => intro hr; simp [exec, VRes.ends] at hr
          | cons o os'' =>
            cases os'' with
            | cons => intro hr; cases o <;> simp [exec, VRes.ends] at hr
            | nil =>
              cases o with
              | keyframe v time =>
                intro _
                simp only [exec, Cell.written, Cell.write, hi]
                exact ⟨_, List.getElem?_set_self hlt⟩
              | _ => intro hr; simp [exec, VRes.ends] at hr

/-- The number of calls that append to vector `i`. -/
def pushCount (i : Nat) (cs : List VCall) : Nat := (cs.filter (VCall.pushes i)).length

theorem vec_steps (cs1 : List VCall) : ∀ (cells : List Cell) (bs bs' : List B) (cs2 : List VCall) (rs1 : List VRes), At cells bs →
    Disciplined bs ((cs1 ++ cs2).map VCall.erase) bs' → Cell.run cells cs1 = rs1 → rs1.length = cs1.length → (∀ r ∈ rs1, r.ends = false) →
    ∀ (i : Nat) (ks : List (DynProp × BitVec 64)), cells[i]? = some (.own (.vec ks)) →
    ∃ ks', (Cell.after cells cs1)[i]? = some (.own (.vec (ks ++ ks'))) ∧ ks'.length = pushCount i cs1 := by
  induction cs1 with
  | nil => intro cells bs bs' cs2 rs1 h hd _ _ _ i ks hi; exact ⟨[], by rw [List.append_nil]; exact hi, rfl⟩
  | cons c cs1 ih =>
    intro cells bs bs' cs2 rs1 h hd hrun hl hne i ks hi
    cases rs1 with
    | nil => simp at hl
    | cons r rs1 =>
      obtain ⟨e1, e2⟩ := run_cons_of hrun
      have hr := hne r (by simp)
      obtain ⟨bs1, h1, h2, _⟩ := at_step h hd (by rw [e1]; exact hr)
      have hgo := fun ks hi => ih _ bs1 bs' cs2 rs1 h1 h2 (e2 hr) (by simpa using hl) (fun r hr => hne r (by simp [hr])) i ks hi
      rcases vec_step h hd (by rw [e1]; exact hr) hi with ⟨hs, hk⟩ | ⟨hs, k, hk⟩
      · obtain ⟨ks', g1, g2⟩ := hgo ks hk
        exact ⟨ks', g1, by rw [g2]; simp [pushCount, hs]⟩
      · obtain ⟨ks', g1, g2⟩ := hgo _ hk
        exact ⟨k :: ks', by rw [List.append_assoc] at g1; exact g1, by simp [pushCount, hs, g2]⟩

/-- A step adds at most one wrapper. -/
theorem step_length_succ (cells : List Cell) (c : VCall) : (Cell.step cells c).1.length ≤ cells.length + 1 := by
  cases c with
  | dispose => exact Nat.le_succ _
  | method a d args =>
    unfold Cell.step
    simp only
    cases Cell.reads cells args with
    | none => exact Nat.le_succ _
    | some os =>
      simp only
      cases exec a d os with
      | stuck => exact Nat.le_succ _
      | panic => exact Nat.le_succ _
      | done wr ret =>
        simp only
        cases hw : Cell.written cells args wr with
        | none => exact Nat.le_succ _
        | some cells1 =>
          have h1 : cells1.length = cells.length := by
            cases wr with
            | none => simp only [Cell.written, Option.some.injEq] at hw; rw [hw]
            | some n =>
              cases args with
              | nil => simp [Cell.written] at hw
              | cons i rest =>
                simp only [Cell.written, Cell.write] at hw
                split at hw
                · simp only [Option.some.injEq] at hw; rw [← hw]; simp
                · split at hw
                  · split at hw
                    · cases hw
                    · simp only [Option.some.injEq] at hw; rw [← hw]; simp
                  · cases hw
                · cases hw
          cases ret <;> simp [h1]

/-- A new vector is empty. -/
theorem new_vec {cells : List Cell} {c : VCall} {ks : List (DynProp × BitVec 64)}
    (h : (Cell.step cells c).1[cells.length]? = some (.own (.vec ks))) : ks = [] := by
  cases c with
  | dispose => simp [Cell.step] at h
  | method a d args =>
    unfold Cell.step at h
    simp only at h
    cases hrd : Cell.reads cells args with
    | none => simp [hrd] at h
    | some os =>
      simp only [hrd] at h
      cases hex : exec a d os with
      | stuck => simp [hex] at h
      | panic => simp [hex] at h
      | done wr ret =>
        simp only [hex] at h
        cases hw : Cell.written cells args wr with
        | none => simp [hw] at h
        | some cells1 =>
          have h1 : cells1.length = cells.length := by
            cases wr with
            | none => simp only [Cell.written, Option.some.injEq] at hw; rw [hw]
            | some n =>
              cases args with
              | nil => simp [Cell.written] at hw
              | cons i rest =>
                simp only [Cell.written, Cell.write] at hw
                split at hw
                · simp only [Option.some.injEq] at hw; rw [← hw]; simp
                · split at hw
                  · split at hw
                    · cases hw
                    · simp only [Option.some.injEq] at hw; rw [← hw]; simp
                  · cases hw
                · cases hw
          simp only [hw] at h
          cases ret with
          | nothing => simp [← h1] at h
          | val => simp [← h1] at h
          | borrow st =>
            rw [← h1, List.getElem?_concat_length] at h
            unfold Cell.part at h
            split at h <;> simp at h
          | box o =>
            rw [← h1, List.getElem?_concat_length] at h
            simp only [Option.some.injEq, Cell.own.injEq] at h
            subst h
            revert hex
            fun_cases exec a d os <;> intro hex <;>
              first
              | (exact Exec.noConfusion hex)
              | (injection hex with h1 h2; first | (injection h2 with h2; first | (injection h2 with h2; exact h2.symm) | cases h2) | cases h2)
              | (obtain ⟨x, _, h2⟩ := unwrap_done hex; injection h2 with h1 h2; first | (injection h2 with h2; cases h2) | cases h2)

/-- Nothing is pushed to a vector that does not exist yet. -/
theorem sets_lt {bs bs' : List B} {c : VCall} {cs : List VCall} (hd : Disciplined bs ((c :: cs).map VCall.erase) bs') {i : Nat}
    (h : c.sets i = true) : i < bs.length := by
  rcases sets_cases h with ⟨t, d, rest, rfl⟩ | ⟨d, rest, rfl⟩
  · cases hd with
    | method _ _ _ _ _ _ ha _ =>
      obtain ⟨_, ha, _⟩ := ha
      obtain ⟨_, b, hb, _⟩ := ha (.refMut (.state t) false, i) (by simp [Api.method])
      exact (List.getElem?_eq_some_iff.1 hb).1
  · cases hd with
    | method _ _ _ _ _ _ ha _ =>
      obtain ⟨_, ha, _⟩ := ha
      obtain ⟨_, b, hb, _⟩ := ha (.refMut .rvec true, i) (by simp [Api.method])
      exact (List.getElem?_eq_some_iff.1 hb).1

/-- The length of a vector is the number of pushes to it. -/
theorem vec_length (cs1 : List VCall) : ∀ (cells : List Cell) (bs bs' : List B) (cs2 : List VCall) (rs1 : List VRes), At cells bs →
    Disciplined bs ((cs1 ++ cs2).map VCall.erase) bs' → Cell.run cells cs1 = rs1 → rs1.length = cs1.length → (∀ r ∈ rs1, r.ends = false) →
    ∀ (i : Nat) (ks : List (DynProp × BitVec 64)), cells.length ≤ i → (Cell.after cells cs1)[i]? = some (.own (.vec ks)) →
    ks.length = pushCount i cs1 := by
  induction cs1 with
  | nil =>
    intro cells bs bs' cs2 rs1 h hd _ _ _ i ks hl hi
    have := (List.getElem?_eq_some_iff.1 hi).1
    simp only [Cell.after] at this
    omega
  | cons c cs1 ih =>
    intro cells bs bs' cs2 rs1 h hd hrun hl hne i ks hlen hi
    cases rs1 with
    | nil => simp at hl
    | cons r rs1 =>
      obtain ⟨e1, e2⟩ := run_cons_of hrun
      have hr := hne r (by simp)
      obtain ⟨bs1, h1, h2, _⟩ := at_step h hd (by rw [e1]; exact hr)
      have hns : c.pushes i = false := by
        cases hs : c.pushes i with
        | false => rfl
        | true =>
          have := sets_lt hd (pushes_sets hs)
          obtain ⟨s, hsim⟩ := h.sim
          have := hsim.lenC
          omega
      have hcount : pushCount i (c :: cs1) = pushCount i cs1 := by simp [pushCount, hns]
      rw [hcount]
      by_cases hle : (Cell.step cells c).1.length ≤ i
      · exact ih _ bs1 bs' cs2 rs1 h1 h2 (e2 hr) (by simpa using hl) (fun r hr => hne r (by simp [hr])) i ks hle hi
      · change (Cell.after (Cell.step cells c).1 cs1)[i]? = _ at hi
        have hin : i < (Cell.step cells c).1.length := by omega
        have hieq : i = cells.length := by
          have := step_length_succ cells c
          omega
        obtain ⟨bsF, hF, _, hold⟩ := at_steps cs1 _ bs1 bs' cs2 rs1 h1 h2 (e2 hr) (by simpa using hl) (fun r hr => hne r (by simp [hr]))
        obtain ⟨s1, hs1⟩ := h1.sim
        obtain ⟨sF, hsF⟩ := hF.sim
        have hb1 : bs1[i]? = some _ := List.getElem?_eq_getElem (by rw [← hs1.lenC]; exact hin)
        obtain ⟨bF, hbF, hcls, hown, _⟩ := hold i _ hb1
        have hoF : bF.own = .owned := by
          apply Classical.byContradiction
          intro hne'
          obtain ⟨path, _, hv⟩ := hsF.bor i bF hbF hne'
          rw [hi] at hv; cases hv
        obtain ⟨_, o, ho, _⟩ := hs1.own i _ hb1 (hown ▸ hoF)
        have t1 := h1.sound.own i _ o hb1 ho
        have t2 := hF.sound.own i bF _ hbF hi
        have t3 : bF.cls = .rvec := by cases hc : bF.cls <;> rw [hc] at t2 <;> simp [NObj.hasTy] at t2 ⊢
        rw [← hcls, t3] at t1
        cases o <;> simp [NObj.hasTy] at t1
        rename_i ks0
        have hk0 := new_vec (by rw [← hieq]; exact ho)
        subst hk0
        obtain ⟨ks', g1, g2⟩ := vec_steps cs1 _ bs1 bs' cs2 rs1 h1 h2 (e2 hr) (by simpa using hl) (fun r hr => hne r (by simp [hr])) i [] ho
        rw [hi] at g1
        simp only [List.nil_append, Option.some.injEq, Cell.own.injEq, NObj.vec.injEq] at g1
        rw [g1]; exact g2

theorem get_not_vec {o : NObj} {st : PStep} {ks : List (DynProp × BitVec 64)} : st.get o ≠ some (.vec ks) := by
  intro hs
  unfold PStep.get at hs
  split at hs <;> first | (cases hs; done) | skip
  · rename_i l; cases hk : l[‹Nat›]? <;> rw [hk] at hs <;> cases hs
  · split at hs <;> cases hs
  · split at hs <;> cases hs

theorem pathGet_not_vec (path : List PStep) : ∀ (o : NObj) (ks : List (DynProp × BitVec 64)), path ≠ [] → pathGet path o ≠ some (.vec ks) := by
  induction path with
  | nil => intro o ks h; exact absurd rfl h
  | cons st path ih =>
    intro o ks _ h
    simp only [pathGet] at h
    cases hg : st.get o with
    | none => simp [hg] at h
    | some x =>
      simp only [hg] at h
      cases path with
      | nil => simp only [pathGet, Option.some.injEq] at h; rw [h] at hg; exact get_not_vec hg
      | cons st' path' => exact ih x ks (by simp) h

/-- A vector is an object of its own. -/
theorem vec_owned {cells : List Cell} {bs : List B} (h : At cells bs) (hp : Plain cells) {i : Nat} {b : B} (hu : usable bs i)
    (hb : bs[i]? = some b) (hc : b.cls = .rvec) : ∃ ks, cells[i]? = some (.own (.vec ks)) := by
  obtain ⟨s, hsim⟩ := h.sim
  obtain ⟨o, ho, hty⟩ := sound_read hsim h.sound hu hb
  rw [hc] at hty
  cases o <;> simp [NObj.hasTy] at hty
  rename_i ks
  unfold Cell.read at ho
  split at ho
  · rename_i o1 hc; simp only [Option.some.injEq] at ho; subst ho; exact ⟨ks, hc⟩
  · rename_i r path hv
    split at ho
    · exact absurd ho (pathGet_not_vec path _ ks (hp.ne i r path hv))
    · cases ho
  · cases ho

/-- A wrapper that may be written to through is an object of its own. -/
theorem owned_of_writable {cells : List Cell} {bs : List B} (h : At cells bs) (hp : Plain cells) {i : Nat} {b : B} (hb : bs[i]? = some b)
    (hs : b.own ≠ .sharedRef) : ∃ o, cells[i]? = some (.own o) ∧ o.hasTy b.cls := by
  obtain ⟨s, hsim⟩ := h.sim
  cases ho : b.own with
  | owned =>
    obtain ⟨_, o, hc, _⟩ := hsim.own i b hb ho
    exact ⟨o, hc, h.sound.own i b o hb hc⟩
  | sharedRef => exact absurd ho hs
  | mutRef =>
    obtain ⟨path, _, hv⟩ := hsim.bor i b hb (by rw [ho]; simp)
    obtain ⟨t, hh, hpath, _⟩ := h.sound.writable i b path hb ho hv
    exact False.elim (hp.view i _ _ hv (.state t hh) (by simp [hpath]))

end Verif.Ffi
