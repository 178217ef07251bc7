import Verif.Proofs.FfiReadback
/-!
# What a disciplined program does to the baselines it owns
-/
namespace Verif.Ffi

/-- The call unregisters a contract from baseline `i`. -/
def VCall.unregisters (i : Nat) : VCall → Bool
  | .method .ballUnregister _ (j :: _) => j == i
  | _ => false

theorem register_keeps {b : Baseline} (hist : ∃ k evs, History k evs b) (C : ContractTy) :
    (b.registerContract C).1.kind = b.kind ∧
    ∀ (h : Idx) (cd : ContractData), b.contractData h = .ok cd → (b.registerContract C).1.contractData h = .ok cd := by
  obtain ⟨k, evs, hist⟩ := hist
  have hb := history_binv hist
  unfold Baseline.registerContract
  split
  · exact ⟨rfl, fun _ _ h => h⟩
  · refine ⟨rfl, fun h cd hc => ?_⟩
    simp only [Baseline.contractData] at hc ⊢
    cases hg : b.contracts.get h with
    | none => rw [hg] at hc; cases hc
    | some cd' =>
      rw [hg] at hc
      simp only at hc ⊢
      rw [Arena.get_insert_of_some hb.c.inv _ cd' hg]
      exact hc

theorem register_new {b b' : Baseline} (hist : ∃ k evs, History k evs b) {C : ContractTy} {h : Idx} (e : b.registerContract C = (b', .ok h)) :
    b'.contractData h = .ok ⟨C.id, []⟩ := by
  obtain ⟨k, evs, hist⟩ := hist
  have hb := history_binv hist
  unfold Baseline.registerContract at e
  split at e
  · simp at e
  · injection e with e1 e2
    injection e2 with e2
    have hg := Arena.get_insert_self (v := (⟨C.id, []⟩ : ContractData)) hb.c.inv
    change (b.contracts.insert ⟨C.id, []⟩).2 = h at e2
    change ({ b with contracts := (b.contracts.insert ⟨C.id, []⟩).1 } : Baseline) = b' at e1
    rw [e2] at hg
    subst e1
    simp only [Baseline.contractData]
    rw [hg]

theorem unregister_keeps {b b' : Baseline} (C : ContractTy) (c : Idx) (ord : HashOrder)
    (e : b.unregisterContract C c ord = (b', .ok ())) :
    b'.kind = b.kind ∧ ∀ (h : Idx) (cd : ContractData), b.contractData h = .ok cd → cd.id ≠ C.id → b'.contractData h = .ok cd := by
  rcases unregister_cases b C c ord with ⟨_, h2, _⟩ | ⟨cd0, cons, done, g1, g2, g3, _, ⟨_, g5⟩ | ⟨_, g5⟩⟩
  · rw [e] at h2; cases h2
  · rw [e] at g5
    injection g5 with g5 _
    subst g5
    refine ⟨rfl, fun h cd hc hne => ?_⟩
    simp only [Baseline.contractData] at hc ⊢
    cases hg : b.contracts.get h with
    | none => rw [hg] at hc; cases hc
    | some cd' =>
      rw [hg] at hc
      simp only [Outcome.ok.injEq] at hc
      subst hc
      have hhc : h ≠ c := by
        intro e; subst e
        rw [g1] at hg; injection hg with hg; subst hg
        exact hne g2
      rw [Arena.get_remove, if_neg hhc, Arena.get_modify g3, if_neg hhc, hg]
  · rw [e] at g5; cases g5

/-- The native functions that write to a baseline keep its kind and all contracts, except those unregistered. -/
theorem exec_baseline (a : Api) (d : a.Data) (os : List NObj) (ho : ∀ o ∈ os, o.plain) (n : NObj) (ret : RetV) (bb : Baseline)
    (hos : os.head? = some (.baseline bb)) (h : exec a d os = .done (some n) ret) :
    ∃ bb', n = .baseline bb' ∧ bb'.kind = bb.kind ∧
      ∀ (k : Idx) (cd : ContractData), bb.contractData k = .ok cd → (a = .ballUnregister → cd.id ≠ Ball.C.id) → bb'.contractData k = .ok cd := by
  revert h
  fun_cases exec a d os <;> intro h <;>
    first
    | (exact Exec.noConfusion h)
    | (injection h with h1 h2; cases h1; done)
    | (obtain ⟨x, _, h2⟩ := unwrap_done h; injection h2 with h1 h2; cases h1; done)
    | (simp at hos; done)
    | skip
  · rename_i b _
    simp only [List.head?_cons, Option.some.injEq, NObj.baseline.injEq] at hos
    subst hos
    obtain ⟨hb1, hist⟩ : objectless b ∧ ∃ k evs, History k evs b := ho (.baseline b) (by simp)
    obtain ⟨x, h1, h2⟩ := unwrap_done h
    injection h2 with h1 h2
    injection h1 with h1
    obtain ⟨k1, k2⟩ := register_keeps hist Example.C
    exact ⟨_, h1.symm, k1, fun k cd hk _ => k2 k cd hk⟩
  · rename_i b _
    simp only [List.head?_cons, Option.some.injEq, NObj.baseline.injEq] at hos
    subst hos
    obtain ⟨hb1, hist⟩ : objectless b ∧ ∃ k evs, History k evs b := ho (.baseline b) (by simp)
    obtain ⟨x, h1, h2⟩ := unwrap_done h
    injection h2 with h1 h2
    injection h1 with h1
    obtain ⟨k1, k2⟩ := register_keeps hist Ball.C
    exact ⟨_, h1.symm, k1, fun k cd hk _ => k2 k cd hk⟩
  · rename_i ord b v c hc
    simp only [List.head?_cons, Option.some.injEq, NObj.baseline.injEq] at hos
    subst hos
    obtain ⟨x, h1, h2⟩ := unwrap_done h
    injection h2 with h3 h2
    injection h3 with h3
    have h4 : (b.unregisterContract Ball.C c ord).2 = .ok () := by
      simp only [Ball.unregister] at h1
      cases hu : (b.unregisterContract Ball.C c ord).2 with
      | ok => rfl
      | err m => simp [hu, Baseline.expect] at h1
      | panic m => simp [hu, Baseline.expect] at h1
    obtain ⟨k1, k2⟩ := unregister_keeps Ball.C c ord (show b.unregisterContract Ball.C c ord = ((b.unregisterContract Ball.C c ord).1, .ok ()) from Prod.ext rfl h4)
    exact ⟨_, h3.symm, k1, fun k cd hk hne => k2 k cd hk (hne rfl)⟩

/-- What a step does to a baseline. -/
theorem baseline_step {cells : List Cell} {bs bs' : List B} {c : VCall} {cs : List VCall} (h : At cells bs) (hp : Plain cells)
    (hd : Disciplined bs ((c :: cs).map VCall.erase) bs') (hr : (Cell.step cells c).2.ends = false) {i : Nat} {bb : Baseline}
    (hi : cells[i]? = some (.own (.baseline bb))) :
    ∃ bb', (Cell.step cells c).1[i]? = some (.own (.baseline bb')) ∧ bb'.kind = bb.kind ∧
      ∀ (k : Idx) (cd : ContractData), bb.contractData k = .ok cd → (c.unregisters i = true → cd.id ≠ Ball.C.id) → bb'.contractData k = .ok cd := by
  cases c with
  | dispose j => exact ⟨bb, hi, rfl, fun _ _ h _ => h⟩
  | method a d args =>
    rcases step_objects h hd hr i _ hi with h1 | ⟨i0, b, rest, os, n, ret, t, mv, hargs, hb, hroot, hos, hex, hq, hcls, hn, h2⟩
    · exact ⟨bb, h1, rfl, fun _ _ h _ => h⟩
    · subst hargs
      rcases h2 with ⟨rfl, hown, hset⟩ | ⟨hmr, t', h', o', _, hpp, hset⟩
      · have hhead : os.head? = some (.baseline bb) := by
          simp only [Cell.reads, Cell.read, hi] at hos
          cases hrd : Cell.reads cells rest with
          | none => simp [hrd] at hos
          | some os' => simp only [hrd, Option.some.injEq] at hos; subst hos; rfl
        obtain ⟨bb', e1, e2, e3⟩ := exec_baseline a d os (plain_reads hp _ os hos) n ret bb hhead hex
        subst e1
        refine ⟨bb', hset, e2, fun k cd hk hne => e3 k cd hk fun ha => hne ?_⟩
        subst ha
        simp [VCall.unregisters]
      · obtain ⟨s, hsim⟩ := h.sim
        obtain ⟨o, hc, _⟩ := owned_of_writable h hp hb (by rw [hmr]; simp)
        obtain ⟨path, _, hv⟩ := hsim.bor i0 b hb (by rw [hmr]; simp)
        rw [hc] at hv; cases hv

theorem baseline_steps (cs1 : List VCall) : ∀ (cells : List Cell) (bs bs' : List B) (cs2 : List VCall) (rs1 : List VRes), At cells bs → Plain cells →
    Disciplined bs ((cs1 ++ cs2).map VCall.erase) bs' → Cell.run cells cs1 = rs1 → rs1.length = cs1.length → (∀ r ∈ rs1, r.ends = false) →
    ∀ (i : Nat) (bb : Baseline), cells[i]? = some (.own (.baseline bb)) →
    ∃ bb', (Cell.after cells cs1)[i]? = some (.own (.baseline bb')) ∧ bb'.kind = bb.kind ∧
      ∀ (k : Idx) (cd : ContractData), bb.contractData k = .ok cd → ((∃ c ∈ cs1, c.unregisters i = true) → cd.id ≠ Ball.C.id) →
        bb'.contractData k = .ok cd := by
  induction cs1 with
  | nil => intro cells bs bs' cs2 rs1 h hp hd _ _ _ i bb hi; exact ⟨bb, hi, rfl, fun _ _ h _ => h⟩
  | cons c cs1 ih =>
    intro cells bs bs' cs2 rs1 h hp hd hrun hl hne i bb hi
    cases rs1 with
    | nil => simp at hl
    | cons r rs1 =>
      obtain ⟨e1, e2⟩ := run_cons_of hrun
      have hr := hne r (by simp)
      obtain ⟨bs1, h1, h2, _⟩ := at_step h hd (by rw [e1]; exact hr)
      obtain ⟨b1, k1, k2, k3⟩ := baseline_step h hp hd (by rw [e1]; exact hr) hi
      obtain ⟨b2, g1, g2, g3⟩ := ih _ bs1 bs' cs2 rs1 h1 (plain_step hp c) h2 (e2 hr) (by simpa using hl) (fun r hr => hne r (by simp [hr])) i b1 k1
      refine ⟨b2, g1, g2.trans k2, fun k cd hk hu => g3 k cd (k3 k cd hk fun e => hu ⟨c, by simp, e⟩) ?_⟩
      rintro ⟨c', hc', e'⟩
      exact hu ⟨c', by simp [hc'], e'⟩

end Verif.Ffi
