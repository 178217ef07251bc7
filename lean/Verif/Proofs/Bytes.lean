import Verif.Spec.Bytes
import Verif.Proofs.FinishBytes
import Verif.Proofs.FbMono
import Verif.Proofs.SizeBytes
/-!
# Saving to bytes and restoring from them
-/
namespace Verif.Fb
open Verif Verif.Spec

theorem restoreBytes_some {b : Bytes} {buf : FbBaseline} (h : root b = some buf) (kind : Kind) (Cs : List ContractTy)
    (sched : IterOrder (ContractTy × Idx)) (ord : IterOrder (Nat × Idx)) (hord : HashOrder) :
    restoreBytes b kind Cs sched ord hord = restore buf kind Cs sched ord hord := by
  have hn : newBytes b kind = Builder.new buf kind := by unfold newBytes; rw [h]
  unfold restoreBytes restore
  rw [hn]
  rfl

theorem restoreBytes_none {b : Bytes} (h : root b = none) (kind : Kind) (Cs : List ContractTy)
    (sched : IterOrder (ContractTy × Idx)) (ord : IterOrder (Nat × Idx)) (hord : HashOrder) :
    restoreBytes b kind Cs sched ord hord = .err "Error while verifying flatbuffer" := by
  unfold restoreBytes newBytes
  rw [h]

theorem saveAs_prefix (c : Cycle) (b : Baseline) : c.saveAs SerB.prefixBytes b = c.save b := rfl

/-- Saving, on both levels. -/
theorem saveAs_sim (c : Cycle) (b : Baseline) {ident : Bytes} (hid : ident.length = 4) :
    (∃ m, c.saveAs ident b = .err m ∧ c.run b = .err m) ∨ (∃ m, c.saveAs ident b = .panic m ∧ c.run b = .panic m) ∨
      (c.saveAs ident b = .panic overflow ∧ c.run b = .err "Error while verifying flatbuffer") ∨
      ∃ bytes, c.saveAs ident b = .ok bytes ∧ 4 ∣ bytes.length ∧ (bytes.length < 2 ^ 31 → c.load bytes = c.run b) := by
  obtain ⟨hm, he, ho⟩ := serializeAll_sim c.calls (mirrors_new b)
  have hp := he.pow (Or.inl rfl)
  unfold Cycle.saveAs Cycle.run
  cases hb : (SerB.new b).serializeAll c.calls with
  | mk sb rb =>
    cases hs : (Ser.new b).serializeAll c.calls with
    | mk s rs =>
      rw [hb, hs] at hm ho
      rw [hb] at hp
      simp only at hm ho hp
      cases ho with
      | err m => exact Or.inl ⟨m, rfl, rfl⟩
      | panic m => exact Or.inr (Or.inl ⟨m, rfl, rfl⟩)
      | ok a b' _ =>
        simp only
        rcases finish_sim hm hp hid c.ordC c.ordO with ⟨m, h1, h2⟩ | ⟨out, h1, h2⟩
        · rw [h1, h2]
          exact Or.inr (Or.inl ⟨m, rfl, rfl⟩)
        · rw [h1]
          rcases h2 with ⟨h3, h4⟩ | ⟨bytes, h3, h4, h5⟩
          · rw [h3]
            simp only [h4]
            exact Or.inr (Or.inr (Or.inl (by simp)))
          · rw [h3]
            refine Or.inr (Or.inr (Or.inr ⟨bytes, rfl, h4, fun hl => ?_⟩))
            have hr := h5 hl
            unfold Cycle.load
            cases hd : out.decode with
            | none => simp only [hd]; exact restoreBytes_none (by rw [hr, hd]) ..
            | some buf => simp only [hd]; exact restoreBytes_some (by rw [hr, hd]) ..

/-- Where the identifier is. -/
theorem finish_idents {f : Fbb} {r : Nat} {ident bytes : Bytes} (h4 : ident.length = 4) (hp : Pow f) (hm : 4 ≤ f.minAlign)
    (h : f.finish r ident = some bytes) :
    ∃ pre post : Bytes, pre.length = 4 ∧ ∀ i : Bytes, i.length = 4 → f.finish r i = some (pre ++ i ++ post) := by
  unfold Fbb.finish at h
  have hd : 4 ∣ (f.align 8 f.minAlign).buf.length + 8 := by
    rw [align_length]
    rcases hp with h0 | h0
    · omega
    · have hdv := padding_dvd (f.buf.length + 8) f.minAlign h0.pos
      have h4 : 4 ∣ f.minAlign := by rcases h0 with e | e | e | e <;> rw [e] <;> omega
      have := Nat.dvd_trans h4 hdv
      omega
  have hd4 : 4 ∣ (f.align 8 f.minAlign).buf.length := by omega
  unfold Fbb.finish
  generalize f.align 8 f.minAlign = a at h hd4
  have key : ∀ i : Bytes, i.length = 4 → (a.raw i).pushOff r =
      if r ≤ 4 + (4 + a.buf.length) then some ((a.raw i).raw (le 4 (4 + (4 + a.buf.length) - r)) |> fun g => ⟨g.buf, max g.minAlign 4, g.vtables⟩) else none := by
    intro i hi
    have hb : (a.raw i).buf = i ++ a.buf := rfl
    have hl : (a.raw i).buf.length = 4 + a.buf.length := by rw [hb, List.length_append, hi]
    have hz : padding ((a.raw i).buf.length + 4) 4 = 0 := padding_zero (by omega)
    unfold Fbb.pushOff Fbb.align
    rw [hz]
    simp only [List.replicate_zero, List.nil_append, hl]
    rfl
  rw [key ident h4] at h
  by_cases hr : r ≤ 4 + (4 + a.buf.length)
  · refine ⟨le 4 (4 + (4 + a.buf.length) - r), a.buf, le_length _ _, fun i hi => ?_⟩
    rw [key i hi, if_pos hr]
    simp [Fbb.raw]
  · rw [if_neg hr] at h; cases h

theorem saveAs_idents {c : Cycle} {b : Baseline} {bytes : Bytes} (h : c.save b = .ok bytes) :
    ∃ pre post : Bytes, pre.length = 4 ∧ ∀ i : Bytes, i.length = 4 → c.saveAs i b = .ok (pre ++ i ++ post) := by
  obtain ⟨_, he, _⟩ := serializeAll_sim c.calls (mirrors_new b)
  have hp := he.pow (Or.inl rfl)
  unfold Cycle.save at h
  unfold Cycle.saveAs
  cases hb : (SerB.new b).serializeAll c.calls with
  | mk sb rb =>
    rw [hb] at h hp
    cases rb with
    | err m => cases h
    | panic m => cases h
    | ok u =>
      simp only at h hp ⊢
      obtain ⟨f, r, p1, p2, p3, _, p5⟩ := finishWith_split hp h
      obtain ⟨pre, post, q1, q2⟩ := finish_idents (ident := SerB.prefixBytes) rfl p1 p2 p3
      exact ⟨pre, post, q1, fun i hi => p5 i _ (q2 i hi)⟩

end Verif.Fb
