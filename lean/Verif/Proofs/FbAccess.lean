import Verif.Model.FbAccess
/-!
# What the verifier accepts can be read without checks
-/
namespace Verif.Fb.Access
open Verif Verif.Fb

theorem peek_rd {b : Bytes} {n p x : Nat} (h : rd b n p = some x) : peek b n p = some x := by
  unfold rd at h
  unfold peek
  split at h
  next hc => rw [if_pos hc.2]; exact h
  next => cases h

/-- If the checked reader accepts, so does the unchecked one, with the same result. -/
def Safe {α : Type} (r a : Nat → Option α) : Prop := ∀ (p : Nat) (x : α), r p = some x → a p = some x

theorem ofLe_lt (l : Bytes) : ofLe l < 256 ^ l.length := by
  induction l with
  | nil => simp [ofLe]
  | cons x l ih =>
    have := x.toNat_lt
    rw [ofLe, List.length_cons, Nat.pow_succ]
    omega

theorem rd_lt {b : Bytes} {n p x : Nat} (h : rd b n p = some x) : x < 256 ^ n ∧ p + n ≤ b.length ∧ p % n = 0 := by
  unfold rd at h
  split at h
  next hc =>
    injection h with h
    subst h
    refine ⟨Nat.lt_of_lt_of_le (ofLe_lt _) (Nat.pow_le_pow_right (by omega) ?_), hc.2, hc.1⟩
    rw [List.length_take]
    omega
  next => cases h

theorem i32_small {n : Nat} (h : n < 2 ^ 31) : i32 n = n := by
  unfold i32
  rw [BitVec.toInt_eq_toNat_of_lt] <;> rw [BitVec.toNat_ofNat, Nat.mod_eq_of_lt (by omega)]
  omega

theorem i32_big {n : Nat} (h : 2 ^ 31 ≤ n) (h2 : n < 2 ^ 32) : i32 n = (n : Int) - 2 ^ 32 := by
  unfold i32
  rw [BitVec.toInt_eq_toNat_cond, BitVec.toNat_ofNat, Nat.mod_eq_of_lt (by omega), if_neg (by omega)]
  rfl

section
variable {b : Bytes} (hl : b.length < 2 ^ 31)
include hl

theorem table {p : Nat} {t : Tab} (h : rdTable b p = some t) :
    t.pos = p ∧ vtable b p = some t.vt ∧ rd b 2 t.vt = some t.len ∧ t.len % 2 = 0 := by
  unfold rdTable at h
  simp only [Option.bind_eq_some_iff] at h
  obtain ⟨so, h1, vt, h2, len, h3, h4⟩ := h
  split at h4
  case isFalse => cases h4
  case isTrue hc =>
  injection h4 with h4
  subst h4
  obtain ⟨b1, b2, b3⟩ := rd_lt h1
  obtain ⟨c1, c2, c3⟩ := rd_lt h3
  refine ⟨rfl, ?_, h3, (by omega : len % 2 = 0)⟩
  show vtable b p = some vt
  unfold vtable
  rw [peek_rd h1, Option.bind_some]
  have hp : i32 p = p := i32_small (by omega)
  unfold derefSoffset at h2
  have h32 : (256 : Nat) ^ 4 = 2 ^ 32 := by decide
  by_cases hs : so < 2 ^ 31
  · rw [if_pos hs] at h2
    split at h2
    · split at h2
      · injection h2 with h2
        rw [hp, i32_small hs, if_pos (by omega)]
        congr 1
        omega
      · cases h2
    · cases h2
  · rw [if_neg hs] at h2
    split at h2
    · injection h2 with h2
      rw [hp, i32_big (by omega) (by omega), if_pos (by omega)]
      congr 1
      omega
    · cases h2

omit hl in
/-- What is at a field that may be absent. -/
def here {α : Type} (k : Nat → Option α) : Option Nat → Option (Option α)
  | none => some none
  | some q => (k q).map some

/-- A field: where the checked reader finds it, the unchecked one does. -/
theorem field {α : Type} {p voff : Nat} {t : Tab} {o : Option Nat} (ht : rdTable b p = some t) (hv : voff % 2 = 0)
    (h : t.field b voff = some o) (k : Nat → Option α) :
    get b p voff k = here k o := by
  obtain ⟨h1, h2, h3, h4⟩ := table hl ht
  unfold get
  rw [h2, Option.bind_some]
  unfold slot
  rw [peek_rd h3, Option.bind_some]
  unfold Tab.field at h
  by_cases hlt : voff < t.len
  · rw [if_pos hlt, Option.map_eq_some_iff] at h
    obtain ⟨x, e1, e2⟩ := h
    rw [if_neg (by omega), peek_rd e1, Option.bind_some]
    subst e2
    by_cases hx : x = 0
    · rw [if_pos hx, if_pos hx]; rfl
    · rw [if_neg hx, if_neg hx, h1]; rfl
  · rw [if_neg hlt] at h
    injection h with h
    subst h
    rw [if_pos (by omega), Option.bind_some, if_pos rfl]; rfl

theorem scalar_safe {p voff n x : Nat} {t : Tab} (ht : rdTable b p = some t) (hv : voff % 2 = 0) (h : t.scalar b voff n = some x) :
    scalar b p voff n = some x := by
  unfold Tab.scalar at h
  rw [Option.bind_eq_some_iff] at h
  obtain ⟨o, h1, h2⟩ := h
  unfold scalar
  rw [field hl ht hv h1]
  cases o with
  | none => simpa [here] using h2
  | some q => simp only [here] at h2 ⊢; rw [peek_rd h2]; rfl

omit hl in
theorem fwd_safe {α : Type} {r a : Nat → Option α} (hs : Safe r a) : Safe (follow b r) (fwd b a) := by
  intro p x h
  unfold follow at h
  rw [Option.bind_eq_some_iff] at h
  obtain ⟨o, h1, h2⟩ := h
  unfold fwd
  rw [peek_rd h1, Option.bind_some]
  exact hs _ _ h2

theorem offset_safe {α : Type} {r a : Nat → Option α} (hs : Safe r a) {p voff : Nat} {x : Option α} {t : Tab} (ht : rdTable b p = some t)
    (hv : voff % 2 = 0) (h : t.offset b voff r = some x) : get b p voff (fwd b a) = some x := by
  unfold Tab.offset at h
  rw [Option.bind_eq_some_iff] at h
  obtain ⟨o, h1, h2⟩ := h
  rw [field hl ht hv h1]
  cases o with
  | none => simpa [here] using h2
  | some q =>
    simp only [here, Option.map_eq_some_iff] at h2 ⊢
    obtain ⟨y, e1, e2⟩ := h2
    exact ⟨y, fwd_safe hs _ _ e1, e2⟩

omit hl in
theorem items_safe {α : Type} {r a : Nat → Option α} (hs : Safe r a) (size start : Nat) : ∀ (n k : Nat) (l : List α),
    elems r size (start + size * k) n = some l → items a size start (List.range' k n) = some l := by
  intro n
  induction n with
  | zero => intro k l h; simpa [elems, items] using h
  | succ n ih =>
    intro k l h
    rw [elems, Option.bind_eq_some_iff] at h
    obtain ⟨x, h1, h2⟩ := h
    rw [Option.map_eq_some_iff] at h2
    obtain ⟨m, h3, h4⟩ := h2
    rw [List.range'_succ, items, hs _ _ h1, Option.bind_some, ih (k + 1) m (by rw [← h3, Nat.mul_succ, ← Nat.add_assoc]), Option.map_some, h4]

omit hl in
theorem vec_safe {α : Type} {r a : Nat → Option α} (hs : Safe r a) (size : Nat) : Safe (rdVec b size r) (vec b size a) := by
  intro p l h
  unfold rdVec at h
  rw [Option.bind_eq_some_iff] at h
  obtain ⟨n, h1, h2⟩ := h
  split at h2
  next =>
    unfold vec
    rw [peek_rd h1, Option.bind_some, List.range_eq_range']
    exact items_safe hs size (p + 4) n 0 l (by simpa using h2)
  next => cases h2

omit hl in
theorem string_safe : Safe (rdString b) (string b) := by
  intro p l h
  unfold rdString at h
  rw [Option.bind_eq_some_iff] at h
  obtain ⟨n, h1, h2⟩ := h
  unfold string
  rw [peek_rd h1, Option.bind_some]
  split at h2
  next hc => rw [if_pos hc.1]; exact h2
  next => cases h2

theorem contractId_safe : Safe (rdContractId b) (contractId b) := by
  intro p l h
  simp only [rdContractId, Option.bind_eq_some_iff, Option.map_eq_some_iff] at h
  obtain ⟨t, ht, name, h1, x, h2, y, h3, z, h4, rfl⟩ := h
  simp only [contractId]
  rw [offset_safe hl string_safe ht rfl h1, Option.bind_some, scalar_safe hl ht rfl h2, Option.bind_some, scalar_safe hl ht rfl h3,
    Option.bind_some, scalar_safe hl ht rfl h4]
  rfl

omit hl in
theorem kind_safe : Safe (fun q => (rd b 1 q).map kindOfNo) (fun q => (peek b 1 q).map kindOfNo) := by
  intro p l h
  simp only [Option.map_eq_some_iff] at h ⊢
  obtain ⟨x, h1, h2⟩ := h
  exact ⟨x, peek_rd h1, h2⟩

theorem contractStates_safe : Safe (rdContractStates b) (contractStates b) := by
  intro p l h
  simp only [rdContractStates, Option.bind_eq_some_iff, Option.map_eq_some_iff] at h
  obtain ⟨t, ht, x, h1, y, h2, rfl⟩ := h
  simp only [contractStates]
  rw [offset_safe hl (vec_safe (fwd_safe string_safe) 4) ht rfl h1, Option.bind_some, offset_safe hl (vec_safe kind_safe 1) ht rfl h2]
  rfl

theorem contract_safe : Safe (rdContract b) (contract b) := by
  intro p l h
  simp only [rdContract, Option.bind_eq_some_iff, Option.map_eq_some_iff] at h
  obtain ⟨t, ht, x, h1, y, h2, rfl⟩ := h
  simp only [contract]
  rw [offset_safe hl (contractId_safe hl) ht rfl h1, Option.bind_some, offset_safe hl (contractStates_safe hl) ht rfl h2]
  rfl

theorem value_safe (n : Nat) : Safe (rdScalar b n) (value b n) := by
  intro p l h
  simp only [rdScalar, Option.bind_eq_some_iff] at h
  obtain ⟨t, ht, h1⟩ := h
  exact scalar_safe hl ht rfl h1

theorem object_safe : Safe (rdObject b) (object b) := by
  intro p l h
  simp only [rdObject, Option.bind_eq_some_iff, Option.map_eq_some_iff] at h
  obtain ⟨t, ht, x, h1, y, h2, rfl⟩ := h
  simp only [object]
  rw [offset_safe hl (value_safe hl 2) ht rfl h1, Option.bind_some, offset_safe hl (vec_safe (fwd_safe (value_safe hl 4)) 4) ht rfl h2]
  rfl

theorem fbString_safe : Safe (rdFbString b) (fun p => get b p 4 (fwd b (string b))) := by
  intro p l h
  simp only [rdFbString, Option.bind_eq_some_iff] at h
  obtain ⟨t, ht, h1⟩ := h
  exact offset_safe hl string_safe ht rfl h1

/-- The declared discriminants. -/
theorem payload_safe {tag : Nat} (h0 : tag ≠ 0) (h14 : ¬ 14 < tag) : Safe (rdUnion b tag) (fwd b (payload b tag)) := by
  intro p l h
  have hm : ∀ {α : Type} {r a : Nat → Option α} (f : α → FbVal), Safe r a → ∀ l, (follow b r p).map f = some l →
      fwd b (fun q => (a q).map f) p = some l := by
    intro α r a f hs l h
    rw [Option.map_eq_some_iff] at h
    obtain ⟨x, h1, h2⟩ := h
    refine fwd_safe (r := fun q => (r q).map f) ?_ p l ?_
    · intro q y hq
      simp only [Option.map_eq_some_iff] at hq ⊢
      obtain ⟨z, e1, e2⟩ := hq
      exact ⟨z, hs _ _ e1, e2⟩
    · unfold follow at h1 ⊢
      rw [Option.bind_eq_some_iff] at h1 ⊢
      obtain ⟨o, e1, e2⟩ := h1
      exact ⟨o, e1, by show (r (p + o)).map f = _; rw [e2, Option.map_some, h2]⟩
  match tag, h0, h14 with
  | 1, _, _ => exact hm _ (value_safe hl 1) l h
  | 2, _, _ => exact hm _ (value_safe hl 2) l h
  | 3, _, _ => exact hm _ (value_safe hl 4) l h
  | 4, _, _ => exact hm _ (value_safe hl 8) l h
  | 5, _, _ => exact hm _ (value_safe hl 1) l h
  | 6, _, _ => exact hm _ (value_safe hl 2) l h
  | 7, _, _ => exact hm _ (value_safe hl 4) l h
  | 8, _, _ => exact hm _ (value_safe hl 8) l h
  | 9, _, _ => exact hm _ (value_safe hl 1) l h
  | 10, _, _ => exact hm _ (value_safe hl 4) l h
  | 11, _, _ => exact hm _ (value_safe hl 8) l h
  | 12, _, _ => exact hm _ (fbString_safe hl) l h
  | 13, _, _ => exact hm _ (value_safe hl 4) l h
  | 14, _, _ => exact hm _ (value_safe hl 2) l h
  | n + 15, _, h14 => exact absurd (by omega) h14

theorem state_safe : Safe (rdState b) (state b) := by
  intro p l h
  simp only [rdState, Option.bind_eq_some_iff] at h
  obtain ⟨t, ht, val, h1, key, h2, h3⟩ := h
  simp only [state, scalar]
  rw [field hl ht rfl h2]
  match key, val, h3 with
  | none, none, h3 =>
    simp only [here, Option.map_some, Option.getD_none, Option.bind_some]
    exact h3
  | some k, some v, h3 =>
    simp only [Option.bind_eq_some_iff] at h3
    obtain ⟨tag, h3, h4⟩ := h3
    simp only [here]
    rw [peek_rd h3]
    simp only [Option.map_some, Option.getD_some, Option.bind_some]
    by_cases t0 : tag = 0
    · subst t0; exact h4
    rw [if_neg t0]
    by_cases t14 : 14 < tag
    · rw [if_pos t14]
      match tag, t14 with
      | n + 15, _ => exact h4
    rw [if_neg t14, field hl ht rfl h1]
    simp only [here]
    rw [payload_safe hl t0 t14 _ _ h4]
    rfl

theorem baseline_safe : Safe (rdBaseline b) (baseline b) := by
  intro p l h
  simp only [rdBaseline, Option.bind_eq_some_iff, Option.map_eq_some_iff] at h
  obtain ⟨t, ht, x, h1, y, h2, z, h3, rfl⟩ := h
  simp only [baseline]
  rw [offset_safe hl (vec_safe (fwd_safe (contract_safe hl)) 4) ht rfl h1, Option.bind_some,
    offset_safe hl (vec_safe (fwd_safe (state_safe hl)) 4) ht rfl h2, Option.bind_some,
    offset_safe hl (vec_safe (fwd_safe (object_safe hl)) 4) ht rfl h3]
  rfl

theorem everything_safe {buf : FbBaseline} (h : root b = some buf) : everything b = some buf :=
  fwd_safe (baseline_safe hl) 0 buf h

end
end Verif.Fb.Access
