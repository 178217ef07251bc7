import Mathlib.Data.List.Forall2
import Verif.Model.FbRead
import Verif.Model.SerBytes
/-!
# Facts about the builder and the reader
-/
namespace Verif.Fb
open Verif

theorem le_length (n x : Nat) : (le n x).length = n := by
  induction n generalizing x with
  | zero => rfl
  | succ n ih => simp [le, ih]

theorem ofLe_le (n x : Nat) : ofLe (le n x) = x % 256 ^ n := by
  induction n generalizing x with
  | zero => simp [le, ofLe, Nat.mod_one]
  | succ n ih =>
    have h : (UInt8.ofNat (x % 256)).toNat = x % 256 := by simp
    simp only [le, ofLe, ih, h]
    rw [show (256 : Nat) ^ (n + 1) = 256 * 256 ^ n by rw [Nat.pow_succ, Nat.mul_comm], Nat.mod_mul]

theorem suf_length (b : Bytes) (r : Nat) (h : r ≤ b.length) : (suf b r).length = r := by
  simp [suf]; omega

theorem suf_append (pre b : Bytes) (r : Nat) (h : r ≤ b.length) : suf (pre ++ b) r = suf b r := by
  unfold suf
  rw [List.length_append, show pre.length + b.length - r = pre.length + (b.length - r) by omega,
    List.drop_append, List.drop_eq_nil_of_le (by omega), List.nil_append]
  congr 1
  omega

theorem suf_self (b : Bytes) : suf b b.length = b := by simp [suf]

theorem suf_drop (b : Bytes) (r j : Nat) (h : r ≤ b.length) (hj : j ≤ r) : suf b (r - j) = (suf b r).drop j := by
  unfold suf
  rw [List.drop_drop]
  congr 1
  omega

theorem rd_suf (b : Bytes) (n r : Nat) (hr : r ≤ b.length) :
    rd b n (b.length - r) =
      if (b.length - r) % n = 0 ∧ n ≤ r then some (ofLe ((suf b r).take n)) else none := by
  unfold rd suf
  have : (b.length - r + n ≤ b.length) ↔ n ≤ r := by omega
  simp only [this]

theorem rd_some (b : Bytes) (n r x : Nat) (hr : r ≤ b.length) (hn : n ≤ r) (ha : n ∣ b.length) (hb : n ∣ r)
    (h : (suf b r).take n = le n x) : rd b n (b.length - r) = some (x % 256 ^ n) := by
  have h0 : (b.length - r) % n = 0 := Nat.mod_eq_zero_of_dvd (Nat.dvd_sub ha hb)
  rw [rd_suf b n r hr, if_pos ⟨h0, hn⟩, h, ofLe_le]

/-- The widths of scalars. -/
def Width (n : Nat) : Prop := n = 1 ∨ n = 2 ∨ n = 4 ∨ n = 8

theorem Width.pos {n : Nat} (h : Width n) : 0 < n := by
  rcases h with rfl | rfl | rfl | rfl <;> omega

theorem width4 : Width 4 := Or.inr (Or.inr (Or.inl rfl))

/-- `b` can be the finished buffer of a builder that once was in the state `f`. -/
structure Good (b : Bytes) (f : Fbb) : Prop where
  ends : ∃ pre, b = pre ++ f.buf
  aligned : ∀ a : Nat, Width a → a ≤ f.minAlign → a ∣ b.length
  small : b.length < 2 ^ 31

/-- The largest alignment is a power of two, if there was any. -/
def Pow (f : Fbb) : Prop := f.minAlign = 0 ∨ Width f.minAlign

/-- `g` is what became of `f`. -/
structure Ext (f g : Fbb) : Prop where
  ends : ∃ pre, g.buf = pre ++ f.buf
  align : f.minAlign ≤ g.minAlign
  pow : Pow f → Pow g

theorem Ext.refl (f : Fbb) : Ext f f := ⟨⟨[], rfl⟩, Nat.le_refl _, id⟩

theorem Ext.trans {f g h : Fbb} (a : Ext f g) (b : Ext g h) : Ext f h := by
  obtain ⟨p, hp⟩ := a.ends
  obtain ⟨q, hq⟩ := b.ends
  exact ⟨⟨q ++ p, by rw [hq, hp, List.append_assoc]⟩, Nat.le_trans a.align b.align, fun h => b.pow (a.pow h)⟩

theorem Ext.le {f g : Fbb} (a : Ext f g) : f.buf.length ≤ g.buf.length := by
  obtain ⟨p, hp⟩ := a.ends
  rw [hp]; simp

theorem Good.mono {b : Bytes} {f g : Fbb} (a : Ext f g) (h : Good b g) : Good b f := by
  obtain ⟨p, hp⟩ := a.ends
  obtain ⟨q, hq⟩ := h.ends
  exact ⟨⟨q ++ p, by rw [hq, hp, List.append_assoc]⟩, fun n w l => h.aligned n w (Nat.le_trans l a.align), h.small⟩

theorem Good.le {b : Bytes} {f : Fbb} (h : Good b f) : f.buf.length ≤ b.length := by
  obtain ⟨p, hp⟩ := h.ends
  rw [hp]; simp

theorem Good.suf {b : Bytes} {f : Fbb} (h : Good b f) (r : Nat) (hr : r ≤ f.buf.length) : Fb.suf b r = Fb.suf f.buf r := by
  obtain ⟨p, hp⟩ := h.ends
  rw [hp, suf_append _ _ _ hr]

theorem padding_dvd (s a : Nat) (ha : 0 < a) : a ∣ padding s a + s := by
  unfold padding
  have h := Nat.mod_lt s ha
  apply Nat.dvd_of_mod_eq_zero
  rw [Nat.add_mod, Nat.mod_mod, ← Nat.add_mod]
  have h2 := Nat.mod_add_div s a
  rw [show a - s % a + s = a * (s / a) + a by omega, Nat.add_mod_right, Nat.mul_mod_right]

theorem padding_lt (s a : Nat) (ha : 0 < a) : padding s a < a := Nat.mod_lt _ ha

theorem ext_align (f : Fbb) (l a : Nat) (hw : Width a) : Ext f (f.align l a) := by
  refine ⟨⟨_, rfl⟩, Nat.le_max_left _ _, fun _ => ?_⟩
  show max f.minAlign a = 0 ∨ Width (max f.minAlign a)
  rcases Nat.le_total f.minAlign a with h | h
  · rw [Nat.max_eq_right h]; exact Or.inr hw
  · rw [Nat.max_eq_left h]; assumption

theorem ext_raw (f : Fbb) (bs : Bytes) : Ext f (f.raw bs) := ⟨⟨_, rfl⟩, Nat.le_refl _, fun h => h⟩

theorem ext_push (f : Fbb) (n x : Nat) (hw : Width n) : Ext f (f.push n x) := (ext_align _ _ _ hw).trans (ext_raw _ _)

theorem align_length (f : Fbb) (l a : Nat) :
    (f.align l a).buf.length = padding (f.buf.length + l) a + f.buf.length := by
  simp [Fbb.align]

theorem push_length (f : Fbb) (n x : Nat) :
    (f.push n x).buf.length = n + (padding (f.buf.length + n) n + f.buf.length) := by
  simp [Fbb.push, Fbb.raw, le_length, align_length]

theorem push_dvd (f : Fbb) (n x : Nat) (hn : 0 < n) : n ∣ (f.push n x).buf.length := by
  rw [push_length, show n + (padding (f.buf.length + n) n + f.buf.length) = padding (f.buf.length + n) n + (f.buf.length + n) by omega]
  exact padding_dvd _ _ hn

theorem push_head (f : Fbb) (n x : Nat) : ∃ rest, (f.push n x).buf = le n x ++ rest := ⟨_, rfl⟩

theorem rd_push {b : Bytes} {f : Fbb} {n x : Nat} (hw : Width n) (h : Good b (f.push n x)) :
    rd b n (b.length - (f.push n x).buf.length) = some (x % 256 ^ n) := by
  have hl := push_length f n x
  refine rd_some b n _ x h.le (by omega) (h.aligned n hw ?_) (push_dvd f n x hw.pos) ?_
  · exact Nat.le_max_right _ _
  · rw [h.suf _ (Nat.le_refl _), suf_self]
    obtain ⟨rest, hr⟩ := push_head f n x
    rw [hr, List.take_append_of_le_length (by rw [le_length]; exact Nat.le_refl _), List.take_of_length_le (by rw [le_length]; exact Nat.le_refl _)]

theorem pushOff_eq {f g : Fbb} {t : Nat} (h : f.pushOff t = some g) :
    g = f.push 4 (g.buf.length - t) ∧ t ≤ g.buf.length := by
  unfold Fbb.pushOff at h
  simp only at h
  split at h
  · injection h with h
    have hl : g.buf.length = 4 + (f.align 4 4).buf.length := by rw [← h]; simp [Fbb.raw, le_length]
    refine ⟨?_, by omega⟩
    rw [hl, ← h]
    rfl
  · cases h

theorem pushOff_some (f : Fbb) (t : Nat) (h : t ≤ f.buf.length) : ∃ g, f.pushOff t = some g := by
  unfold Fbb.pushOff
  have := align_length f 4 4
  rw [if_pos (by omega)]
  exact ⟨_, rfl⟩

theorem ext_pushOff {f g : Fbb} {t : Nat} (h : f.pushOff t = some g) : Ext f g := by
  rw [(pushOff_eq h).1]; exact ext_push _ _ _ width4

theorem rd_pushOff {b : Bytes} {f g : Fbb} {t : Nat} (h : f.pushOff t = some g) (hb : Good b g) :
    rd b 4 (b.length - g.buf.length) = some (g.buf.length - t) := by
  have he := (pushOff_eq h).1
  have hb' := hb
  rw [he] at hb'
  have hr := rd_push width4 hb'
  rw [← he] at hr
  rw [hr, Nat.mod_eq_of_lt]
  have h1 := hb.le
  have h2 := hb.small
  omega

theorem follow_at {α : Type} {b : Bytes} {k : Nat → Option α} {p t : Nat} (h : rd b 4 (b.length - p) = some (p - t)) (hp : p ≤ b.length)
    (ht : t ≤ p) : follow b k (b.length - p) = k (b.length - t) := by
  unfold follow
  rw [h]
  show k (b.length - p + (p - t)) = _
  congr 1
  omega

/-- What the builder remembers of its vtables. -/
def Inv (f : Fbb) : Prop := ∀ v ∈ f.vtables, v ≤ f.buf.length ∧ 2 ∣ v

theorem inv_ext {f g : Fbb} (h : Inv f) (e : Ext f g) (hv : g.vtables = f.vtables) : Inv g := by
  intro v m
  rw [hv] at m
  exact ⟨Nat.le_trans (h v m).1 e.le, (h v m).2⟩

/-- A field of a buffer holds what was put into it. -/
def SlotAt (b : Bytes) (p : Nat) : Slot → Prop
  | .scalar n x => rd b n (b.length - p) = some (x % 256 ^ n)
  | .off t => rd b 4 (b.length - p) = some (p - t) ∧ t ≤ p

/-- The scalars have proper widths. -/
def Slot.Ok : Slot → Prop
  | .scalar n _ => Width n
  | .off _ => True

theorem width_le {n : Nat} (h : Width n) : n ≤ 8 := by
  rcases h with rfl | rfl | rfl | rfl <;> omega

theorem pushSlot_spec {f g : Fbb} {s : Slot} (hs : s.Ok) (h : f.pushSlot s = some g) :
    Ext f g ∧ g.vtables = f.vtables ∧ f.buf.length < g.buf.length ∧ g.buf.length ≤ f.buf.length + 15 ∧
      ∀ b, Good b g → SlotAt b g.buf.length s := by
  cases s with
  | scalar n x =>
    have e : g = f.push n x := by unfold Fbb.pushSlot at h; injection h with h; exact h.symm
    have hl := push_length f n x
    have hp := padding_lt (f.buf.length + n) n hs.pos
    have hw := width_le hs
    have h0 := Width.pos hs
    subst e
    exact ⟨ext_push _ _ _ hs, rfl, by omega, by omega, fun b hb => rd_push hs hb⟩
  | off t =>
    have h' : f.pushOff t = some g := h
    obtain ⟨e, ht⟩ := pushOff_eq h'
    have hl := push_length f 4 (g.buf.length - t)
    have hp := padding_lt (f.buf.length + 4) 4 (by omega)
    rw [← e] at hl
    refine ⟨ext_pushOff h', by rw [e]; rfl, by omega, by omega, fun b hb => ⟨rd_pushOff h' hb, ht⟩⟩

theorem pushSlots_spec {slots : List (Nat × Slot)} : ∀ {f g : Fbb} {locs : List (Nat × Nat)},
    (∀ s ∈ slots, s.2.Ok) → f.pushSlots slots = some (g, locs) →
    Ext f g ∧ g.vtables = f.vtables ∧ g.buf.length ≤ f.buf.length + 15 * slots.length ∧
      (∀ l ∈ locs, f.buf.length < l.2 ∧ l.2 ≤ g.buf.length) ∧
      List.Forall₂ (fun (s : Nat × Slot) (l : Nat × Nat) => s.1 = l.1 ∧ ∀ b, Good b g → SlotAt b l.2 s.2) slots locs := by
  induction slots with
  | nil =>
    intro f g locs _ h
    simp only [Fbb.pushSlots, Option.some.injEq, Prod.mk.injEq] at h
    obtain ⟨rfl, rfl⟩ := h
    exact ⟨Ext.refl _, rfl, by simp, by simp, List.Forall₂.nil⟩
  | cons s rest ih =>
    intro f g locs hok h
    obtain ⟨voff, s⟩ := s
    unfold Fbb.pushSlots at h
    cases h1 : f.pushSlot s with
    | none => rw [h1] at h; cases h
    | some g1 =>
      rw [h1] at h
      cases h2 : g1.pushSlots rest with
      | none => simp [h2] at h
      | some e =>
        obtain ⟨g2, locs2⟩ := e
        simp only [h2, Option.bind_some, Option.map_some, Option.some.injEq, Prod.mk.injEq] at h
        obtain ⟨rfl, rfl⟩ := h
        obtain ⟨e1, v1, l1, u1, a1⟩ := pushSlot_spec (hok _ (List.mem_cons_self ..)) h1
        obtain ⟨e2, v2, u2, r2, a2⟩ := ih (fun s m => hok s (List.mem_cons_of_mem _ m)) h2
        refine ⟨e1.trans e2, v2.trans v1, ?_, ?_, ?_⟩
        · simp only [List.length_cons]; omega
        · intro l m
          rcases List.mem_cons.1 m with rfl | m
          · exact ⟨l1, e2.le⟩
          · have := r2 l m
            have := e1.le
            omega
        · exact List.Forall₂.cons ⟨rfl, fun b hb => a1 b (hb.mono e2)⟩ a2

theorem pushSlots_some {slots : List (Nat × Slot)} : ∀ {f : Fbb}, (∀ s ∈ slots, s.2.Ok) → (∀ voff t, (voff, Slot.off t) ∈ slots → t ≤ f.buf.length) →
    ∃ e, f.pushSlots slots = some e := by
  induction slots with
  | nil => intro f _ _; exact ⟨_, rfl⟩
  | cons s rest ih =>
    intro f hok h
    obtain ⟨voff, s⟩ := s
    have h1 : ∃ g, f.pushSlot s = some g := by
      cases s with
      | scalar n x => exact ⟨_, rfl⟩
      | off t => exact pushOff_some f t (h voff t (List.mem_cons_self ..))
    obtain ⟨g, hg⟩ := h1
    have e : Ext f g := by
      cases s with
      | scalar n x => injection hg with hg; rw [← hg]; exact ext_push _ _ _ (hok _ (List.mem_cons_self ..))
      | off t => exact ext_pushOff hg
    obtain ⟨e2, h2⟩ := ih (f := g) (fun s m => hok s (List.mem_cons_of_mem _ m)) (fun v t m => Nat.le_trans (h v t (List.mem_cons_of_mem _ m)) e.le)
    exact ⟨(e2.1, (voff, g.buf.length) :: e2.2), by
      unfold Fbb.pushSlots
      rw [hg, Option.bind_some, h2]
      rfl⟩

end Verif.Fb
