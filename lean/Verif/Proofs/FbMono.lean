import Verif.Model.FbRead
/-!
# More bytes at the end do not change what is read
-/
namespace Verif.Fb
open Verif

/-- What is read stays the same if bytes are appended. -/
def Mono {α : Type} (r : Bytes → Nat → Option α) : Prop :=
  ∀ (a y : Bytes) (p : Nat) (v : α), r a p = some v → r (a ++ y) p = some v

theorem take_drop_append (a y : Bytes) (p n : Nat) (h : p + n ≤ a.length) : ((a ++ y).drop p).take n = (a.drop p).take n := by
  rw [List.drop_append_of_le_length (by omega), List.take_append_of_le_length (by rw [List.length_drop]; omega)]

theorem rd_mono (n : Nat) (a y : Bytes) (p v : Nat) (h : rd a n p = some v) : rd (a ++ y) n p = some v := by
  simp only [rd] at h ⊢
  by_cases hc : p % n = 0 ∧ p + n ≤ a.length
  · rw [if_pos hc] at h
    rw [if_pos ⟨hc.1, by rw [List.length_append]; omega⟩, take_drop_append _ _ _ _ hc.2]
    exact h
  · rw [if_neg hc] at h; cases h

theorem deref_mono (a y : Bytes) (p so v : Nat) (h : derefSoffset a p so = some v) : derefSoffset (a ++ y) p so = some v := by
  unfold derefSoffset at h ⊢
  rw [List.length_append]
  split at h
  · rename_i h1
    rw [if_pos h1]
    split at h
    · rename_i h2
      rw [if_pos h2]
      split at h
      · rw [if_pos (by omega)]; exact h
      · cases h
    · cases h
  · rename_i h1
    rw [if_neg h1]
    split at h
    · rw [if_pos (by omega)]; exact h
    · cases h

theorem bind_some_iff {α β : Type} {o : Option α} {f : α → Option β} {v : β} (h : o.bind f = some v) : ∃ x, o = some x ∧ f x = some v := by
  cases o with
  | none => cases h
  | some x => exact ⟨x, rfl, h⟩

theorem map_some_iff {α β : Type} {o : Option α} {f : α → β} {v : β} (h : o.map f = some v) : ∃ x, o = some x ∧ f x = v := by
  cases o with
  | none => cases h
  | some x => exact ⟨x, rfl, by simpa using h⟩

theorem rdTable_mono : Mono rdTable := by
  intro a y p v h
  unfold rdTable at h ⊢
  obtain ⟨so, h1, h⟩ := bind_some_iff h
  obtain ⟨vt, h2, h⟩ := bind_some_iff h
  obtain ⟨len, h3, h⟩ := bind_some_iff h
  rw [rd_mono 4 a y p so h1, Option.bind_some, deref_mono a y p so vt h2, Option.bind_some, rd_mono 2 a y vt len h3, Option.bind_some]
  split at h
  · rename_i hc
    rw [if_pos ⟨hc.1, by rw [List.length_append]; omega⟩]; exact h
  · cases h

theorem field_mono (a y : Bytes) (t : Tab) (voff : Nat) (v : Option Nat) (h : t.field a voff = some v) : t.field (a ++ y) voff = some v := by
  unfold Tab.field at h ⊢
  split at h
  · rename_i hc
    rw [if_pos hc]
    obtain ⟨o, h1, h2⟩ := map_some_iff h
    rw [rd_mono 2 a y _ o h1, Option.map_some, h2]
  · rename_i hc
    rw [if_neg hc]; exact h

theorem scalar_mono (a y : Bytes) (t : Tab) (voff n v : Nat) (h : t.scalar a voff n = some v) : t.scalar (a ++ y) voff n = some v := by
  unfold Tab.scalar at h ⊢
  obtain ⟨o, h1, h2⟩ := bind_some_iff h
  rw [field_mono a y t voff o h1, Option.bind_some]
  cases o with
  | none => exact h2
  | some p => exact rd_mono n a y p v h2

theorem follow_mono {α : Type} {r : Bytes → Nat → Option α} (hr : Mono r) : Mono (fun b => follow b (r b)) := by
  intro a y p v h
  obtain ⟨o, h1, h2⟩ := bind_some_iff h
  show (rd (a ++ y) 4 p).bind _ = _
  rw [rd_mono 4 a y p o h1, Option.bind_some]
  exact hr a y _ v h2

theorem follow_more {α : Type} {r : Bytes → Nat → Option α} (hr : Mono r) (a y : Bytes) (p : Nat) (v : α)
    (h : follow a (r a) p = some v) : follow (a ++ y) (r (a ++ y)) p = some v := follow_mono hr a y p v h

theorem offset_mono {α : Type} {r : Bytes → Nat → Option α} (hr : Mono r) (a y : Bytes) (t : Tab) (voff : Nat) (v : Option α)
    (h : t.offset a voff (r a) = some v) : t.offset (a ++ y) voff (r (a ++ y)) = some v := by
  unfold Tab.offset at h ⊢
  obtain ⟨o, h1, h2⟩ := bind_some_iff h
  rw [field_mono a y t voff o h1, Option.bind_some]
  cases o with
  | none => exact h2
  | some p =>
    obtain ⟨x, h3, h4⟩ := map_some_iff h2
    simp only
    rw [follow_more hr a y p x h3, Option.map_some, h4]

theorem elems_mono {α : Type} {r : Bytes → Nat → Option α} (hr : Mono r) (size : Nat) (a y : Bytes) (n : Nat) :
    ∀ (p : Nat) (v : List α), elems (r a) size p n = some v → elems (r (a ++ y)) size p n = some v := by
  induction n with
  | zero => intro p v h; exact h
  | succ n ih =>
    intro p v h
    unfold elems at h ⊢
    obtain ⟨x, h1, h⟩ := bind_some_iff h
    obtain ⟨xs, h2, h⟩ := map_some_iff h
    rw [hr a y p x h1, Option.bind_some, ih _ _ h2, Option.map_some, h]

theorem rdVec_mono {α : Type} {r : Bytes → Nat → Option α} (hr : Mono r) (size : Nat) : Mono (fun b => rdVec b size (r b)) := by
  intro a y p v h
  obtain ⟨n, h1, h⟩ := bind_some_iff h
  show (rd (a ++ y) 4 p).bind _ = _
  rw [rd_mono 4 a y p n h1, Option.bind_some]
  split at h
  · rename_i hc
    rw [if_pos ⟨hc.1, by rw [List.length_append]; omega⟩]
    exact elems_mono hr size a y n _ v h
  · cases h

theorem rdString_mono : Mono rdString := by
  intro a y p v h
  unfold rdString at h ⊢
  obtain ⟨n, h1, h⟩ := bind_some_iff h
  rw [rd_mono 4 a y p n h1, Option.bind_some]
  split at h
  · rename_i hc
    have hlt : p + 4 + n < a.length := by
      have := List.getElem?_eq_some_iff.1 hc.2
      exact this.1
    rw [if_pos ⟨by rw [List.length_append]; omega, by rw [List.getElem?_append_left hlt]; exact hc.2⟩, take_drop_append _ _ _ _ hc.1]
    exact h
  · cases h

theorem rdScalar_mono (n : Nat) : Mono (fun b => rdScalar b n) := by
  intro a y p v h
  obtain ⟨t, h1, h⟩ := bind_some_iff h
  show (rdTable (a ++ y) p).bind _ = _
  rw [rdTable_mono a y p t h1, Option.bind_some]
  exact scalar_mono a y t 4 n v h

theorem rdFbString_mono : Mono rdFbString := by
  intro a y p v h
  obtain ⟨t, h1, h⟩ := bind_some_iff h
  show (rdTable (a ++ y) p).bind _ = _
  rw [rdTable_mono a y p t h1, Option.bind_some]
  exact offset_mono rdString_mono a y t 4 v h

theorem rdContractId_mono : Mono rdContractId := by
  intro a y p v h
  unfold rdContractId at h ⊢
  obtain ⟨t, h1, h⟩ := bind_some_iff h
  obtain ⟨nm, h2, h⟩ := bind_some_iff h
  obtain ⟨x, h3, h⟩ := bind_some_iff h
  obtain ⟨z, h4, h⟩ := bind_some_iff h
  obtain ⟨w, h5, h⟩ := map_some_iff h
  rw [rdTable_mono a y p t h1, Option.bind_some, offset_mono rdString_mono a y t 4 nm h2, Option.bind_some,
    scalar_mono a y t 6 2 x h3, Option.bind_some, scalar_mono a y t 8 2 z h4, Option.bind_some, scalar_mono a y t 10 2 w h5,
    Option.map_some, h]

theorem rdKind_mono : Mono (fun (b : Bytes) q => (rd b 1 q).map kindOfNo) := by
  intro a y p v h
  obtain ⟨x, h1, h⟩ := map_some_iff h
  show (rd (a ++ y) 1 p).map _ = _
  rw [rd_mono 1 a y p x h1, Option.map_some, h]

theorem rdContractStates_mono : Mono rdContractStates := by
  intro a y p v h
  unfold rdContractStates at h ⊢
  obtain ⟨t, h1, h⟩ := bind_some_iff h
  obtain ⟨nm, h2, h⟩ := bind_some_iff h
  obtain ⟨ks, h3, h⟩ := map_some_iff h
  rw [rdTable_mono a y p t h1, Option.bind_some, (offset_mono (rdVec_mono (follow_mono rdString_mono) 4) a y t 4 nm h2 : t.offset (a ++ y) 4 (rdVec (a ++ y) 4 (follow (a ++ y) (rdString (a ++ y)))) = some nm), Option.bind_some,
    offset_mono (rdVec_mono rdKind_mono 1) a y t 6 ks h3, Option.map_some, h]

theorem rdContract_mono : Mono rdContract := by
  intro a y p v h
  unfold rdContract at h ⊢
  obtain ⟨t, h1, h⟩ := bind_some_iff h
  obtain ⟨i, h2, h⟩ := bind_some_iff h
  obtain ⟨s, h3, h⟩ := map_some_iff h
  rw [rdTable_mono a y p t h1, Option.bind_some, offset_mono rdContractId_mono a y t 4 i h2, Option.bind_some,
    offset_mono rdContractStates_mono a y t 6 s h3, Option.map_some, h]

theorem rdObject_mono : Mono rdObject := by
  intro a y p v h
  unfold rdObject at h ⊢
  obtain ⟨t, h1, h⟩ := bind_some_iff h
  obtain ⟨i, h2, h⟩ := bind_some_iff h
  obtain ⟨s, h3, h⟩ := map_some_iff h
  rw [rdTable_mono a y p t h1, Option.bind_some, offset_mono (rdScalar_mono 2) a y t 4 i h2, Option.bind_some,
    offset_mono (rdVec_mono (follow_mono (rdScalar_mono 4)) 4) a y t 6 s h3, Option.map_some, h]

theorem followScalar_mono {β : Type} (a y : Bytes) (n p : Nat) (f : Nat → β) (v : β) (h : (follow a (rdScalar a n) p).map f = some v) :
    (follow (a ++ y) (rdScalar (a ++ y) n) p).map f = some v := by
  obtain ⟨x, h1, h⟩ := map_some_iff h
  rw [follow_more (rdScalar_mono n) a y p x h1, Option.map_some, h]

theorem rdUnion_mono (tag : Nat) : Mono (fun b => rdUnion b tag) := by
  intro a y p v h
  simp only [rdUnion] at h ⊢
  split at h
  case h_1 => exact h
  case h_13 =>
    obtain ⟨x, h1, h⟩ := map_some_iff h
    rw [follow_more rdFbString_mono a y p x h1, Option.map_some, h]
  case h_16 => exact h
  all_goals exact followScalar_mono a y _ p _ v h

theorem rdState_mono : Mono rdState := by
  intro a y p v h
  unfold rdState at h ⊢
  obtain ⟨t, h1, h⟩ := bind_some_iff h
  obtain ⟨val, h2, h⟩ := bind_some_iff h
  obtain ⟨key, h3, h⟩ := bind_some_iff h
  rw [rdTable_mono a y p t h1, Option.bind_some, field_mono a y t 6 val h2, Option.bind_some, field_mono a y t 4 key h3, Option.bind_some]
  cases key with
  | none => cases val <;> exact h
  | some k =>
    cases val with
    | none => exact h
    | some w =>
      obtain ⟨tag, h4, h⟩ := bind_some_iff h
      show (rd (a ++ y) 1 k).bind _ = _
      rw [rd_mono 1 a y k tag h4, Option.bind_some]
      exact rdUnion_mono tag a y w v h

theorem rdBaseline_mono : Mono rdBaseline := by
  intro a y p v h
  unfold rdBaseline at h ⊢
  obtain ⟨t, h1, h⟩ := bind_some_iff h
  obtain ⟨cs, h2, h⟩ := bind_some_iff h
  obtain ⟨sts, h3, h⟩ := bind_some_iff h
  obtain ⟨os, h4, h⟩ := map_some_iff h
  rw [rdTable_mono a y p t h1, Option.bind_some, offset_mono (rdVec_mono (follow_mono rdContract_mono) 4) a y t 4 cs h2, Option.bind_some,
    offset_mono (rdVec_mono (follow_mono rdState_mono) 4) a y t 6 sts h3, Option.bind_some,
    offset_mono (rdVec_mono (follow_mono rdObject_mono) 4) a y t 8 os h4, Option.map_some, h]

/-- Appending bytes to a buffer that can be read does not change what is read. -/
theorem root_mono (a y : Bytes) (buf : FbBaseline) (h : root a = some buf) : root (a ++ y) = some buf :=
  follow_mono rdBaseline_mono a y 0 buf h

end Verif.Fb
