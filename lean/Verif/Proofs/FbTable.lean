import Verif.Proofs.FbBytes
/-!
# Tables: what `createTable` writes, `rdTable` and `Tab.field` find
-/
namespace Verif.Fb
open Verif

/-- What was put into a field. -/
def lookupSlot (slots : List (Nat × Slot)) (voff : Nat) : Option Slot := (slots.find? fun s => s.1 = voff).map Prod.snd

/-- A field of a table of a buffer holds what was put into it. -/
def FieldIs (b : Bytes) (t : Tab) (voff : Nat) : Option Slot → Prop
  | none => t.field b voff = some none
  | some s => ∃ p, p ≤ b.length ∧ t.field b voff = some (some (b.length - p)) ∧ SlotAt b p s

theorem find_locs {R : Slot → Nat → Prop} {slots : List (Nat × Slot)} {locs : List (Nat × Nat)}
    (h : List.Forall₂ (fun (s : Nat × Slot) (l : Nat × Nat) => s.1 = l.1 ∧ R s.2 l.2) slots locs) (voff : Nat) :
    (lookupSlot slots voff = none ∧ locs.find? (fun l => l.1 = voff) = none) ∨
      ∃ s l, lookupSlot slots voff = some s ∧ locs.find? (fun l => l.1 = voff) = some l ∧ R s l.2 := by
  induction h with
  | nil => exact Or.inl ⟨rfl, rfl⟩
  | @cons s l ss ls hsl _ ih =>
    by_cases hv : s.1 = voff
    · have hl : l.1 = voff := hsl.1 ▸ hv
      refine Or.inr ⟨s.2, l, ?_, ?_, hsl.2⟩
      · simp [lookupSlot, hv]
      · simp [hl]
    · have hl : l.1 ≠ voff := hsl.1 ▸ hv
      simpa [lookupSlot, hv, hl] using ih

theorem keys_eq {R : Slot → Nat → Prop} {slots : List (Nat × Slot)} {locs : List (Nat × Nat)}
    (h : List.Forall₂ (fun (s : Nat × Slot) (l : Nat × Nat) => s.1 = l.1 ∧ R s.2 l.2) slots locs) :
    locs.map Prod.fst = slots.map Prod.fst := by
  induction h with
  | nil => rfl
  | cons hsl _ ih => simp [hsl.1, ih]

/-- The fields have proper places in the vtable. -/
def Places (vs : List Nat) : Prop := ∀ v ∈ vs, 4 ≤ v ∧ v % 2 = 0 ∧ v ≤ 100

theorem vtableLen_ok {locs : List (Nat × Nat)} (h : Places (locs.map Prod.fst)) :
    4 ≤ vtableLen locs ∧ vtableLen locs % 2 = 0 ∧ vtableLen locs ≤ 102 ∧
      ∀ v ∈ locs.map Prod.fst, v < vtableLen locs := by
  unfold vtableLen
  cases hm : (locs.map Prod.fst).max? with
  | none =>
    rw [List.max?_eq_none_iff] at hm
    simp [hm]
  | some m =>
    have hmem := List.max?_mem hm
    have := h m hmem
    refine ⟨by simp only; omega, by simp only; omega, by simp only; omega, ?_⟩
    intro v hv
    have h2 : v ≤ m := (List.max?_le_iff hm).1 (Nat.le_refl _) v hv
    simp only
    omega

theorem flat_length {α : Type} (l : List α) (f : α → Bytes) (h : ∀ x, (f x).length = 2) : (l.flatMap f).length = 2 * l.length := by
  induction l with
  | nil => rfl
  | cons x xs ih => simp [h, ih]; omega

theorem flat_get {α : Type} (f : α → Bytes) (h : ∀ x, (f x).length = 2) (l : List α) (i : Nat) (x : α) (hx : l[i]? = some x) :
    ((l.flatMap f).drop (2 * i)).take 2 = f x := by
  induction l generalizing i with
  | nil => simp at hx
  | cons y ys ih =>
    cases i with
    | zero =>
      simp only [List.getElem?_cons_zero, Option.some.injEq] at hx
      subst hx
      simp only [Nat.mul_zero, List.drop_zero, List.flatMap_cons]
      rw [List.take_append_of_le_length (by rw [h]; exact Nat.le_refl _), List.take_of_length_le (by rw [h]; exact Nat.le_refl _)]
    | succ i =>
      simp only [List.getElem?_cons_succ] at hx
      rw [List.flatMap_cons, show 2 * (i + 1) = (f y).length + 2 * i by rw [h]; omega, List.drop_append]
      rw [List.drop_eq_nil_of_le (by omega), List.nil_append, Nat.add_sub_cancel_left]
      exact ih i hx

theorem vt_length {r start : Nat} {locs : List (Nat × Nat)} (h : Places (locs.map Prod.fst)) :
    (vtableBytes r start locs).length = vtableLen locs := by
  obtain ⟨h1, h2, _, _⟩ := vtableLen_ok h
  unfold vtableBytes
  rw [List.length_append, List.length_append, le_length, le_length, flat_length _ _ (fun i => le_length 2 _), List.length_range]
  omega

theorem vt_head {r start : Nat} {locs : List (Nat × Nat)} : (vtableBytes r start locs).take 2 = le 2 (vtableLen locs) := by
  unfold vtableBytes
  rw [List.append_assoc, List.take_append_of_le_length (by rw [le_length]; exact Nat.le_refl _),
    List.take_of_length_le (by rw [le_length]; exact Nat.le_refl _)]

theorem vt_entry {r start : Nat} {locs : List (Nat × Nat)} (h : Places (locs.map Prod.fst)) {voff : Nat} (h4 : 4 ≤ voff)
    (h2 : voff % 2 = 0) (hl : voff < vtableLen locs) :
    ((vtableBytes r start locs).drop voff).take 2 = le 2 (vtableEntry r locs voff) := by
  obtain ⟨g1, g2, _, _⟩ := vtableLen_ok h
  have hv : voff = (le 2 (vtableLen locs) ++ le 2 (r - start)).length + 2 * ((voff - 4) / 2) := by
    rw [List.length_append, le_length, le_length]; omega
  unfold vtableBytes
  rw [show List.drop voff = List.drop ((le 2 (vtableLen locs) ++ le 2 (r - start)).length + 2 * ((voff - 4) / 2)) from congrArg _ hv,
    List.drop_append, List.drop_eq_nil_of_le (by omega), List.nil_append, Nat.add_sub_cancel_left]
  have hi : (voff - 4) / 2 < (vtableLen locs - 4) / 2 := by omega
  have hg : (List.range ((vtableLen locs - 4) / 2))[(voff - 4) / 2]? = some ((voff - 4) / 2) := by
    rw [List.getElem?_range hi]
  have := flat_get (fun i => le 2 (vtableEntry r locs (4 + 2 * i))) (fun i => le_length 2 _) _ _ _ hg
  rw [this]
  congr 2
  omega

theorem take_of_prefix {l vt : Bytes} (h : l.take vt.length = vt) {j n : Nat} (hj : j + n ≤ vt.length) :
    (l.drop j).take n = (vt.drop j).take n := by
  have := congrArg (fun x => (x.drop j).take n) h
  simp only [List.drop_take, List.take_take] at this
  rw [show min n (vt.length - j) = n by omega] at this
  exact this

/-- A table that leads to a vtable is read. -/
theorem rdTable_of {b : Bytes} {r v start : Nat} {locs : List (Nat × Nat)} (hp : Places (locs.map Prod.fst))
    (hr : r ≤ b.length) (hr4 : 4 ≤ r) (hv : v ≤ b.length) (ha : 4 ∣ b.length) (har : 4 ∣ r) (hav : 2 ∣ v) (hs : b.length < 2 ^ 31)
    (hne : v ≠ r)
    (hso : (suf b r).take 4 = soffset v r) (hvt : (suf b v).take (vtableBytes r start locs).length = vtableBytes r start locs)
    (hvl : vtableLen locs ≤ v) :
    rdTable b (b.length - r) = some ⟨b.length - r, b.length - v, vtableLen locs⟩ ∧
      ∀ voff, 4 ≤ voff → voff % 2 = 0 →
        Tab.field b ⟨b.length - r, b.length - v, vtableLen locs⟩ voff =
          some (if vtableEntry r locs voff % 65536 = 0 then none else some (b.length - r + vtableEntry r locs voff % 65536)) := by
  obtain ⟨g1, g2, g3, g4⟩ := vtableLen_ok hp
  have hlen := vt_length (r := r) (start := start) hp
  have h2b : 2 ∣ b.length := Nat.dvd_trans (by decide) ha
  have hrd1 : rd b 4 (b.length - r) = some ((v + 2 ^ 32 - r) % 256 ^ 4) := rd_some b 4 r _ hr hr4 ha har hso
  have hd : derefSoffset b (b.length - r) ((v + 2 ^ 32 - r) % 256 ^ 4) = some (b.length - v) := by
    unfold derefSoffset
    by_cases hlt : r < v
    · have e : (v + 2 ^ 32 - r) % 256 ^ 4 = v - r := by
        rw [show v + 2 ^ 32 - r = v - r + 2 ^ 32 by omega, show (256 : Nat) ^ 4 = 2 ^ 32 from rfl, Nat.add_mod_right,
          Nat.mod_eq_of_lt (by omega)]
      rw [e, if_pos (by omega), if_pos (by omega), if_pos (by omega)]
      congr 1
      omega
    · have e : (v + 2 ^ 32 - r) % 256 ^ 4 = 2 ^ 32 - (r - v) := by
        rw [show (256 : Nat) ^ 4 = 2 ^ 32 from rfl, Nat.mod_eq_of_lt (by omega)]
        omega
      rw [e, if_neg (by omega), show 2 ^ 32 - (2 ^ 32 - (r - v)) = r - v by omega, if_pos (by omega)]
      congr 1
      omega
  have hpre : (suf b v).take 2 = le 2 (vtableLen locs) := by
    have := take_of_prefix hvt (j := 0) (n := 2) (by omega)
    simpa [vt_head] using this
  have hrd2 : rd b 2 (b.length - v) = some (vtableLen locs) := by
    rw [rd_some b 2 v _ hv (by omega) h2b hav hpre, Nat.mod_eq_of_lt (by omega)]
  refine ⟨?_, ?_⟩
  · unfold rdTable
    rw [hrd1, Option.bind_some, hd, Option.bind_some, hrd2, Option.bind_some, if_pos]
    have := Nat.mod_eq_zero_of_dvd (Nat.dvd_sub h2b hav)
    omega
  · intro voff h4 h2
    unfold Tab.field
    simp only
    by_cases hl : voff < vtableLen locs
    · rw [if_pos hl]
      have e : b.length - v + voff = b.length - (v - voff) := by omega
      have hsuf : (suf b (v - voff)).take 2 = le 2 (vtableEntry r locs voff) := by
        rw [suf_drop b v voff hv (by omega), take_of_prefix hvt (by omega), vt_entry hp h4 h2 hl]
      rw [e, rd_some b 2 (v - voff) _ (by omega) (by omega) h2b ((Nat.dvd_sub hav (Nat.dvd_of_mod_eq_zero h2))) hsuf]
      rfl
    · rw [if_neg hl]
      have : vtableEntry r locs voff = 0 := by
        unfold vtableEntry
        cases hf : locs.find? fun l => decide (l.1 = voff) with
        | none => rfl
        | some l =>
          exfalso
          have m := List.mem_of_find?_eq_some hf
          have k := List.find?_some hf
          have := g4 l.1 (List.mem_map_of_mem m)
          simp only [decide_eq_true_eq] at k
          omega
      rw [this]
      rfl

theorem createTable_some {f : Fbb} {slots : List (Nat × Slot)} (hok : ∀ s ∈ slots, s.2.Ok)
    (h : ∀ voff t, (voff, Slot.off t) ∈ slots → t ≤ f.buf.length) :
    ∃ e, f.createTable slots = some e := by
  obtain ⟨e, he⟩ := pushSlots_some hok h
  exact ⟨_, by unfold Fbb.createTable; rw [he]; rfl⟩

theorem soffset_length (v r : Nat) : (soffset v r).length = 4 := le_length _ _

theorem take_front (s rest : Bytes) (r n : Nat) (hn : s.length = n) (hr : r = n + rest.length) : (suf (s ++ rest) r).take n = s := by
  have : r = (s ++ rest).length := by rw [List.length_append, hn, hr]
  subst this
  rw [suf_self, List.take_append_of_le_length (by omega), List.take_of_length_le (by omega)]

/-- What a created table is. -/
structure TableSpec (f g : Fbb) (r : Nat) (slots : List (Nat × Slot)) : Prop where
  ext : Ext f g
  inv : Inv g
  inside : r ≤ g.buf.length
  after : f.buf.length < r
  aligned : 4 ∣ r
  size : g.buf.length ≤ f.buf.length + 15 * slots.length + 109
  reads : ∀ b, Good b g → ∃ t, rdTable b (b.length - r) = some t ∧
    ∀ voff, 4 ≤ voff → voff % 2 = 0 → FieldIs b t voff (lookupSlot slots voff)

theorem createTable_spec {f g : Fbb} {r : Nat} {slots : List (Nat × Slot)} (hi : Inv f) (hok : ∀ s ∈ slots, s.2.Ok)
    (hpl : Places (slots.map Prod.fst)) (hn : slots.length ≤ 100) (h : f.createTable slots = some (g, r)) : TableSpec f g r slots := by
  unfold Fbb.createTable at h
  cases hs : f.pushSlots slots with
  | none => rw [hs] at h; cases h
  | some e =>
    obtain ⟨p, locs⟩ := e
    rw [hs] at h
    simp only [Option.map_some, Option.some.injEq] at h
    obtain ⟨e1, v1, u1, r1, a1⟩ := pushSlots_spec hok hs
    generalize hA : p.align 4 4 = a at h
    have eA : Ext p a := hA ▸ ext_align _ _ _ width4
    have lA : a.buf.length ≤ p.buf.length + 3 := by
      rw [← hA, align_length]
      have := padding_lt (p.buf.length + 4) 4 (by omega)
      omega
    have dA : 4 ∣ a.buf.length + 4 := by
      rw [← hA, align_length]
      have := padding_dvd (p.buf.length + 4) 4 (by omega)
      rwa [Nat.add_assoc]
    have mA : 4 ≤ a.minAlign := hA ▸ Nat.le_max_right _ _
    have vA : a.vtables = f.vtables := by rw [← hA, ← v1]; rfl
    have eF : Ext f a := e1.trans eA
    have iA : Inv a := inv_ext hi eF vA
    have hpl' : Places (locs.map Prod.fst) := by
      rw [keys_eq (R := fun s l => ∀ b, Good b p → SlotAt b l s) a1]; exact hpl
    obtain ⟨g1, g2, g3, g4⟩ := vtableLen_ok hpl'
    have hlen := vt_length (r := a.buf.length + 4) (start := f.buf.length) hpl'
    have hfr : f.buf.length < a.buf.length + 4 := by have := eF.le; omega
    -- how a finished buffer is read
    have main : ∀ (v : Nat) (b : Bytes), Good b g → Ext a g → r = a.buf.length + 4 → r ≤ g.buf.length → v ≤ g.buf.length → 2 ∣ v → v ≠ r →
        (suf g.buf r).take 4 = soffset v r →
        (suf g.buf v).take (vtableBytes r f.buf.length locs).length = vtableBytes r f.buf.length locs →
        ∃ t, rdTable b (b.length - r) = some t ∧ ∀ voff, 4 ≤ voff → voff % 2 = 0 → FieldIs b t voff (lookupSlot slots voff) := by
      intro v b hb eg hr hrg hvg hv2 hne hso hvt
      have hlen' : (vtableBytes r f.buf.length locs).length = vtableLen locs := by rw [hr]; exact hlen
      have hbl := hb.le
      have hvl : vtableLen locs ≤ v := by
        have := congrArg List.length hvt
        rw [List.length_take, suf_length _ _ hvg] at this
        omega
      obtain ⟨t1, t2⟩ := rdTable_of (b := b) (r := r) (v := v) (start := f.buf.length) hpl' (by omega) (by omega) (by omega)
        (hb.aligned 4 width4 (Nat.le_trans mA eg.align)) (hr ▸ dA) hv2 hb.small hne
        (by rw [hb.suf r hrg]; exact hso) (by rw [hb.suf v hvg]; exact hvt) hvl
      refine ⟨_, t1, ?_⟩
      intro voff h4 h2
      have hf := t2 voff h4 h2
      rcases find_locs (R := fun s l => ∀ b, Good b p → SlotAt b l s) a1 voff with ⟨ha, hb'⟩ | ⟨s, l, ha, hb', hc⟩
      · rw [ha]
        show Tab.field _ _ _ = _
        rw [hf, vtableEntry, hb']
        rfl
      · rw [ha]
        have hm := List.mem_of_find?_eq_some hb'
        have hl := r1 l hm
        have hle := eA.le
        have he : vtableEntry r locs voff = r - l.2 := by rw [vtableEntry, hb']
        refine ⟨l.2, by omega, ?_, hc b (hb.mono (eA.trans eg))⟩
        have hrl : (r - l.2) % 65536 = r - l.2 := Nat.mod_eq_of_lt (by omega)
        rw [hf, he, hrl, if_neg (by omega)]
        congr 2
        omega
    cases hfind : a.vtables.find? fun v => decide (vtableAt a.buf v = vtableBytes (a.buf.length + 4) f.buf.length locs) with
    | some v =>
      rw [hfind] at h
      simp only [Prod.mk.injEq] at h
      obtain ⟨h1, h2⟩ := h
      have eg : Ext a g := h1 ▸ ext_raw _ _
      have hgb : g.buf = soffset v r ++ a.buf := by rw [← h1, ← h2]; rfl
      have hgl : g.buf.length = 4 + a.buf.length := by rw [hgb, List.length_append, soffset_length]
      have hm := iA v (List.mem_of_find?_eq_some hfind)
      have hk := List.find?_some hfind
      simp only [decide_eq_true_eq] at hk
      have hvt : vtableAt g.buf v = vtableBytes r f.buf.length locs := by
        rw [← h2, ← hk]
        unfold vtableAt
        rw [hgb, suf_append _ _ _ hm.1]
      refine ⟨eF.trans eg, inv_ext iA eg (h1 ▸ rfl), by omega, by omega, h2 ▸ dA, by omega, fun b hb => ?_⟩
      refine main v b hb eg h2.symm (by omega) (by omega) hm.2 (by omega) ?_ ?_
      · rw [hgb]
        exact take_front _ _ _ _ (soffset_length _ _) (by omega)
      · unfold vtableAt at hvt
        rw [← hvt, List.length_take]
        generalize hL : ofLe (List.take 2 (suf g.buf v)) = L
        rw [List.take_eq_take_min, Nat.min_assoc, Nat.min_self, ← List.take_eq_take_min]
    | none =>
      rw [hfind] at h
      simp only [Prod.mk.injEq] at h
      obtain ⟨h1, h2⟩ := h
      have hgb : g.buf = vtableBytes r f.buf.length locs ++ (soffset (r + vtableLen locs) r ++ a.buf) := by
        rw [← h1, ← h2, hlen]
      have hlen' : (vtableBytes r f.buf.length locs).length = vtableLen locs := by rw [← h2]; exact hlen
      have hgl : g.buf.length = vtableLen locs + (4 + a.buf.length) := by
        rw [hgb, List.length_append, List.length_append, soffset_length, hlen']
      have eg : Ext a g := ⟨⟨vtableBytes r f.buf.length locs ++ soffset (r + vtableLen locs) r, by rw [hgb, List.append_assoc]⟩, h1 ▸ Nat.le_refl _,
        h1 ▸ fun h => h⟩
      have hvts : g.vtables = (r + vtableLen locs) :: a.vtables := by rw [← h1, ← h2, hlen]
      have d2 : 2 ∣ r := Nat.dvd_trans (by decide) (h2 ▸ dA)
      refine ⟨eF.trans eg, ?_, by omega, by omega, h2 ▸ dA, by omega, fun b hb => ?_⟩
      · intro v m
        rw [hvts] at m
        rcases List.mem_cons.1 m with rfl | m
        · exact ⟨by omega, by omega⟩
        · exact ⟨Nat.le_trans (iA v m).1 eg.le, (iA v m).2⟩
      · refine main (r + vtableLen locs) b hb eg h2.symm (by omega) (by omega) (by omega) (by omega) ?_ ?_
        · rw [hgb, suf_append _ _ _ (by rw [List.length_append, soffset_length]; omega)]
          exact take_front _ _ _ _ (soffset_length _ _) (by omega)
        · rw [show r + vtableLen locs = g.buf.length by omega, suf_self, hgb,
            List.take_append_of_le_length (Nat.le_refl _), List.take_of_length_le (Nat.le_refl _)]

theorem scalar_none {b : Bytes} {t : Tab} {voff n : Nat} (h : FieldIs b t voff none) : t.scalar b voff n = some 0 := by
  have h' : t.field b voff = some none := h
  rw [Tab.scalar, h']; rfl

theorem scalar_some {b : Bytes} {t : Tab} {voff n x : Nat} (h : FieldIs b t voff (some (.scalar n x))) :
    t.scalar b voff n = some (x % 256 ^ n) := by
  obtain ⟨p, _, h1, h2⟩ := h
  rw [Tab.scalar, h1]; exact h2

theorem offset_some {α : Type} {b : Bytes} {t : Tab} {voff u : Nat} {k : Nat → Option α} (h : FieldIs b t voff (some (.off u))) :
    t.offset b voff k = (k (b.length - u)).map some := by
  obtain ⟨p, hp, h1, h2, h3⟩ := h
  rw [Tab.offset, h1, Option.bind_some]
  simp only
  rw [follow_at h2 hp h3]

theorem scalarSlot_reads {b : Bytes} {t : Tab} {voff n x : Nat} (hx : x < 256 ^ n)
    (h : FieldIs b t voff (lookupSlot (scalarSlot voff n x) voff)) : t.scalar b voff n = some x := by
  unfold scalarSlot at h
  by_cases h0 : x = 0
  · rw [if_pos h0] at h
    rw [scalar_none h, h0]
  · rw [if_neg h0] at h
    have : lookupSlot [(voff, Slot.scalar n x)] voff = some (.scalar n x) := by simp [lookupSlot]
    rw [this] at h
    rw [scalar_some h, Nat.mod_eq_of_lt hx]

end Verif.Fb
