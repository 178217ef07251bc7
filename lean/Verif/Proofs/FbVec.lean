import Verif.Proofs.FbTable
/-!
# Strings and vectors
-/
namespace Verif.Fb
open Verif

/-- Something that is read as `v` by `read` was written at `r`. -/
structure Stored {α : Type} (f : Fbb) (r : Nat) (read : Bytes → Nat → Option α) (v : α) : Prop where
  inside : r ≤ f.buf.length
  aligned : 4 ∣ r
  reads : ∀ b, Good b f → read b (b.length - r) = some v

theorem Stored.mono {α : Type} {f g : Fbb} {r : Nat} {read : Bytes → Nat → Option α} {v : α} (h : Stored f r read v) (e : Ext f g) :
    Stored g r read v := ⟨Nat.le_trans h.inside e.le, h.aligned, fun b hb => h.reads b (hb.mono e)⟩

theorem padding_zero {s a : Nat} (h : a ∣ s) : padding s a = 0 := by
  unfold padding
  rw [Nat.mod_eq_zero_of_dvd h, Nat.sub_zero, Nat.mod_self]

theorem padding_one (s : Nat) : padding s 1 = 0 := Nat.mod_one _

theorem push_exact (f : Fbb) (n x : Nat) (h : n ∣ f.buf.length) : (f.push n x).buf = le n x ++ f.buf := by
  unfold Fbb.push Fbb.raw Fbb.align
  rw [padding_zero (Nat.dvd_add h (Nat.dvd_refl _))]
  rfl

theorem strBytes_ok (s : String) : String.fromUTF8? ⟨(strBytes s).toArray⟩ = some s := by
  unfold String.fromUTF8? strBytes
  have e : (⟨s.toByteArray.data.toList.toArray⟩ : ByteArray) = s.toByteArray := by simp
  rw [e, dif_pos s.isValidUTF8]
  rfl

theorem inv_vt {f g : Fbb} (h : Inv f) (e : Ext f g) (hv : g.vtables = f.vtables) : Inv g := inv_ext h e hv

theorem createString_buf (f : Fbb) (s : String) :
    (f.createString s).1.buf = le 4 (strBytes s).length ++ (strBytes s ++ (0 :: (f.align ((strBytes s).length + 1) 4).buf)) := by
  unfold Fbb.createString
  simp only
  have hA : 4 ∣ (f.align ((strBytes s).length + 1) 4).buf.length + 1 + (strBytes s).length := by
    rw [align_length]
    have := padding_dvd (f.buf.length + ((strBytes s).length + 1)) 4 (by omega)
    rwa [show padding (f.buf.length + ((strBytes s).length + 1)) 4 + f.buf.length + 1 + (strBytes s).length =
      padding (f.buf.length + ((strBytes s).length + 1)) 4 + (f.buf.length + ((strBytes s).length + 1)) by omega]
  generalize f.align ((strBytes s).length + 1) 4 = A at hA
  have h1 : (A.push 1 0).buf = 0 :: A.buf := push_exact A 1 0 (Nat.one_dvd _)
  rw [push_exact]
  · simp only [Fbb.raw, h1]
  · simp only [Fbb.raw, h1, List.length_append, List.length_cons]
    rwa [show (strBytes s).length + (A.buf.length + 1) = A.buf.length + 1 + (strBytes s).length by omega]

theorem createString_spec {f g : Fbb} {r : Nat} {s : String} (hi : Inv f) (h : f.createString s = (g, r)) :
    Ext f g ∧ Inv g ∧ Stored g r rdString s := by
  have hb := createString_buf f s
  have e : Ext f g := by
    have : g = (f.createString s).1 := by rw [h]
    rw [this]
    exact (((ext_align _ _ _ width4).trans (ext_push _ _ _ (Or.inl rfl))).trans (ext_raw _ _)).trans (ext_push _ _ _ width4)
  have hg : g = (((f.align ((strBytes s).length + 1) 4).push 1 0).raw (strBytes s)).push 4 (strBytes s).length := by
    have : g = (f.createString s).1 := by rw [h]
    rw [this]; rfl
  have hr : r = g.buf.length := by
    have h1 : g = (f.createString s).1 := by rw [h]
    have h2 : r = (f.createString s).2 := by rw [h]
    rw [h1, h2]; rfl
  rw [h] at hb
  simp only at hb
  have hvt : g.vtables = f.vtables := by rw [hg]; rfl
  refine ⟨e, inv_ext hi e hvt, by omega, ?_, ?_⟩
  · rw [hr, hg]; exact push_dvd _ 4 _ (by omega)
  · intro b good
    have hlen : g.buf.length = 4 + ((strBytes s).length + (1 + (f.align ((strBytes s).length + 1) 4).buf.length)) := by
      rw [hb]; simp only [List.length_append, le_length, List.length_cons]; omega
    have hle := good.le
    have hsm := good.small
    have h1 : rd b 4 (b.length - r) = some (strBytes s).length := by
      rw [hr]
      have good' := good
      rw [hg] at good'
      have := rd_push width4 good'
      rw [← hg] at this
      rw [this, Nat.mod_eq_of_lt]
      omega
    have h2 : b.drop (b.length - r + 4) = strBytes s ++ (0 :: (f.align ((strBytes s).length + 1) 4).buf) := by
      have : b.drop (b.length - r + 4) = suf b (r - 4) := by unfold suf; congr 1; omega
      rw [this, good.suf _ (by omega), suf_drop _ _ _ (by omega) (by omega), hr, suf_self, hb, List.drop_append,
        List.drop_eq_nil_of_le (by rw [le_length]; exact Nat.le_refl _), List.nil_append, le_length]
      rfl
    unfold rdString
    rw [h1, Option.bind_some, if_pos]
    · rw [h2, List.take_append_of_le_length (Nat.le_refl _), List.take_of_length_le (Nat.le_refl _), strBytes_ok]
    · refine ⟨by omega, ?_⟩
      rw [← List.getElem?_drop, h2, List.getElem?_append_right (Nat.le_refl _), Nat.sub_self]
      rfl

/-- Read every place. -/
def mapO {α : Type} (k : Nat → Option α) : List Nat → Option (List α)
  | [] => some []
  | t :: ts => (k t).bind fun x => (mapO k ts).map (x :: ·)

theorem pushOffs_spec {ts : List Nat} : ∀ {f g : Fbb}, 4 ∣ f.buf.length → f.pushOffs ts = some g →
    Ext f g ∧ g.vtables = f.vtables ∧ g.buf.length = f.buf.length + 4 * ts.length ∧
      ∀ (α : Type) (b : Bytes) (k : Nat → Option α), Good b g →
        elems (follow b k) 4 (b.length - g.buf.length) ts.length = mapO (fun t => k (b.length - t)) ts := by
  induction ts with
  | nil =>
    intro f g _ h
    simp only [Fbb.pushOffs, Option.some.injEq] at h
    subst h
    exact ⟨Ext.refl _, rfl, by simp, fun _ _ _ _ => rfl⟩
  | cons t ts ih =>
    intro f g hd h
    unfold Fbb.pushOffs at h
    cases h1 : f.pushOffs ts with
    | none => rw [h1] at h; cases h
    | some g1 =>
      rw [h1, Option.bind_some] at h
      obtain ⟨e1, v1, l1, r1⟩ := ih hd h1
      obtain ⟨hg, ht⟩ := pushOff_eq h
      have hl : g.buf.length = 4 + g1.buf.length := by
        have := push_length g1 4 (g.buf.length - t)
        rw [← hg, padding_zero (Nat.dvd_add (l1 ▸ Nat.dvd_add hd (Nat.dvd_mul_right _ _)) (Nat.dvd_refl _)), Nat.zero_add] at this
        exact this
      refine ⟨e1.trans (ext_pushOff h), ?_, ?_, ?_⟩
      · rw [hg]; exact v1
      · simp only [List.length_cons]; omega
      · intro α b k good
        have hle := good.le
        rw [List.length_cons, elems, follow_at (rd_pushOff h good) good.le ht]
        show _ = (k (b.length - t)).bind fun x => (mapO _ ts).map (x :: ·)
        congr 1
        funext x
        rw [show b.length - g.buf.length + 4 = b.length - g1.buf.length by omega, r1 α b k (good.mono (ext_pushOff h))]

theorem pushOffs_some {ts : List Nat} {f : Fbb} (h : ∀ t ∈ ts, t ≤ f.buf.length) : ∃ g, f.pushOffs ts = some g ∧ Ext f g := by
  induction ts with
  | nil => exact ⟨f, rfl, Ext.refl _⟩
  | cons t ts ih =>
    obtain ⟨g, hg, eg⟩ := ih (fun u m => h u (List.mem_cons_of_mem _ m))
    obtain ⟨g2, hg2⟩ := pushOff_some g t (Nat.le_trans (h t (List.mem_cons_self ..)) eg.le)
    exact ⟨g2, by unfold Fbb.pushOffs; rw [hg]; exact hg2, eg.trans (ext_pushOff hg2)⟩

theorem align4_dvd (f : Fbb) (n : Nat) : 4 ∣ (f.align (n * 4) 4).buf.length := by
  rw [align_length]
  have h := padding_dvd (f.buf.length + n * 4) 4 (by omega)
  omega

/-- A vector of offsets is read by following all of them. -/
theorem createVecOff_spec {f g : Fbb} {r : Nat} {ts : List Nat} (hi : Inv f) (h : f.createVecOff ts = some (g, r)) :
    Ext f g ∧ Inv g ∧ r ≤ g.buf.length ∧ 4 ∣ r ∧ g.buf.length ≤ f.buf.length + 4 * ts.length + 7 ∧
      ∀ (α : Type) (b : Bytes) (k : Nat → Option α), Good b g → rdVec b 4 (follow b k) (b.length - r) = mapO (fun t => k (b.length - t)) ts := by
  unfold Fbb.createVecOff at h
  have eA := ext_align f (ts.length * 4) 4 width4
  have lA := align_length f (ts.length * 4) 4
  have pA := padding_lt (f.buf.length + ts.length * 4) 4 (by omega)
  have dA := align4_dvd f ts.length
  have vA : (f.align (ts.length * 4) 4).vtables = f.vtables := rfl
  generalize f.align (ts.length * 4) 4 = a at h eA lA dA vA
  cases h1 : a.pushOffs ts with
  | none => rw [h1] at h; cases h
  | some g1 =>
    rw [h1, Option.map_some, Option.some.injEq, Prod.mk.injEq] at h
    obtain ⟨hg, hr⟩ := h
    obtain ⟨e1, v1, l1, r1⟩ := pushOffs_spec dA h1
    have d1 : 4 ∣ g1.buf.length := l1 ▸ Nat.dvd_add dA (Nat.dvd_mul_right _ _)
    have hgl : g.buf.length = 4 + g1.buf.length := by rw [← hg, push_exact _ _ _ d1, List.length_append, le_length]
    have e2 : Ext g1 g := hg ▸ ext_push _ _ _ width4
    have hrg : r = g.buf.length := by rw [← hr, hg]
    have e : Ext f g := (eA.trans e1).trans e2
    refine ⟨e, inv_ext hi e ?_, by omega, by omega, by omega, ?_⟩
    · rw [← hg]; exact v1.trans vA
    · intro α b k good
      have hle := good.le
      have hsm := good.small
      have hrd : rd b 4 (b.length - r) = some ts.length := by
        rw [hrg]
        have good' := good
        rw [← hg] at good'
        have := rd_push width4 good'
        rw [hg] at this
        rw [this, Nat.mod_eq_of_lt]
        omega
      unfold rdVec
      rw [hrd, Option.bind_some, if_pos, show b.length - r + 4 = b.length - g1.buf.length by omega]
      · exact r1 α b k (good.mono e2)
      · have h4 : 4 ∣ b.length := good.aligned 4 width4 (by rw [← hg]; exact Nat.le_max_right _ _)
        omega

theorem createVecOff_some {f : Fbb} {ts : List Nat} (h : ∀ t ∈ ts, t ≤ f.buf.length) : ∃ e, f.createVecOff ts = some e := by
  obtain ⟨g, hg, _⟩ := pushOffs_some (f := f.align (ts.length * 4) 4) (fun t m => Nat.le_trans (h t m) (ext_align _ _ _ width4).le)
  exact ⟨_, by unfold Fbb.createVecOff; rw [hg]; rfl⟩

/-- If everything the offsets point to is readable, so is the vector. -/
theorem mapO_forall {α : Type} {ts : List Nat} {vs : List α} {k : Nat → Option α} (h : List.Forall₂ (fun t v => k t = some v) ts vs) :
    mapO k ts = some vs := by
  induction h with
  | nil => rfl
  | cons h1 _ ih => rw [mapO, h1, Option.bind_some, ih]; rfl

/-- A vector of offsets of things that were written reads as their list. -/
theorem storedVec {α : Type} {f g : Fbb} {r : Nat} {ts : List Nat} {read : Bytes → Nat → Option α} {vs : List α} (hi : Inv f)
    (hs : List.Forall₂ (fun t v => Stored f t read v) ts vs) (h : f.createVecOff ts = some (g, r)) :
    Ext f g ∧ Inv g ∧ Stored g r (fun b => rdVec b 4 (follow b (read b))) vs := by
  obtain ⟨e, i, h1, h2, _, h3⟩ := createVecOff_spec hi h
  refine ⟨e, i, h1, h2, fun b good => ?_⟩
  rw [h3 α b (read b) good]
  apply mapO_forall
  exact hs.imp fun t v st => st.reads b (good.mono e)

theorem stored_inside {α : Type} {f : Fbb} {ts : List Nat} {read : Bytes → Nat → Option α} {vs : List α}
    (hs : List.Forall₂ (fun t v => Stored f t read v) ts vs) : ∀ t ∈ ts, t ≤ f.buf.length := by
  induction hs with
  | nil => intro t m; cases m
  | cons h1 _ ih =>
    intro t m
    rcases List.mem_cons.1 m with rfl | m
    · exact h1.inside
    · exact ih t m

theorem pushBytes_spec (xs : List Nat) (f : Fbb) : Ext f (f.pushBytes xs) ∧ (f.pushBytes xs).vtables = f.vtables ∧
    (f.pushBytes xs).buf.length = f.buf.length + xs.length ∧
      ∀ (α : Type) (b : Bytes) (k : Nat → α), (∀ x ∈ xs, x < 256) → Good b (f.pushBytes xs) →
        elems (fun q => (rd b 1 q).map k) 1 (b.length - (f.pushBytes xs).buf.length) xs.length = some (xs.map k) := by
  induction xs with
  | nil => exact ⟨Ext.refl _, rfl, rfl, fun _ _ _ _ _ => rfl⟩
  | cons x xs ih =>
    obtain ⟨e1, v1, l1, r1⟩ := ih
    have hb : ((f.pushBytes xs).push 1 x).buf = le 1 x ++ (f.pushBytes xs).buf := push_exact _ 1 x (Nat.one_dvd _)
    have hl : ((f.pushBytes xs).push 1 x).buf.length = 1 + (f.pushBytes xs).buf.length := by
      rw [hb, List.length_append, le_length]
    refine ⟨e1.trans (ext_push _ _ _ (Or.inl rfl)), v1, ?_, ?_⟩
    · show ((f.pushBytes xs).push 1 x).buf.length = _
      rw [hl, List.length_cons]; omega
    · intro α b k hx good
      have good' : Good b ((f.pushBytes xs).push 1 x) := good
      have hle := good'.le
      show elems _ 1 (b.length - ((f.pushBytes xs).push 1 x).buf.length) (xs.length + 1) = _
      rw [elems, rd_push (Or.inl rfl) good', Nat.mod_eq_of_lt (by have := hx x (List.mem_cons_self ..); omega)]
      rw [show b.length - ((f.pushBytes xs).push 1 x).buf.length + 1 = b.length - (f.pushBytes xs).buf.length by omega]
      rw [r1 α b k (fun y m => hx y (List.mem_cons_of_mem _ m)) (good'.mono (ext_push _ _ _ (Or.inl rfl)))]
      rfl

/-- A vector of one-byte numbers reads as their list. -/
theorem createVecBytes_spec {α : Type} {f g : Fbb} {r : Nat} {xs : List Nat} (k : Nat → α) (hi : Inv f) (hx : ∀ x ∈ xs, x < 256)
    (h : f.createVecBytes xs = (g, r)) :
    Ext f g ∧ Inv g ∧ Stored g r (fun b => rdVec b 1 (fun q => (rd b 1 q).map k)) (xs.map k) := by
  have hg : g = ((f.align (xs.length * 1) 4).pushBytes xs).push 4 xs.length := by
    have : g = (f.createVecBytes xs).1 := by rw [h]
    rw [this]; rfl
  have hr : r = g.buf.length := by
    have h1 : g = (f.createVecBytes xs).1 := by rw [h]
    have h2 : r = (f.createVecBytes xs).2 := by rw [h]
    rw [h1, h2]; rfl
  have eA := ext_align f (xs.length * 1) 4 width4
  have dA : 4 ∣ (f.align (xs.length * 1) 4).buf.length + xs.length := by
    rw [align_length]
    have h := padding_dvd (f.buf.length + xs.length * 1) 4 (by omega)
    omega
  have vA : (f.align (xs.length * 1) 4).vtables = f.vtables := rfl
  generalize f.align (xs.length * 1) 4 = a at hg eA dA vA
  obtain ⟨e1, v1, l1, r1⟩ := pushBytes_spec xs a
  have e2 : Ext (a.pushBytes xs) g := hg ▸ ext_push _ _ _ width4
  have d1 : 4 ∣ (a.pushBytes xs).buf.length := l1 ▸ dA
  have hgl : g.buf.length = 4 + (a.pushBytes xs).buf.length := by rw [hg, push_exact _ _ _ d1, List.length_append, le_length]
  have e : Ext f g := (eA.trans e1).trans e2
  refine ⟨e, inv_ext hi e ?_, by omega, by omega, fun b good => ?_⟩
  · rw [hg]; exact v1.trans vA
  · have hle := good.le
    have hsm := good.small
    have hrd : rd b 4 (b.length - r) = some xs.length := by
      rw [hr]
      have good' := good
      rw [hg] at good'
      have := rd_push width4 good'
      rw [← hg] at this
      rw [this, Nat.mod_eq_of_lt]
      omega
    show rdVec b 1 _ _ = _
    unfold rdVec
    rw [hrd, Option.bind_some, if_pos, show b.length - r + 4 = b.length - (a.pushBytes xs).buf.length by omega]
    · exact r1 α b k hx (good.mono e2)
    · exact ⟨Nat.mod_one _, by omega⟩

theorem createStrings_spec (ss : List String) : ∀ {f g : Fbb} {rs : List Nat}, Inv f → f.createStrings ss = (g, rs) →
    Ext f g ∧ Inv g ∧ List.Forall₂ (fun t v => Stored g t rdString v) rs ss := by
  induction ss with
  | nil =>
    intro f g rs hi h
    simp only [Fbb.createStrings, Prod.mk.injEq] at h
    obtain ⟨rfl, rfl⟩ := h
    exact ⟨Ext.refl _, hi, List.Forall₂.nil⟩
  | cons s ss ih =>
    intro f g rs hi h
    unfold Fbb.createStrings at h
    cases h1 : f.createString s with
    | mk g1 r1 =>
      cases h2 : g1.createStrings ss with
      | mk g2 r2 =>
        simp only [h1, h2, Prod.mk.injEq] at h
        obtain ⟨rfl, rfl⟩ := h
        obtain ⟨e1, i1, s1⟩ := createString_spec hi h1
        obtain ⟨e2, i2, s2⟩ := ih i1 h2
        exact ⟨e1.trans e2, i2, List.Forall₂.cons (s1.mono e2) s2⟩

end Verif.Fb
