import Verif.Proofs.FbVec
/-!
# The tables of the schema
-/
namespace Verif.Fb
open Verif

/-- The outcome of writing something that is read as `v` by `read`. -/
structure Wrote {α : Type} (f : Fbb) (res : Option (Fbb × Nat)) (read : Bytes → Nat → Option α) (v : α) : Prop where
  ok : ∃ g r, res = some (g, r) ∧ Ext f g ∧ Inv g ∧ Stored g r read v

theorem wrote_table {α : Type} {f : Fbb} {slots : List (Nat × Slot)} {read : Bytes → Nat → Option α} {v : α} (hi : Inv f)
    (hok : ∀ s ∈ slots, s.2.Ok) (hpl : Places (slots.map Prod.fst)) (hn : slots.length ≤ 100)
    (hoff : ∀ voff t, (voff, Slot.off t) ∈ slots → t ≤ f.buf.length)
    (hread : ∀ (b : Bytes) (t : Tab) (p : Nat), Good b f → rdTable b p = some t →
      (∀ voff, 4 ≤ voff → voff % 2 = 0 → FieldIs b t voff (lookupSlot slots voff)) → read b p = some v) :
    Wrote f (f.createTable slots) read v := by
  obtain ⟨⟨g, r⟩, h⟩ := createTable_some hok hoff
  have sp := createTable_spec hi hok hpl hn h
  refine ⟨g, r, h, sp.ext, sp.inv, sp.inside, sp.aligned, fun b good => ?_⟩
  obtain ⟨t, ht, hf⟩ := sp.reads b good
  exact hread b t _ (good.mono sp.ext) ht hf

theorem scalarSlot_ok {voff n x : Nat} (hw : Width n) : ∀ s ∈ scalarSlot voff n x, s.2.Ok := by
  intro s m
  unfold scalarSlot at m
  split at m
  · cases m
  · simp only [List.mem_singleton] at m
    subst m
    exact hw

theorem scalarSlot_key {voff n x : Nat} : ∀ v ∈ (scalarSlot voff n x).map Prod.fst, v = voff := by
  intro v m
  unfold scalarSlot at m
  split at m
  · cases m
  · simpa using m

theorem scalarSlot_len {voff n x : Nat} : (scalarSlot voff n x).length ≤ 1 := by
  unfold scalarSlot; split <;> simp

theorem scalarSlot_off {voff n x u t : Nat} : (u, Slot.off t) ∉ scalarSlot voff n x := by
  unfold scalarSlot; split <;> simp

theorem lookup_other {voff n x u : Nat} {rest : List (Nat × Slot)} (h : voff ≠ u) :
    lookupSlot (scalarSlot voff n x ++ rest) u = lookupSlot rest u := by
  unfold scalarSlot
  split
  · rfl
  · simp [lookupSlot, h]

theorem lookup_same {voff n x : Nat} {rest : List (Nat × Slot)} (h : ∀ v ∈ rest.map Prod.fst, v ≠ voff) :
    lookupSlot (scalarSlot voff n x ++ rest) voff = lookupSlot (scalarSlot voff n x) voff := by
  unfold scalarSlot
  split
  · have : rest.find? (fun s => decide (s.1 = voff)) = none := by
      rw [List.find?_eq_none]
      intro s m
      simpa using h s.1 (List.mem_map_of_mem m)
    simp [lookupSlot, this]
  · simp [lookupSlot]

theorem bv_lt {n : Nat} (v : BitVec (8 * n)) : v.toNat < 256 ^ n := by
  have := v.isLt
  rwa [Nat.pow_mul] at this

/-- One scalar field. -/
theorem wrote_scalar {f : Fbb} {n x : Nat} (hi : Inv f) (hw : Width n) (hx : x < 256 ^ n) :
    Wrote f (f.createTable (scalarSlot 4 n x)) (fun b => rdScalar b n) x := by
  refine wrote_table hi (scalarSlot_ok hw) ?_ ?_ ?_ ?_
  · intro v m
    rw [scalarSlot_key v m]; decide
  · have := @scalarSlot_len 4 n x; omega
  · intro u t m; exact absurd m scalarSlot_off
  · intro b t p _ ht hf
    show rdScalar b n p = _
    rw [rdScalar, ht, Option.bind_some]
    exact scalarSlot_reads hx (hf 4 (by omega) rfl)

theorem wrote_cdHandle {f : Fbb} (hi : Inv f) (idx : BitVec 16) :
    Wrote f (f.createContractDataHandle idx) (fun b => rdScalar b 2) idx.toNat :=
  wrote_scalar hi (Or.inr (Or.inl rfl)) (bv_lt (n := 2) idx)

theorem wrote_handle32 {f : Fbb} (hi : Inv f) (idx : BitVec 32) :
    Wrote f (f.createHandle32 idx) (fun b => rdScalar b 4) idx.toNat :=
  wrote_scalar hi (Or.inr (Or.inr (Or.inl rfl))) (bv_lt (n := 4) idx)

/-- Two fields with offsets. -/
theorem wrote_two {α β γ : Type} {f : Fbb} {a c : Nat} {ra : Bytes → Nat → Option α} {rc : Bytes → Nat → Option β} {va : α} {vc : β}
    {read : Bytes → Nat → Option γ} {v : γ} (hi : Inv f) (ha : Stored f a ra va) (hc : Stored f c rc vc)
    (hread : ∀ (b : Bytes) (t : Tab) (p : Nat), rdTable b p = some t → t.offset b 4 (ra b) = some (some va) →
      t.offset b 6 (rc b) = some (some vc) → read b p = some v) :
    Wrote f (f.createTable [(6, .off c), (4, .off a)]) read v := by
  refine wrote_table hi ?_ ?_ ?_ ?_ ?_
  · intro s m
    simp only [List.mem_cons, List.not_mem_nil, or_false] at m
    rcases m with rfl | rfl <;> trivial
  · intro v m
    simp only [List.map_cons, List.map_nil, List.mem_cons, List.not_mem_nil, or_false] at m
    rcases m with rfl | rfl <;> decide
  · simp
  · intro u t m
    simp only [List.mem_cons, Prod.mk.injEq, Slot.off.injEq, List.not_mem_nil, or_false] at m
    rcases m with ⟨_, rfl⟩ | ⟨_, rfl⟩
    · exact hc.inside
    · exact ha.inside
  · intro b t p good ht hf
    have h4 := hf 4 (by omega) rfl
    have h6 := hf 6 (by omega) rfl
    refine hread b t p ht ?_ ?_
    · rw [offset_some (u := a) h4, ha.reads b good]; rfl
    · rw [offset_some (u := c) h6, hc.reads b good]; rfl

theorem wrote_contractStates {f : Fbb} {n t : Nat} {names : List String} {ks : List (Option FbKind)} (hi : Inv f)
    (hn : Stored f n (fun b => rdVec b 4 (follow b (rdString b))) names)
    (ht : Stored f t (fun b => rdVec b 1 (fun q => (rd b 1 q).map kindOfNo)) ks) :
    Wrote f (f.createContractStates n t) rdContractStates ⟨some names, some ks⟩ := by
  refine wrote_two hi hn ht ?_
  intro b t p ht h4 h6
  unfold rdContractStates
  rw [ht, Option.bind_some, h4, Option.bind_some, h6]
  rfl

theorem wrote_contract {f : Fbb} {i s : Nat} {id : FbContractId} {sts : FbContractStates} (hi : Inv f)
    (h1 : Stored f i rdContractId id) (h2 : Stored f s rdContractStates sts) :
    Wrote f (f.createContract i s) rdContract ⟨some id, some sts⟩ := by
  refine wrote_two hi h1 h2 ?_
  intro b t p ht h4 h6
  unfold rdContract
  rw [ht, Option.bind_some, h4, Option.bind_some, h6]
  rfl

theorem wrote_object {f : Fbb} {k s : Nat} {idx : Nat} {is : List Nat} (hi : Inv f)
    (h1 : Stored f k (fun b => rdScalar b 2) idx) (h2 : Stored f s (fun b => rdVec b 4 (follow b (rdScalar b 4))) is) :
    Wrote f (f.createObject k s) rdObject ⟨some (BitVec.ofNat 16 idx), some (is.map (BitVec.ofNat 32))⟩ := by
  refine wrote_two hi h1 h2 ?_
  intro b t p ht h4 h6
  unfold rdObject
  rw [ht, Option.bind_some, h4, Option.bind_some, h6]
  rfl

theorem wrote_contractId {f : Fbb} {n : Nat} {s : String} {v : BitVec 16 × BitVec 16 × BitVec 16} (hi : Inv f)
    (hn : Stored f n rdString s) : Wrote f (f.createContractId n v) rdContractId ⟨some s, v⟩ := by
  have w2 : Width 2 := Or.inr (Or.inl rfl)
  refine wrote_table hi ?_ ?_ ?_ ?_ ?_
  · intro x m
    simp only [List.mem_cons, List.mem_append] at m
    rcases m with rfl | (m | m) | m
    · trivial
    all_goals exact scalarSlot_ok w2 _ m
  · intro x m
    simp only [List.map_cons, List.map_append, List.mem_cons, List.mem_append] at m
    rcases m with rfl | (m | m) | m
    · decide
    all_goals rw [scalarSlot_key _ m]; decide
  · have h1 := @scalarSlot_len 10 2 v.2.2.toNat
    have h2 := @scalarSlot_len 8 2 v.2.1.toNat
    have h3 := @scalarSlot_len 6 2 v.1.toNat
    simp only [List.length_cons, List.length_append]
    omega
  · intro u t m
    simp only [List.mem_cons, List.mem_append, Prod.mk.injEq, Slot.off.injEq] at m
    rcases m with ⟨_, rfl⟩ | (m | m) | m
    · exact hn.inside
    all_goals exact absurd m scalarSlot_off
  · intro b t p good ht hf
    have h4 := hf 4 (by omega) rfl
    have h6 := hf 6 (by omega) rfl
    have h8 := hf 8 (by omega) rfl
    have h10 := hf 10 (by omega) rfl
    have cut : ∀ u : Nat, u ≠ 4 → ∀ rest, lookupSlot ((4, Slot.off n) :: rest) u = lookupSlot rest u := by
      intro u hu rest
      simp [lookupSlot, Ne.symm hu]
    rw [cut 6 (by omega), List.append_assoc, lookup_other (by omega), lookup_other (by omega)] at h6
    rw [cut 8 (by omega), List.append_assoc, lookup_other (by omega), lookup_same (by
      intro x m; rw [scalarSlot_key _ m]; decide)] at h8
    rw [cut 10 (by omega), List.append_assoc, lookup_same (by
      intro x m
      rw [List.map_append, List.mem_append] at m
      rcases m with m | m <;> rw [scalarSlot_key _ m] <;> decide)] at h10
    unfold rdContractId
    rw [ht, Option.bind_some, offset_some (u := n) h4, hn.reads b good]
    rw [Option.map_some, Option.bind_some, scalarSlot_reads (bv_lt (n := 2) v.1) h6, Option.bind_some,
      scalarSlot_reads (bv_lt (n := 2) v.2.1) h8, Option.bind_some, scalarSlot_reads (bv_lt (n := 2) v.2.2) h10, Option.map_some]
    simp

/-- A `State` with a value. -/
theorem wrote_state {α : Type} {f : Fbb} {p tag : Nat} {read : Bytes → Nat → Option α} {w : α} {v : FbVal} (hi : Inv f)
    (h0 : tag ≠ 0) (hlt : tag < 256) (hp : Stored f p read w)
    (hu : ∀ (b : Bytes) (q : Nat), follow b (read b) q = some w → rdUnion b tag q = some v) :
    Wrote f (f.createState tag p) rdState v := by
  unfold Fbb.createState
  rw [show scalarSlot 4 1 tag = [(4, Slot.scalar 1 tag)] by rw [scalarSlot, if_neg h0]]
  refine wrote_table hi ?_ ?_ ?_ ?_ ?_
  · intro s m
    simp only [List.mem_cons, List.not_mem_nil, or_false] at m
    rcases m with rfl | rfl
    · trivial
    · exact Or.inl rfl
  · intro v m
    simp only [List.map_cons, List.map_nil, List.mem_cons, List.not_mem_nil, or_false] at m
    rcases m with rfl | rfl <;> decide
  · simp
  · intro u t m
    simp only [List.mem_cons, Prod.mk.injEq, Slot.off.injEq, reduceCtorEq, and_false, List.not_mem_nil, or_false] at m
    rw [m.2]
    exact hp.inside
  · intro b t q good ht hf
    have h4 : FieldIs b t 4 (some (.scalar 1 tag)) := hf 4 (by omega) rfl
    have h6 : FieldIs b t 6 (some (.off p)) := hf 6 (by omega) rfl
    obtain ⟨p4, l4, f4, s4⟩ := h4
    obtain ⟨p6, l6, f6, s6, t6⟩ := h6
    have s4' : rd b 1 (b.length - p4) = some tag := by
      have : rd b 1 (b.length - p4) = some (tag % 256 ^ 1) := s4
      rw [this, Nat.mod_eq_of_lt (by omega)]
    unfold rdState
    rw [ht, Option.bind_some, f6, Option.bind_some, f4, Option.bind_some]
    show (rd b 1 (b.length - p4)).bind _ = _
    rw [s4', Option.bind_some]
    apply hu
    rw [follow_at s6 l6 t6]
    exact hp.reads b good

/-- `Baseline` with its three vectors. -/
theorem createBaseline_spec {f : Fbb} {c s o : Nat} (hi : Inv f) (hc : c ≤ f.buf.length) (hs : s ≤ f.buf.length) (ho : o ≤ f.buf.length) :
    ∃ g r, f.createBaseline c s o = some (g, r) ∧ Ext f g ∧ Inv g ∧ r ≤ g.buf.length ∧ g.buf.length ≤ f.buf.length + 154 ∧
      4 ≤ g.minAlign ∧
      ∀ b, Good b g → rdBaseline b (b.length - r) =
        ((rdVec b 4 (follow b (rdContract b)) (b.length - c)).map some).bind fun cs =>
          ((rdVec b 4 (follow b (rdState b)) (b.length - s)).map some).bind fun sts =>
            ((rdVec b 4 (follow b (rdObject b)) (b.length - o)).map some).map fun os => ⟨cs, sts, os⟩ := by
  have hoff : ∀ voff t, (voff, Slot.off t) ∈ [(8, Slot.off o), (6, .off s), (4, .off c)] → t ≤ f.buf.length := by
    intro u t m
    simp only [List.mem_cons, Prod.mk.injEq, Slot.off.injEq, List.not_mem_nil, or_false] at m
    rcases m with ⟨_, rfl⟩ | ⟨_, rfl⟩ | ⟨_, rfl⟩ <;> assumption
  have hok : ∀ x ∈ [(8, Slot.off o), (6, .off s), (4, .off c)], x.2.Ok := by
    intro s m
    simp only [List.mem_cons, List.not_mem_nil, or_false] at m
    rcases m with rfl | rfl | rfl <;> trivial
  obtain ⟨⟨g, r⟩, h⟩ := createTable_some hok hoff
  have sp := createTable_spec hi hok (by
    intro v m
    simp only [List.map_cons, List.map_nil, List.mem_cons, List.not_mem_nil, or_false] at m
    rcases m with rfl | rfl | rfl <;> decide) (by simp) h
  refine ⟨g, r, h, sp.ext, sp.inv, sp.inside, sp.size, ?_, fun b good => ?_⟩
  · unfold Fbb.createTable at h
    cases hp : f.pushSlots [(8, Slot.off o), (6, .off s), (4, .off c)] with
    | none => rw [hp] at h; cases h
    | some e =>
      rw [hp] at h
      simp only [Option.map_some, Option.some.injEq] at h
      split at h <;> (simp only [Prod.mk.injEq] at h; rw [← h.1]; exact Nat.le_max_right _ _)
  · obtain ⟨t, ht, hf⟩ := sp.reads b good
    have h4 : FieldIs b t 4 (some (.off c)) := hf 4 (by omega) rfl
    have h6 : FieldIs b t 6 (some (.off s)) := hf 6 (by omega) rfl
    have h8 : FieldIs b t 8 (some (.off o)) := hf 8 (by omega) rfl
    unfold rdBaseline
    rw [ht, Option.bind_some, offset_some h4, offset_some h6, offset_some h8]

end Verif.Fb
