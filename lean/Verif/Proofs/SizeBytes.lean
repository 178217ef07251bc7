import Verif.Spec.Bytes
import Verif.Proofs.FbVec
import Verif.Proofs.FinishBytes
import Verif.Proofs.Serializer
/-!
# How large a saved file is
-/
namespace Verif.Fb
open Verif Verif.Spec

theorem strBytes_size (s : String) : (strBytes s).length = s.utf8ByteSize := by
  show s.toByteArray.data.toList.length = _
  rw [Array.length_toList]
  rfl

theorem createString_size (f : Fbb) (s : String) : (f.createString s).1.buf.length ≤ f.buf.length + s.utf8ByteSize + 8 := by
  have h := congrArg List.length (createString_buf f s)
  rw [h]
  simp only [List.length_append, List.length_cons, le_length, align_length, strBytes_size]
  have := padding_lt (f.buf.length + (s.utf8ByteSize + 1)) 4 (by omega)
  omega

theorem createStrings_size (ss : List String) : ∀ f : Fbb,
    (f.createStrings ss).1.buf.length ≤ f.buf.length + (ss.map fun s => s.utf8ByteSize + 8).sum ∧ (f.createStrings ss).2.length = ss.length := by
  induction ss with
  | nil => intro f; exact ⟨Nat.le_refl _, rfl⟩
  | cons s ss ih =>
    intro f
    have h1 := createString_size f s
    have h2 := ih (f.createString s).1
    simp only [Fbb.createStrings, List.map_cons, List.sum_cons, List.length_cons]
    omega

theorem createVecOff_size {f g : Fbb} {r : Nat} {ts : List Nat} (h : f.createVecOff ts = some (g, r)) :
    g.buf.length ≤ f.buf.length + 4 * ts.length + 7 := by
  unfold Fbb.createVecOff at h
  have lA := align_length f (ts.length * 4) 4
  have pA := padding_lt (f.buf.length + ts.length * 4) 4 (by omega)
  have dA := align4_dvd f ts.length
  generalize f.align (ts.length * 4) 4 = a at h lA dA
  cases h1 : a.pushOffs ts with
  | none => rw [h1] at h; cases h
  | some g1 =>
    rw [h1, Option.map_some, Option.some.injEq, Prod.mk.injEq] at h
    obtain ⟨hg, _⟩ := h
    obtain ⟨_, _, l1, _⟩ := pushOffs_spec dA h1
    have d1 : 4 ∣ g1.buf.length := l1 ▸ Nat.dvd_add dA (Nat.dvd_mul_right _ _)
    have hgl : g.buf.length = 4 + g1.buf.length := by rw [← hg, push_exact _ _ _ d1, List.length_append, le_length]
    omega

theorem createVecBytes_size (f : Fbb) (xs : List Nat) : (f.createVecBytes xs).1.buf.length ≤ f.buf.length + xs.length + 10 := by
  unfold Fbb.createVecBytes
  simp only
  rw [push_length, (pushBytes_spec xs _).2.2.1, align_length]
  have h1 := padding_lt (f.buf.length + xs.length * 1) 4 (by omega)
  have h2 := padding_lt (padding (f.buf.length + xs.length * 1) 4 + f.buf.length + xs.length + 4) 4 (by omega)
  omega

theorem vtableLen_le {locs : List (Nat × Nat)} {k : Nat} (hk : 2 ≤ k) (h : ∀ l ∈ locs, l.1 ≤ k) : vtableLen locs ≤ k + 2 := by
  unfold vtableLen
  cases hm : (locs.map Prod.fst).max? with
  | none => simp only; omega
  | some m =>
    simp only
    have hmem := List.max?_mem hm
    obtain ⟨l, hl, rfl⟩ := List.mem_map.1 hmem
    have := h l hl
    omega

theorem flat2 (g : Nat → Nat) (n : Nat) : ((List.range n).flatMap fun i => le 2 (g i)).length = 2 * n := by
  induction n with
  | zero => rfl
  | succ n ih => rw [List.range_succ, List.flatMap_append, List.length_append, ih]; simp [le_length]; omega

theorem vtableBytes_le {r start : Nat} {locs : List (Nat × Nat)} {k : Nat} (hk : 2 ≤ k) (h : ∀ l ∈ locs, l.1 ≤ k) :
    (vtableBytes r start locs).length ≤ k + 2 := by
  have h1 := vtableLen_le hk h
  unfold vtableBytes
  simp only [List.length_append, le_length, flat2]
  omega

theorem createTable_size {f g : Fbb} {r k : Nat} {slots : List (Nat × Slot)} (hk : 2 ≤ k) (hok : ∀ s ∈ slots, s.2.Ok ∧ s.1 ≤ k)
    (h : f.createTable slots = some (g, r)) : g.buf.length ≤ f.buf.length + 15 * slots.length + k + 9 := by
  unfold Fbb.createTable at h
  cases hs : f.pushSlots slots with
  | none => rw [hs] at h; cases h
  | some e =>
    obtain ⟨p, locs⟩ := e
    rw [hs] at h
    simp only [Option.map_some, Option.some.injEq] at h
    obtain ⟨_, _, u1, _, a1⟩ := pushSlots_spec (fun s m => (hok s m).1) hs
    have hl : ∀ l ∈ locs, l.1 ≤ k := by
      intro l m
      obtain ⟨i, hi⟩ := List.getElem?_of_mem m
      have hlen := a1.length_eq
      obtain ⟨s, hs', hr⟩ : ∃ s, slots[i]? = some s ∧ s.1 = l.1 := by
        have hil : i < slots.length := by rw [hlen]; exact (List.getElem?_eq_some_iff.1 hi).1
        refine ⟨slots[i], List.getElem?_eq_getElem hil, ?_⟩
        have := List.Forall₂.get a1 hil (hlen ▸ hil)
        have he := (List.getElem?_eq_some_iff.1 hi).2
        simp only [List.get_eq_getElem] at this
        rw [this.1, he]
      rw [← hr]
      exact (hok s (List.mem_of_getElem? hs')).2
    have lA : (p.align 4 4).buf.length ≤ p.buf.length + 3 := by
      rw [align_length]
      have := padding_lt (p.buf.length + 4) 4 (by omega)
      omega
    have hv := vtableBytes_le (r := (p.align 4 4).buf.length + 4) (start := f.buf.length) hk hl
    have so : ∀ v r : Nat, (soffset v r).length = 4 := fun v r => le_length _ _
    revert h
    split
    · intro h
      simp only [Prod.mk.injEq] at h
      rw [← h.1]
      simp only [Fbb.raw, List.length_append, so]
      omega
    · intro h
      simp only [Prod.mk.injEq] at h
      rw [← h.1]
      simp only [List.length_append, so]
      omega

theorem createTable_pow {f g : Fbb} {r k : Nat} {slots : List (Nat × Slot)} (hok : ∀ s ∈ slots, s.2.Ok ∧ s.1 ≤ k)
    (h : f.createTable slots = some (g, r)) (hp : Pow f) : Pow g := by
  unfold Fbb.createTable at h
  cases hs : f.pushSlots slots with
  | none => rw [hs] at h; cases h
  | some e =>
    obtain ⟨p, locs⟩ := e
    rw [hs] at h
    simp only [Option.map_some, Option.some.injEq] at h
    obtain ⟨e1, _⟩ := pushSlots_spec (fun s m => (hok s m).1) hs
    have pa : Pow (p.align 4 4) := (ext_align p 4 4 width4).pow (e1.pow hp)
    revert h
    split
    · intro h
      simp only [Prod.mk.injEq] at h
      rw [← h.1]
      exact pa
    · intro h
      simp only [Prod.mk.injEq] at h
      rw [← h.1]
      exact pa

theorem createTable_min {f g : Fbb} {r : Nat} {slots : List (Nat × Slot)} (h : f.createTable slots = some (g, r)) : 4 ≤ g.minAlign := by
  unfold Fbb.createTable at h
  cases hs : f.pushSlots slots with
  | none => rw [hs] at h; cases h
  | some e =>
    obtain ⟨p, locs⟩ := e
    rw [hs] at h
    simp only [Option.map_some, Option.some.injEq] at h
    have pa : 4 ≤ (p.align 4 4).minAlign := Nat.le_max_right _ _
    revert h
    split
    · intro h
      simp only [Prod.mk.injEq] at h
      rw [← h.1]
      exact pa
    · intro h
      simp only [Prod.mk.injEq] at h
      rw [← h.1]
      exact pa

theorem createVecOff_pow {f g : Fbb} {r : Nat} {ts : List Nat} (h : f.createVecOff ts = some (g, r)) (hp : Pow f) : Pow g := by
  unfold Fbb.createVecOff at h
  cases h1 : (f.align (ts.length * 4) 4).pushOffs ts with
  | none => rw [h1] at h; cases h
  | some g1 =>
    rw [h1, Option.map_some, Option.some.injEq, Prod.mk.injEq] at h
    obtain ⟨e1, _⟩ := pushOffs_spec (align4_dvd f ts.length) h1
    rw [← h.1]
    exact (ext_push _ _ _ width4).pow (e1.pow ((ext_align f _ 4 width4).pow hp))

theorem scalarSlot_fine {voff n x k : Nat} (hw : Width n) (hv : voff ≤ k) : ∀ s ∈ scalarSlot voff n x, s.2.Ok ∧ s.1 ≤ k := by
  intro s m
  unfold scalarSlot at m
  split at m
  · cases m
  · rw [List.mem_singleton] at m
    subst m
    exact ⟨hw, hv⟩

theorem scalarSlot_one {voff n x : Nat} : (scalarSlot voff n x).length ≤ 1 := by
  unfold scalarSlot; split <;> simp

theorem cons_fine {voff t k : Nat} {rest : List (Nat × Slot)} (hv : voff ≤ k) (hr : ∀ s ∈ rest, s.2.Ok ∧ s.1 ≤ k) :
    ∀ s ∈ (voff, Slot.off t) :: rest, s.2.Ok ∧ s.1 ≤ k := by
  intro s m
  rcases List.mem_cons.1 m with rfl | m
  · exact ⟨trivial, hv⟩
  · exact hr s m

theorem append_fine {k : Nat} {a c : List (Nat × Slot)} (ha : ∀ s ∈ a, s.2.Ok ∧ s.1 ≤ k) (hc : ∀ s ∈ c, s.2.Ok ∧ s.1 ≤ k) :
    ∀ s ∈ a ++ c, s.2.Ok ∧ s.1 ≤ k := by
  intro s m
  rcases List.mem_append.1 m with m | m
  · exact ha s m
  · exact hc s m

theorem nil_fine {k : Nat} : ∀ s ∈ ([] : List (Nat × Slot)), s.2.Ok ∧ s.1 ≤ k := fun _ m => nomatch m

theorem contractId_size {f g : Fbb} {n r : Nat} {v : BitVec 16 × BitVec 16 × BitVec 16} (h : f.createContractId n v = some (g, r)) :
    g.buf.length ≤ f.buf.length + 79 := by
  have w2 : Width 2 := Or.inr (Or.inl rfl)
  have := createTable_size (k := 10) (by omega) (cons_fine (by omega) (append_fine (append_fine (scalarSlot_fine w2 (by omega))
    (scalarSlot_fine w2 (by omega))) (scalarSlot_fine w2 (by omega)))) h
  simp only [List.length_cons, List.length_append] at this
  have a := scalarSlot_one (voff := 10) (n := 2) (x := v.2.2.toNat)
  have c := scalarSlot_one (voff := 8) (n := 2) (x := v.2.1.toNat)
  have d := scalarSlot_one (voff := 6) (n := 2) (x := v.1.toNat)
  omega

theorem two_size {f g : Fbb} {a c r : Nat} (h : f.createTable [(6, .off a), (4, .off c)] = some (g, r)) :
    g.buf.length ≤ f.buf.length + 45 := by
  have := createTable_size (k := 6) (by omega) (cons_fine (by omega) (cons_fine (by omega) nil_fine)) h
  simpa using this

theorem one_size {f g : Fbb} {n x r : Nat} (hw : Width n) (h : f.createTable (scalarSlot 4 n x) = some (g, r)) :
    g.buf.length ≤ f.buf.length + 28 := by
  have := createTable_size (k := 4) (by omega) (scalarSlot_fine hw (by omega)) h
  have := scalarSlot_one (voff := 4) (n := n) (x := x)
  omega

theorem state_size {f g : Fbb} {tag p r : Nat} (h : f.createState tag p = some (g, r)) : g.buf.length ≤ f.buf.length + 45 := by
  have := createTable_size (k := 6) (by omega) (cons_fine (by omega) (scalarSlot_fine (Or.inl rfl) (by omega))) h
  have := scalarSlot_one (voff := 4) (n := 1) (x := tag)
  simp only [List.length_cons] at *
  omega

theorem scalarState_size {f g : Fbb} {tag r : Nat} {slots : List (Nat × Slot)} (hok : ∀ s ∈ slots, s.2.Ok ∧ s.1 ≤ 4) (hl : slots.length ≤ 1)
    (h : f.createScalarState tag slots = some (g, r)) : g.buf.length ≤ f.buf.length + 73 := by
  unfold Fbb.createScalarState at h
  cases h1 : f.createTable slots with
  | none => rw [h1] at h; cases h
  | some e =>
    obtain ⟨g1, p⟩ := e
    rw [h1] at h
    have a := createTable_size (by omega) hok h1
    have c := state_size (show g1.createState tag p = some (g, r) from h)
    omega

theorem floatSlot_fine {n x : Nat} {z : Bool} (hw : Width n) : ∀ s ∈ floatSlot n z x, s.2.Ok ∧ s.1 ≤ 4 := by
  intro s m
  unfold floatSlot at m
  split at m
  · cases m
  · rw [List.mem_singleton] at m
    subst m
    exact ⟨hw, Nat.le_refl _⟩

theorem floatSlot_one {n x : Nat} {z : Bool} : (floatSlot n z x).length ≤ 1 := by
  unfold floatSlot; split <;> simp

/-- The bytes of text of a value. -/
def valText : DynProp → Nat
  | .primitive (.string s) => s.utf8ByteSize
  | _ => 0

theorem createValue_size {f g : Fbb} {r : Nat} (v : DynProp) (h : f.createValue v = some (some (g, r))) :
    g.buf.length ≤ f.buf.length + 81 + valText v := by
  have hs : ∀ {tag n x : Nat}, Width n → f.createScalarState tag (scalarSlot 4 n x) = some (g, r) → g.buf.length ≤ f.buf.length + 81 :=
    fun hw h => Nat.le_trans (scalarState_size (scalarSlot_fine hw (Nat.le_refl _)) scalarSlot_one h) (by omega)
  have w1 : Width 1 := Or.inl rfl
  have w2 : Width 2 := Or.inr (Or.inl rfl)
  have w4 : Width 4 := Or.inr (Or.inr (Or.inl rfl))
  have w8 : Width 8 := Or.inr (Or.inr (Or.inr rfl))
  cases v with
  | vec x => cases h
  | primitive p =>
    cases p <;> simp only [Fbb.createValue, Option.some.injEq, Prod.mk.injEq] at h
    case string s =>
      unfold Fbb.createStringState at h
      simp only at h
      have a := createString_size f s
      generalize f.createString s = e at h a
      obtain ⟨g1, q⟩ := e
      cases h1 : g1.createTable [(4, .off q)] with
      | none => rw [h1] at h; cases h
      | some e =>
        obtain ⟨g2, p⟩ := e
        rw [h1] at h
        have b := createTable_size (k := 4) (by omega) (cons_fine (by omega) nil_fine) h1
        have c := state_size (show g2.createState 12 p = some (g, r) from h)
        simp only [List.length_cons, List.length_nil, valText] at *
        omega
    case f32 x => exact Nat.le_trans (scalarState_size (floatSlot_fine w4) floatSlot_one h) (by omega)
    case f64 x => exact Nat.le_trans (scalarState_size (floatSlot_fine w8) floatSlot_one h) (by omega)
    case objectHandle x => rw [h.1]; simp only [valText]; omega
    case contractDataHandle x => rw [h.1]; simp only [valText]; omega
    all_goals first
      | exact Nat.le_trans (hs w1 h) (by simp only [valText]; omega)
      | exact Nat.le_trans (hs w2 h) (by simp only [valText]; omega)
      | exact Nat.le_trans (hs w4 h) (by simp only [valText]; omega)
      | exact Nat.le_trans (hs w8 h) (by simp only [valText]; omega)

/-! ## The serializer -/

theorem kindNos_length : ∀ {ts : List PropType} {ks : List Nat}, SerB.kindNos ts = some ks → ks.length = ts.length := by
  intro ts
  induction ts with
  | nil => intro ks h; simp only [SerB.kindNos, Option.some.injEq] at h; rw [← h]; rfl
  | cons t ts ih =>
    intro ks h
    cases t with
    | vec x => cases h
    | prim p =>
      unfold SerB.kindNos at h
      cases h1 : SerB.kindNos ts with
      | none => rw [h1] at h; cases h
      | some ks' =>
        rw [h1, Option.map_some, Option.some.injEq] at h
        rw [← h, List.length_cons, List.length_cons, ih h1]

/-- The text and the fields of a contract. -/
def contractText (C : ContractTy) : Nat := C.id.name.utf8ByteSize + (C.states.map fun f => f.name.utf8ByteSize).sum

theorem sum_add_const (l : List String) (k : Nat) : (l.map fun s => s.utf8ByteSize + k).sum = (l.map String.utf8ByteSize).sum + k * l.length := by
  induction l with
  | nil => simp
  | cons s l ih => simp only [List.map_cons, List.sum_cons, ih, List.length_cons, Nat.mul_add]; omega

theorem contractTable_size {f g : Fbb} {C : ContractTy} {off : Nat} (h : SerB.contractTable f C = (g, .ok off)) :
    g.buf.length ≤ f.buf.length + 194 + 13 * C.states.length + contractText C := by
  unfold SerB.contractTable at h
  have a1 := createString_size f C.id.name
  generalize f.createString C.id.name = e1 at h a1
  obtain ⟨f1, name⟩ := e1
  simp only at h a1
  cases h2 : f1.createContractId name C.id.version with
  | none => rw [h2] at h; simp at h
  | some e2 =>
    obtain ⟨f2, cid⟩ := e2
    rw [h2] at h
    have a2 := contractId_size h2
    simp only at h
    have a3 := createStrings_size (C.states.map Field.name) f2
    generalize f2.createStrings (C.states.map Field.name) = e3 at h a3
    obtain ⟨f3, ns⟩ := e3
    rw [sum_add_const, List.map_map, List.length_map] at a3
    simp only at h a3
    cases h4 : f3.createVecOff ns with
    | none => rw [h4] at h; simp at h
    | some e4 =>
      obtain ⟨f4, names⟩ := e4
      rw [h4] at h
      have a4 := createVecOff_size h4
      simp only at h
      cases h5 : SerB.kindNos C.stateTypes with
      | none => rw [h5] at h; simp at h
      | some ks =>
        rw [h5] at h
        have lk := kindNos_length h5
        have lt : C.stateTypes.length = C.states.length := by simp [ContractTy.stateTypes]
        simp only at h
        have a5 := createVecBytes_size f4 ks
        generalize f4.createVecBytes ks = e5 at h a5
        obtain ⟨f5, types⟩ := e5
        simp only at h a5
        cases h6 : f5.createContractStates names types with
        | none => rw [h6] at h; simp at h
        | some e6 =>
          obtain ⟨f6, cst⟩ := e6
          rw [h6] at h
          have a6 := two_size h6
          simp only at h
          cases h7 : f6.createContract cid cst with
          | none => rw [h7] at h; simp at h
          | some e7 =>
            obtain ⟨f7, c⟩ := e7
            rw [h7] at h
            have a7 := two_size h7
            simp only [Prod.mk.injEq] at h
            obtain ⟨rfl, _⟩ := h
            have : (List.map (String.utf8ByteSize ∘ Field.name) C.states).sum = (C.states.map fun f => f.name.utf8ByteSize).sum := rfl
            unfold contractText
            omega

/-- The number of entries that `finish` will fill in. -/
def SerB.pending (s : SerB) : Nat := s.hContractStates.pairs.length + s.hObjectStates.pairs.length

/-- What became of a serializer: how much it wrote, and how many contracts, states and objects it added. -/
structure Grew (s t : SerB) (n c a o : Nat) : Prop where
  base : t.base = s.base
  fbb : t.fbb.buf.length ≤ s.fbb.buf.length + n
  contracts : t.contracts.length = s.contracts.length + c
  states : t.states.length = s.states.length + a
  objects : t.objects.length = s.objects.length + o
  pending : t.pending ≤ s.pending + a

theorem Grew.refl (s : SerB) : Grew s s 0 0 0 0 := ⟨rfl, Nat.le_refl _, rfl, rfl, rfl, Nat.le_refl _⟩

theorem Grew.trans {s t u : SerB} {n c a o n' c' a' o' : Nat} (h : Grew s t n c a o) (h' : Grew t u n' c' a' o') :
    Grew s u (n + n') (c + c') (a + a') (o + o') := by
  refine ⟨h'.base.trans h.base, ?_, ?_, ?_, ?_, ?_⟩
  · have := h.fbb; have := h'.fbb; omega
  · have := h.contracts; have := h'.contracts; omega
  · have := h.states; have := h'.states; omega
  · have := h.objects; have := h'.objects; omega
  · have := h.pending; have := h'.pending; omega

theorem Grew.le {s t : SerB} {n m c a o : Nat} (h : Grew s t n c a o) (hm : n ≤ m) : Grew s t m c a o :=
  ⟨h.base, Nat.le_trans h.fbb (Nat.add_le_add_left hm _), h.contracts, h.states, h.objects, h.pending⟩

theorem insert_length {m : BiMap Idx Nat} {a : Idx} {b : Nat} : (m.insert a b).pairs.length ≤ m.pairs.length + 1 := by
  unfold BiMap.insert
  simp only [List.length_cons]
  have := List.length_filter_le (fun p : Idx × Nat => decide (p.1 ≠ a ∧ p.2 ≠ b)) m.pairs
  omega

theorem note_grew (s : SerB) (t : PropType) (h : Idx) (i : Nat) (n : Nat) (l : List Nat) (f : Fbb)
    (hf : f.buf.length ≤ s.fbb.buf.length + n) (hl : l.length = s.states.length + 1) :
    Grew s (SerB.noteHandle { s with fbb := f, states := l } t h i) n 0 1 0 ∧
      (SerB.noteHandle { s with fbb := f, states := l } t h i).fbb = f := by
  have i1 : (s.hObjectStates.insert h i).pairs.length ≤ _ := insert_length
  have i2 : (s.hContractStates.insert h i).pairs.length ≤ _ := insert_length
  unfold SerB.noteHandle
  split
  · exact ⟨⟨rfl, hf, rfl, hl, rfl, by simp only [SerB.pending]; omega⟩, rfl⟩
  · exact ⟨⟨rfl, hf, rfl, hl, rfl, by simp only [SerB.pending]; omega⟩, rfl⟩
  · exact ⟨⟨rfl, hf, rfl, hl, rfl, by simp only [SerB.pending]; omega⟩, rfl⟩

theorem stateText_eq {b : Baseline} {o : Idx} {d : DynId} {h : Idx} {v : d.ty.Carrier} (h1 : b.bindState d.id o = .ok h)
    (h2 : b.state d.ty h = .ok v) : stateText b o d = valText (DynProp.ofTyped d.ty v) := by
  unfold stateText
  rw [h1]
  simp only [h2]
  rfl

theorem pushState_size {s t : SerB} {o : Idx} {d : DynId} {r : Nat} (h : s.pushState o d = (t, .ok r)) :
    Grew s t (109 + stateText s.base o d) 0 1 0 := by
  unfold SerB.pushState at h
  cases h1 : s.base.bindState d.id o with
  | err m => rw [h1] at h; simp at h
  | panic m => rw [h1] at h; simp at h
  | ok hd =>
    rw [h1] at h
    simp only at h
    cases h2 : s.base.state d.ty hd with
    | err m => rw [h2] at h; simp at h
    | panic m => rw [h2] at h; simp at h
    | ok v =>
      rw [h2] at h
      simp only at h
      rw [stateText_eq h1 h2]
      cases h3 : s.fbb.createValue (DynProp.ofTyped d.ty v) with
      | none => rw [h3] at h; simp at h
      | some e =>
        cases e with
        | none => rw [h3] at h; simp at h
        | some e =>
          obtain ⟨f1, off⟩ := e
          rw [h3] at h
          simp only at h
          have a := createValue_size _ h3
          obtain ⟨g1, g2⟩ := note_grew s d.ty hd s.states.length (81 + valText (DynProp.ofTyped d.ty v)) (s.states ++ [off]) f1
            (by omega) (by simp)
          generalize SerB.noteHandle { s with fbb := f1, states := s.states ++ [off] } d.ty hd s.states.length = s1 at h g1 g2
          cases h4 : s1.fbb.createHandle32 (BitVec.ofNat 32 s.states.length) with
          | none => rw [h4] at h; simp at h
          | some e =>
            obtain ⟨f2, q⟩ := e
            rw [h4] at h
            have c := one_size (Or.inr (Or.inr (Or.inl rfl))) h4
            simp only [Prod.mk.injEq] at h
            obtain ⟨rfl, _⟩ := h
            refine ⟨g1.base, ?_, g1.contracts, g1.states, g1.objects, g1.pending⟩
            have := g1.fbb
            simp only
            omega

theorem pushStates_size (o : Idx) (ds : List DynId) : ∀ {s t : SerB} {rs : List Nat}, s.pushStates o ds = (t, .ok rs) →
    Grew s t (109 * ds.length + (ds.map fun d => stateText s.base o d).sum) 0 ds.length 0 ∧ rs.length = ds.length := by
  induction ds with
  | nil =>
    intro s t rs h
    simp only [SerB.pushStates, Prod.mk.injEq, Outcome.ok.injEq] at h
    obtain ⟨rfl, rfl⟩ := h
    exact ⟨Grew.refl _, rfl⟩
  | cons d ds ih =>
    intro s t rs h
    unfold SerB.pushStates at h
    cases h1 : s.pushState o d with
    | mk s1 r1 =>
      rw [h1] at h
      cases r1 with
      | err m => simp at h
      | panic m => simp at h
      | ok i =>
        simp only at h
        have g1 := pushState_size h1
        cases h2 : s1.pushStates o ds with
        | mk s2 r2 =>
          rw [h2] at h
          cases r2 with
          | err m => simp at h
          | panic m => simp at h
          | ok is =>
            simp only [Prod.mk.injEq, Outcome.ok.injEq] at h
            obtain ⟨rfl, rfl⟩ := h
            obtain ⟨g2, l2⟩ := ih h2
            rw [g1.base] at g2
            refine ⟨?_, by rw [List.length_cons, List.length_cons, l2]⟩
            have g := (g1.trans g2).le (m := 109 * (d :: ds).length + ((d :: ds).map fun d => stateText s.base o d).sum)
              (by simp only [List.length_cons, List.map_cons, List.sum_cons]; omega)
            rw [Nat.add_comm 1] at g
            exact g

theorem sum_same {l l' : List Nat} (h : l.Perm l') : l.sum = l'.sum := by
  induction h with
  | nil => rfl
  | cons x _ ih => simp [ih]
  | swap x y l => simp only [List.sum_cons]; omega
  | trans _ _ ih1 ih2 => rw [ih1, ih2]

/-- The bytes of text of the objects of a contract. -/
def objectsText (b : Baseline) (C : ContractTy) (h : Idx) (os : List Idx) : Nat :=
  (os.map fun o => ((C.stateIds h).map fun d => stateText b o d).sum).sum

theorem pushObjects_size (C : ContractTy) (h : Idx) (k : Nat) (os : List Idx) : ∀ {s t : SerB}, s.pushObjects C h k os = (t, .ok ()) →
    Grew s t (52 * os.length + 113 * (os.length * C.states.length) + objectsText s.base C h os) 0 (os.length * C.states.length) os.length := by
  induction os with
  | nil =>
    intro s t hh
    simp only [SerB.pushObjects, Prod.mk.injEq] at hh
    obtain ⟨rfl, _⟩ := hh
    exact (Grew.refl _).le (Nat.zero_le _) |> fun g => by simpa using g
  | cons o os ih =>
    intro s t hh
    unfold SerB.pushObjects at hh
    cases h1 : s.pushStates o (C.stateIds h) with
    | mk s1 r1 =>
      rw [h1] at hh
      cases r1 with
      | err m => simp at hh
      | panic m => simp at hh
      | ok is =>
        simp only at hh
        obtain ⟨g1, l1⟩ := pushStates_size o _ h1
        cases h2 : s1.fbb.createVecOff is with
        | none => rw [h2] at hh; simp at hh
        | some e =>
          obtain ⟨f1, v⟩ := e
          rw [h2] at hh
          simp only at hh
          have a2 := createVecOff_size h2
          cases h3 : f1.createObject k v with
          | none => rw [h3] at hh; simp at hh
          | some e =>
            obtain ⟨f2, r⟩ := e
            rw [h3] at hh
            simp only at hh
            have a3 := two_size h3
            have g3 := ih hh
            have g2 : Grew s1 { s1 with fbb := f2, objects := s1.objects ++ [r], hObjects := s1.hObjects.insert o s1.objects.length }
                (4 * is.length + 52) 0 0 1 := ⟨rfl, by simp only; omega, rfl, rfl, by simp, Nat.le_refl _⟩
            have g := (g1.trans g2).trans g3
            rw [l1, stateIds_length] at g
            have e1 : C.states.length + 0 + os.length * C.states.length = (o :: os).length * C.states.length := by
              rw [List.length_cons, Nat.add_mul]; omega
            have e2 : 0 + 1 + os.length = (o :: os).length := by rw [List.length_cons]; omega
            rw [e1, e2] at g
            refine g.le ?_
            simp only [g1.base, List.length_cons, objectsText, List.map_cons, List.sum_cons]
            rw [show (os.length + 1) * C.states.length = os.length * C.states.length + C.states.length by rw [Nat.add_mul, Nat.one_mul]]
            omega

/-- What one call of `serialize` writes at most. -/
def callSize (b : Baseline) (C : ContractTy) (h : Idx) : Nat :=
  222 + 13 * C.states.length + contractText C + 52 * (objectsOf b h).length + 113 * ((objectsOf b h).length * C.states.length) +
    objectsText b C h (objectsOf b h)

theorem objectsText_perm {b : Baseline} {C : ContractTy} {h : Idx} {l m : List Idx} (hp : l.Perm m) : objectsText b C h l = objectsText b C h m :=
  sum_same (hp.map _)

theorem serialize_size {s t : SerB} {C : ContractTy} {h : Idx} {ord : HashOrder} (hh : s.serialize C h ord = (t, .ok ())) :
    Grew s t (callSize s.base C h) 1 ((objectsOf s.base h).length * C.states.length) (objectsOf s.base h).length := by
  unfold SerB.serialize at hh
  cases h1 : s.base.contractData h with
  | err m => rw [h1] at hh; simp at hh
  | panic m => rw [h1] at hh; simp at hh
  | ok cd =>
    have ho : objectsOf s.base h = cd.objects := by unfold objectsOf; rw [h1]
    rw [h1] at hh
    simp only at hh
    cases h2 : SerB.contractTable s.fbb C with
    | mk f1 r =>
      rw [h2] at hh
      cases r with
      | err m => simp at hh
      | panic m => simp at hh
      | ok off =>
        simp only at hh
        have a2 := contractTable_size h2
        by_cases hz : (s.contracts ++ [off]).length % 65536 = 0
        · rw [if_pos hz] at hh; simp at hh
        · rw [if_neg hz] at hh
          cases h3 : f1.createContractDataHandle (BitVec.ofNat 16 ((s.contracts ++ [off]).length % 65536 - 1)) with
          | none => rw [h3] at hh; simp at hh
          | some e =>
            obtain ⟨f2, k⟩ := e
            rw [h3] at hh
            simp only at hh
            have a3 := one_size (Or.inr (Or.inl rfl)) h3
            have g2 := pushObjects_size C h k (ord.order cd.objects) hh
            have hp := ord.perm cd.objects
            have g1 : Grew s { s with fbb := f2, contracts := s.contracts ++ [off], hContracts := s.hContracts.insert h s.contracts.length }
                (222 + 13 * C.states.length + contractText C) 1 0 0 := ⟨rfl, by simp only; omega, by simp, rfl, rfl, Nat.le_refl _⟩
            have g := g1.trans g2
            rw [objectsText_perm hp, hp.length_eq, ← ho] at g
            simp only [Nat.zero_add, Nat.add_zero] at g
            refine g.le ?_
            unfold callSize
            omega

theorem serializeAll_size (calls : List (ContractTy × Idx × HashOrder)) : ∀ {s t : SerB}, s.serializeAll calls = (t, .ok ()) →
    Grew s t (calls.map fun c => callSize s.base c.1 c.2.1).sum calls.length (stateCount s.base (calls.map fun c => (c.1, c.2.1)))
      (objectCount s.base (calls.map fun c => (c.1, c.2.1))) := by
  induction calls with
  | nil =>
    intro s t h
    simp only [SerB.serializeAll, Prod.mk.injEq] at h
    obtain ⟨rfl, _⟩ := h
    exact Grew.refl _
  | cons c calls ih =>
    intro s t h
    obtain ⟨C, hd, ord⟩ := c
    unfold SerB.serializeAll at h
    cases h1 : s.serialize C hd ord with
    | mk s1 r =>
      rw [h1] at h
      cases r with
      | err m => simp at h
      | panic m => simp at h
      | ok u =>
        simp only at h
        have g1 := serialize_size h1
        have g := g1.trans (ih h)
        rw [g1.base] at g
        simp only [objectCount, stateCount, List.map_cons, List.sum_cons, List.length_cons, List.map_map] at g ⊢
        rw [Nat.add_comm 1] at g
        exact g

theorem patch_size {b : Baseline} {t : PropType} {as : t.Carrier → Idx} {map : BiMap Idx Nat} {mk : Fbb → Nat → Option (Fbb × Nat)} {tag : Nat}
    (hmk : ∀ (f g : Fbb) (i r : Nat), mk f i = some (g, r) → g.buf.length ≤ f.buf.length + 28 ∧ (Pow f → Pow g)) (ps : List (Idx × Nat)) :
    ∀ {f g : Fbb} {l m : List Nat}, SerB.patch b t as map mk tag ps f l = .ok (g, m) →
      g.buf.length ≤ f.buf.length + 73 * ps.length ∧ m.length = l.length ∧ (Pow f → Pow g) := by
  induction ps with
  | nil =>
    intro f g l m h
    simp only [SerB.patch, Outcome.ok.injEq, Prod.mk.injEq] at h
    obtain ⟨rfl, rfl⟩ := h
    exact ⟨by simp, rfl, id⟩
  | cons p ps ih =>
    intro f g l m h
    obtain ⟨hd, i⟩ := p
    unfold SerB.patch at h
    cases h1 : b.state t hd with
    | err m => rw [h1] at h; simp at h
    | panic m => rw [h1] at h; simp at h
    | ok v =>
      rw [h1] at h
      simp only at h
      cases h2 : map.getL (as v) with
      | none => rw [h2] at h; simp at h
      | some r =>
        rw [h2] at h
        simp only at h
        cases h3 : mk f r with
        | none => rw [h3] at h; simp at h
        | some e =>
          obtain ⟨f0, q⟩ := e
          rw [h3] at h
          simp only [Option.bind_some] at h
          obtain ⟨a3, p3⟩ := hmk _ _ _ _ h3
          cases h4 : f0.createState tag q with
          | none => rw [h4] at h; simp at h
          | some e =>
            obtain ⟨f1, off⟩ := e
            rw [h4] at h
            simp only at h
            have a4 := state_size h4
            cases h5 : l[i]? with
            | none => rw [h5] at h; simp at h
            | some old =>
              rw [h5] at h
              simp only at h
              by_cases hd : old = wipDummy
              · rw [if_pos hd] at h
                obtain ⟨a, c, d⟩ := ih h
                rw [List.length_set] at c
                refine ⟨by rw [List.length_cons]; omega, c, fun hp => d ?_⟩
                exact createTable_pow (k := 6) (cons_fine (by omega) (scalarSlot_fine (Or.inl rfl) (by omega))) h4 (p3 hp)
              · rw [if_neg hd] at h; simp at h

theorem finish_size {f : Fbb} {r : Nat} {ident bytes : Bytes} (hp : Pow f) (hid : ident.length = 4) (h : f.finish r ident = some bytes) :
    bytes.length ≤ f.buf.length + 18 := by
  unfold Fbb.finish at h
  cases h1 : ((f.align 8 f.minAlign).raw ident).pushOff r with
  | none => rw [h1] at h; cases h
  | some g =>
    rw [h1, Option.map_some, Option.some.injEq] at h
    subst h
    obtain ⟨e, _⟩ := pushOff_eq h1
    have hl := push_length ((f.align 8 f.minAlign).raw ident) 4 (g.buf.length - r)
    rw [← e] at hl
    have p1 := padding_lt (((f.align 8 f.minAlign).raw ident).buf.length + 4) 4 (by omega)
    have l1 : ((f.align 8 f.minAlign).raw ident).buf.length = 4 + (padding (f.buf.length + 8) f.minAlign + f.buf.length) := by
      rw [← align_length, ← hid]
      exact List.length_append
    have p2 : padding (f.buf.length + 8) f.minAlign ≤ 7 := by
      rcases hp with h0 | h0
      · rw [h0]
        simp [padding]
      · have := padding_lt (f.buf.length + 8) f.minAlign h0.pos
        have := width_le h0
        omega
    omega

theorem finishWith_split {s : SerB} {ident bytes : Bytes} {ordC ordO : IterOrder (Idx × Nat)}
    (hp : Pow s.fbb) (h : s.finishWith ident ordC ordO = .ok bytes) :
    ∃ (f : Fbb) (r : Nat), Pow f ∧ 4 ≤ f.minAlign ∧ f.finish r ident = some bytes ∧
      f.buf.length ≤ s.fbb.buf.length + 73 * s.pending + 4 * s.contracts.length + 4 * s.states.length + 4 * s.objects.length + 83 ∧
      ∀ i out : Bytes, f.finish r i = some out → s.finishWith i ordC ordO = .ok out := by
  unfold SerB.finishWith at h
  have mk1 : ∀ (f g : Fbb) (i r : Nat), (fun (f : Fbb) (r : Nat) => f.createContractDataHandle (BitVec.ofNat 16 r)) f i = some (g, r) →
      g.buf.length ≤ f.buf.length + 28 ∧ (Pow f → Pow g) := fun f g i r hh =>
    ⟨one_size (Or.inr (Or.inl rfl)) hh, createTable_pow (k := 4) (scalarSlot_fine (Or.inr (Or.inl rfl)) (Nat.le_refl _)) hh⟩
  have mk2 : ∀ (f g : Fbb) (i r : Nat), (fun (f : Fbb) (r : Nat) => f.createHandle32 (BitVec.ofNat 32 r)) f i = some (g, r) →
      g.buf.length ≤ f.buf.length + 28 ∧ (Pow f → Pow g) := fun f g i r hh =>
    ⟨one_size (Or.inr (Or.inr (Or.inl rfl))) hh, createTable_pow (k := 4) (scalarSlot_fine (Or.inr (Or.inr (Or.inl rfl))) (Nat.le_refl _)) hh⟩
  cases h1 : SerB.patch s.base (.prim .contractDataHandle) (fun v => v) s.hContracts
      (fun f r => f.createContractDataHandle (BitVec.ofNat 16 r)) 14 (ordC.order s.hContractStates.pairs) s.fbb s.states with
  | err m => rw [h1] at h; simp at h
  | panic m => rw [h1] at h; simp at h
  | ok e =>
    obtain ⟨f1, sts1⟩ := e
    rw [h1] at h
    simp only at h
    obtain ⟨a1, b1, p1⟩ := patch_size mk1 _ h1
    cases h2 : SerB.patch s.base (.prim .objectHandle) (fun v => v) s.hObjects
        (fun f r => f.createHandle32 (BitVec.ofNat 32 r)) 13 (ordO.order s.hObjectStates.pairs) f1 sts1 with
    | err m => rw [h2] at h; simp at h
    | panic m => rw [h2] at h; simp at h
    | ok e =>
      obtain ⟨f2, sts2⟩ := e
      rw [h2] at h
      simp only at h
      obtain ⟨a2, b2, p2⟩ := patch_size mk2 _ h2
      rw [(ordC.perm _).length_eq] at a1
      rw [(ordO.perm _).length_eq] at a2
      cases h3 : f2.createVecOff s.contracts with
      | none => rw [h3] at h; simp at h
      | some e =>
        obtain ⟨f3, c⟩ := e
        rw [h3] at h
        simp only [Option.bind_some] at h
        have a3 := createVecOff_size h3
        have p3 := createVecOff_pow h3 (p2 (p1 hp))
        cases h4 : f3.createVecOff sts2 with
        | none => rw [h4] at h; simp at h
        | some e =>
          obtain ⟨f4, sv⟩ := e
          rw [h4] at h
          simp only [Option.bind_some] at h
          have a4 := createVecOff_size h4
          have p4 := createVecOff_pow h4 p3
          cases h5 : f4.createVecOff s.objects with
          | none => rw [h5] at h; simp at h
          | some e =>
            obtain ⟨f5, ov⟩ := e
            rw [h5] at h
            simp only [Option.bind_some] at h
            have a5 := createVecOff_size h5
            have p5 := createVecOff_pow h5 p4
            cases h6 : f5.createBaseline c sv ov with
            | none => rw [h6] at h; simp at h
            | some e =>
              obtain ⟨f6, r⟩ := e
              rw [h6] at h
              simp only [Option.bind_some] at h
              have fine : ∀ s ∈ [(8, Slot.off ov), (6, .off sv), (4, .off c)], s.2.Ok ∧ s.1 ≤ 8 :=
                cons_fine (by omega) (cons_fine (by omega) (cons_fine (by omega) nil_fine))
              have a6 := createTable_size (k := 8) (by omega) fine h6
              have p6 := createTable_pow fine h6 p5
              cases h7 : f6.finish r ident with
              | none => rw [h7] at h; simp at h
              | some bs =>
                rw [h7] at h
                simp only [Outcome.ok.injEq] at h
                subst h
                simp only [List.length_cons, List.length_nil] at a6
                refine ⟨f6, r, p6, createTable_min h6, h7, by unfold SerB.pending; omega, fun i out ho => ?_⟩
                unfold SerB.finishWith
                simp only [h1, h2, h3, h4, h5, h6, ho, Option.bind_some]

theorem finishWith_size {s : SerB} {ident bytes : Bytes} {ordC ordO : IterOrder (Idx × Nat)} (hid : ident.length = 4)
    (hp : Pow s.fbb) (h : s.finishWith ident ordC ordO = .ok bytes) :
    bytes.length ≤ s.fbb.buf.length + 73 * s.pending + 4 * s.contracts.length + 4 * s.states.length + 4 * s.objects.length + 101 := by
  obtain ⟨f, r, h1, _, h3, h4, _⟩ := finishWith_split hp h
  have := finish_size h1 hid h3
  omega

theorem sum_calls (b : Baseline) (l : List (ContractTy × Idx)) : (l.map fun e => callSize b e.1 e.2).sum =
    222 * l.length + 13 * fieldCount l + 52 * objectCount b l + 113 * stateCount b l + textBytes b l := by
  induction l with
  | nil => rfl
  | cons e l ih =>
    simp only [fieldCount, objectCount, stateCount, textBytes, callSize, contractText, objectsText] at ih
    simp only [List.map_cons, List.sum_cons, fieldCount, objectCount, stateCount, textBytes, List.length_cons, callSize, contractText,
      objectsText]
    omega

/-- The size of a saved file. -/
theorem saveAs_size {c : Cycle} {b : Baseline} {ident bytes : Bytes} (hid : ident.length = 4) (h : c.saveAs ident b = .ok bytes)
    {cs : List (ContractTy × Idx)} (hc : (c.calls.map fun e => (e.1, e.2.1)).Perm cs) :
    bytes.length ≤ 101 + 226 * cs.length + 13 * fieldCount cs + 56 * objectCount b cs + 190 * stateCount b cs + textBytes b cs := by
  obtain ⟨_, he, _⟩ := serializeAll_sim c.calls (mirrors_new b)
  have hp := he.pow (Or.inl rfl)
  unfold Cycle.saveAs at h
  cases hb : (SerB.new b).serializeAll c.calls with
  | mk s r =>
    rw [hb] at h hp
    cases r with
    | err m => simp at h
    | panic m => simp at h
    | ok u =>
      simp only at h hp
      have g := serializeAll_size c.calls hb
      have z := finishWith_size hid hp h
      have e1 : (c.calls.map fun e => callSize (SerB.new b).base e.1 e.2.1).sum = (cs.map fun e => callSize b e.1 e.2).sum := by
        rw [← sum_same (hc.map _), List.map_map]
        rfl
      have e2 : stateCount (SerB.new b).base (c.calls.map fun e => (e.1, e.2.1)) = stateCount b cs := sum_same (hc.map _)
      have e3 : objectCount (SerB.new b).base (c.calls.map fun e => (e.1, e.2.1)) = objectCount b cs := sum_same (hc.map _)
      have e4 := hc.length_eq
      rw [List.length_map] at e4
      rw [e1, e2, e3, e4, sum_calls] at g
      have k1 := g.fbb
      have k2 := g.contracts
      have k3 := g.states
      have k4 := g.objects
      have k5 := g.pending
      have n1 : (SerB.new b).fbb.buf.length = 0 := rfl
      have n2 : (SerB.new b).contracts.length = 0 := rfl
      have n3 : (SerB.new b).states.length = 0 := rfl
      have n4 : (SerB.new b).objects.length = 0 := rfl
      have n5 : (SerB.new b).pending = 0 := rfl
      omega

end Verif.Fb
