import Verif.Proofs.FinishBytes
import Verif.Proofs.FbMono
import Verif.Proofs.Bytes
/-!
# A file that lacks its end cannot be read

What is written first is at the end of the file, and the reader needs it.
-/
namespace Verif.Fb
open Verif

/-- What is at offset `r` cannot be read if four or more bytes at the end are missing. -/
def Needed {α : Type} (f : Fbb) (r : Nat) (read : Bytes → Nat → Option α) : Prop :=
  ∀ a y : Bytes, Good (a ++ y) f → 4 ≤ y.length → read a ((a ++ y).length - r) = none

theorem Needed.mono {α : Type} {f g : Fbb} {r : Nat} {read : Bytes → Nat → Option α} (h : Needed f r read) (e : Ext f g) : Needed g r read :=
  fun a y hb hy => h a y (hb.mono e) hy

theorem const_mono {α : Type} (k : Nat → Option α) : Mono (fun (_ : Bytes) => k) := fun _ _ _ _ h => h

theorem offset_missing {α : Type} {a y : Bytes} {t : Tab} {voff u : Nat} {k : Nat → Option α} (hF : FieldIs (a ++ y) t voff (some (.off u)))
    (hk : k ((a ++ y).length - u) = none) : t.offset a voff k = none := by
  cases h : t.offset a voff k with
  | none => rfl
  | some w =>
    have := offset_mono (r := fun _ => k) (const_mono k) a y t voff w h
    simp only [offset_some hF, hk] at this
    cases this

theorem needed_table {α β : Type} {f g : Fbb} {r u : Nat} {slots : List (Nat × Slot)} {read : Bytes → Nat → Option α}
    {leaf : Bytes → Nat → Option β} (sp : TableSpec f g r slots) (hl : lookupSlot slots 4 = some (.off u)) (hn : Needed f u leaf)
    (hr : ∀ (b : Bytes) (p : Nat) (v : α), read b p = some v → ∃ t w, rdTable b p = some t ∧ t.offset b 4 (leaf b) = some w) :
    Needed g r read := by
  intro a y good hy
  cases h : read a ((a ++ y).length - r) with
  | none => rfl
  | some v =>
    obtain ⟨t, w, h1, h2⟩ := hr a _ v h
    obtain ⟨t', h3, h4⟩ := sp.reads _ good
    rw [rdTable_mono a y _ t h1] at h3
    cases h3
    have h5 := h4 4 (by omega) rfl
    rw [hl] at h5
    rw [offset_missing h5 (hn a y (good.mono sp.ext) hy)] at h2
    cases h2

theorem needed_vec {α : Type} {f g : Fbb} {r u : Nat} {ts : List Nat} {leaf : Bytes → Nat → Option α} (hi : Inv f)
    (h : f.createVecOff ts = some (g, r)) (hu : u ∈ ts) (hn : Needed f u leaf) :
    Needed g r (fun b => rdVec b 4 (follow b (leaf b))) := by
  obtain ⟨e, _, _, _, _, h3⟩ := createVecOff_spec hi h
  intro a y good hy
  show rdVec a 4 (follow a (leaf a)) _ = none
  cases hc : rdVec a 4 (follow a (leaf a)) ((a ++ y).length - r) with
  | none => rfl
  | some v =>
    have h4 := rdVec_mono (follow_mono (const_mono (leaf a))) 4 a y _ v hc
    simp only [h3 α (a ++ y) (leaf a) good] at h4
    rw [mapO_none (k := fun t => leaf a ((a ++ y).length - t)) hu (hn a y (good.mono e) hy)] at h4
    cases h4

/-- The first string written is needed. -/
theorem needed_string {g : Fbb} {r : Nat} {s : String} (h : Fbb.empty.createString s = (g, r)) : Needed g r rdString := by
  have hb := createString_buf Fbb.empty s
  have hg : (Fbb.empty.createString s).1 = g := by rw [h]
  have hr : r = g.buf.length := by
    have h1 : g = (Fbb.empty.createString s).1 := by rw [h]
    have h2 : r = (Fbb.empty.createString s).2 := by rw [h]
    rw [h1, h2]; rfl
  rw [hg] at hb
  have hlen : g.buf.length = 4 + (strBytes s).length + 1 + padding ((strBytes s).length + 1) 4 := by
    rw [hb]
    simp only [List.length_append, List.length_cons, le_length, align_length]
    show 4 + ((strBytes s).length + (padding (0 + ((strBytes s).length + 1)) 4 + 0 + 1)) = _
    rw [Nat.zero_add]
    omega
  have hp := padding_lt ((strBytes s).length + 1) 4 (by omega)
  intro a y good hy
  cases hc : rdString a ((a ++ y).length - r) with
  | none => rfl
  | some v =>
    unfold rdString at hc
    obtain ⟨n, h1, h2⟩ := bind_some_iff hc
    have h3 := rd_mono 4 a y _ n h1
    have hgl := good.le
    have h4 : rd (a ++ y) 4 ((a ++ y).length - r) = some ((strBytes s).length) := by
      have hs : suf (a ++ y) g.buf.length = g.buf := by rw [good.suf _ (Nat.le_refl _), suf_self]
      rw [rd_suf _ 4 r (by omega)]
      have h5 : ((a ++ y).length - r) % 4 = 0 ∧ 4 ≤ r := by
        unfold rd at h1
        split at h1
        · rename_i hh; exact ⟨hh.1, by omega⟩
        · cases h1
      rw [if_pos h5, hr, hs, hb, List.take_append_of_le_length (by rw [le_length]; exact Nat.le_refl _),
        List.take_of_length_le (by rw [le_length]; exact Nat.le_refl _), ofLe_le]
      have := good.small
      rw [Nat.mod_eq_of_lt (by omega)]
    rw [h4] at h3
    cases h3
    split at h2
    · rename_i hh
      have h6 := (List.getElem?_eq_some_iff.1 hh.2).1
      rw [List.length_append] at hgl h6
      omega
    · cases h2

theorem needed_contract {f : Fbb} {C : ContractTy} {off : Nat} (h : SerB.contractTable Fbb.empty C = (f, .ok off)) :
    Needed f off rdContract ∧ Ext Fbb.empty f ∧ Inv f := by
  have hi : Inv Fbb.empty := by intro v m; cases m
  obtain ⟨E, I, _⟩ := contractTable_sim hi C
  rw [h] at E I
  refine ⟨?_, E, I⟩
  unfold SerB.contractTable at h
  cases h1 : Fbb.empty.createString C.id.name with
  | mk f1 name =>
    obtain ⟨e1, i1, s1⟩ := createString_spec hi h1
    have n1 := needed_string h1
    obtain ⟨f2, cid, h2, e2, i2, s2⟩ := wrote_contractId (v := C.id.version) i1 s1
    rw [h1] at h
    simp only [h2] at h
    have n2 : Needed f2 cid rdContractId := by
      have w2 : Width 2 := Or.inr (Or.inl rfl)
      have sp := createTable_spec i1 (by
          intro x m
          simp only [List.mem_cons, List.mem_append] at m
          rcases m with rfl | (m | m) | m
          · trivial
          all_goals exact scalarSlot_ok w2 _ m) (by
          intro x m
          simp only [List.map_cons, List.map_append, List.mem_cons, List.mem_append] at m
          rcases m with rfl | (m | m) | m
          · decide
          all_goals rw [scalarSlot_key _ m]; decide) (by
          have h1 := @scalarSlot_len 10 2 C.id.version.2.2.toNat
          have h2 := @scalarSlot_len 8 2 C.id.version.2.1.toNat
          have h3 := @scalarSlot_len 6 2 C.id.version.1.toNat
          simp only [List.length_cons, List.length_append]
          omega) h2
      refine needed_table (u := name) sp ?_ n1 ?_
      · simp [lookupSlot]
      · intro b p v hv
        unfold rdContractId at hv
        obtain ⟨t, ht, hv⟩ := bind_some_iff hv
        obtain ⟨w, hw, _⟩ := bind_some_iff hv
        exact ⟨t, w, ht, hw⟩
    cases h3 : f2.createStrings (C.states.map Field.name) with
    | mk f3 ns =>
      obtain ⟨e3, i3, s3⟩ := createStrings_spec _ i2 h3
      rw [h3] at h
      simp only at h
      cases h4 : f3.createVecOff ns with
      | none => rw [h4] at h; simp at h
      | some x4 =>
        obtain ⟨f4, names⟩ := x4
        obtain ⟨e4, i4, l4, _⟩ := createVecOff_spec i3 h4
        rw [h4] at h
        simp only at h
        rcases kinds_agree C.stateTypes with ⟨hk, _⟩ | ⟨ks, hk, _, hlt⟩
        · rw [hk] at h; simp at h
        · rw [hk] at h
          simp only at h
          cases h5 : f4.createVecBytes ks with
          | mk f5 types =>
            obtain ⟨e5, i5, s5⟩ := createVecBytes_spec kindOfNo i4 hlt h5
            rw [h5] at h
            simp only at h
            cases h6 : f5.createContractStates names types with
            | none => rw [h6] at h; simp at h
            | some x6 =>
              obtain ⟨f6, cst⟩ := x6
              rw [h6] at h
              simp only at h
              have two : ∀ (p q : Nat) (s : Nat × Slot), s ∈ [(6, Slot.off p), (4, Slot.off q)] → s.2.Ok := by
                intro p q s m
                simp only [List.mem_cons, List.not_mem_nil, or_false] at m
                rcases m with rfl | rfl <;> trivial
              have pl : ∀ (p q : Nat), Places ([(6, Slot.off p), (4, Slot.off q)].map Prod.fst) := by
                intro p q v m
                simp only [List.map_cons, List.map_nil, List.mem_cons, List.not_mem_nil, or_false] at m
                rcases m with rfl | rfl <;> decide
              have sp6 := createTable_spec i5 (two _ _) (pl _ _) (by simp) h6
              cases h7 : f6.createContract cid cst with
              | none => rw [h7] at h; simp at h
              | some x7 =>
                obtain ⟨f7, c⟩ := x7
                rw [h7] at h
                simp only [Prod.mk.injEq, Outcome.ok.injEq] at h
                obtain ⟨rfl, rfl⟩ := h
                have sp7 := createTable_spec sp6.inv (two _ _) (pl _ _) (by simp) h7
                refine needed_table (u := cid) sp7 ?_ (n2.mono (e3.trans (e4.trans (e5.trans sp6.ext)))) ?_
                · simp [lookupSlot]
                · intro b p v hv
                  unfold rdContract at hv
                  obtain ⟨t, ht, hv⟩ := bind_some_iff hv
                  obtain ⟨w, hw, _⟩ := bind_some_iff hv
                  exact ⟨t, w, ht, hw⟩

/-! ## The serializer keeps what it has written -/

theorem pushState_contracts (s : SerB) (o : Idx) (d : DynId) : (s.pushState o d).1.contracts = s.contracts := by
  have hn : ∀ (s : SerB) (t : PropType) (h : Idx) (i : Nat), (SerB.noteHandle s t h i).contracts = s.contracts := by
    intro s t h i
    unfold SerB.noteHandle
    split <;> rfl
  unfold SerB.pushState
  split
  · rfl
  · rfl
  · split
    · rfl
    · rfl
    · split
      · rfl
      · rfl
      · simp only
        split
        · exact hn _ _ _ _
        · exact hn _ _ _ _

theorem pushStates_contracts (o : Idx) (ds : List DynId) : ∀ s : SerB, (s.pushStates o ds).1.contracts = s.contracts := by
  induction ds with
  | nil => intro s; rfl
  | cons d ds ih =>
    intro s
    have h1 := pushState_contracts s o d
    unfold SerB.pushStates
    cases h : s.pushState o d with
    | mk s1 r =>
      rw [h] at h1
      cases r with
      | err m => exact h1
      | panic m => exact h1
      | ok i =>
        simp only
        have h2 := ih s1
        cases h3 : s1.pushStates o ds with
        | mk s2 r2 =>
          rw [h3] at h2
          cases r2 <;> exact h2.trans h1

theorem pushObjects_contracts (C : ContractTy) (h : Idx) (k : Nat) (os : List Idx) : ∀ s : SerB,
    (s.pushObjects C h k os).1.contracts = s.contracts := by
  induction os with
  | nil => intro s; rfl
  | cons o os ih =>
    intro s
    have h1 := pushStates_contracts o (C.stateIds h) s
    unfold SerB.pushObjects
    cases hh : s.pushStates o (C.stateIds h) with
    | mk s1 r =>
      rw [hh] at h1
      cases r with
      | err m => exact h1
      | panic m => exact h1
      | ok is =>
        simp only
        cases s1.fbb.createVecOff is with
        | none => exact h1
        | some e =>
          obtain ⟨f1, v⟩ := e
          simp only
          cases f1.createObject k v with
          | none => exact h1
          | some e => exact (ih _).trans h1

/-- The first contract stays among the contracts written, and needed. -/
def FirstNeeded (s : SerB) : Prop := ∃ c ∈ s.contracts, Needed s.fbb c rdContract

theorem serialize_contracts (s : SerB) (C : ContractTy) (h : Idx) (ord : HashOrder) : ∃ l, (s.serialize C h ord).1.contracts = s.contracts ++ l := by
  unfold SerB.serialize
  split
  · exact ⟨[], by simp⟩
  · exact ⟨[], by simp⟩
  · split
    · exact ⟨[], by simp⟩
    · exact ⟨[], by simp⟩
    · rename_i off _
      simp only
      split
      · exact ⟨[off], rfl⟩
      · split
        · exact ⟨[off], rfl⟩
        · exact ⟨[off], pushObjects_contracts _ _ _ _ _⟩

theorem serializeAll_first (calls : List (ContractTy × Idx × HashOrder)) : ∀ {sb : SerB} {s : Ser}, Mirrors sb s → FirstNeeded sb →
    FirstNeeded (sb.serializeAll calls).1 := by
  induction calls with
  | nil => intro sb s _ h; exact h
  | cons c calls ih =>
    intro sb s hm hf
    obtain ⟨C, hd, ord⟩ := c
    obtain ⟨m1, e1, o1⟩ := serialize_sim hm C hd ord
    obtain ⟨l, hl⟩ := serialize_contracts sb C hd ord
    obtain ⟨c0, hc, hn⟩ := hf
    have hf1 : FirstNeeded (sb.serialize C hd ord).1 := ⟨c0, by rw [hl]; exact List.mem_append_left _ hc, hn.mono e1⟩
    unfold SerB.serializeAll
    cases hb : sb.serialize C hd ord with
    | mk sb1 rb =>
      rw [hb] at hf1 m1
      cases rb with
      | err m => exact hf1
      | panic m => exact hf1
      | ok u => cases u; exact ih m1 hf1

theorem serialize_first {b : Baseline} {C : ContractTy} {hd : Idx} {ord : HashOrder} {t : SerB}
    (h : (SerB.new b).serialize C hd ord = (t, .ok ())) : FirstNeeded t := by
  unfold SerB.serialize at h
  cases h1 : (SerB.new b).base.contractData hd with
  | err m => rw [h1] at h; simp at h
  | panic m => rw [h1] at h; simp at h
  | ok cd =>
    rw [h1] at h
    simp only at h
    have hinv : Inv (SerB.new b).fbb := by intro v m; cases m
    cases h2 : SerB.contractTable (SerB.new b).fbb C with
    | mk f1 r =>
      rw [h2] at h
      cases r with
      | err m => simp at h
      | panic m => simp at h
      | ok off =>
        obtain ⟨n1, e1, i1⟩ := needed_contract h2
        obtain ⟨_, _, o1⟩ := contractTable_sim hinv C
        rw [h2] at o1
        simp only at o1
        generalize hs : Ser.contractTable C = rs at o1
        cases o1 with
        | ok off tbl st =>
        simp only at h
        have g := (mirrors_new b).grow e1 i1
        have m1 : Mirrors ⟨b, f1, [] ++ [off], [], [], BiMap.empty, BiMap.empty.insert hd 0, BiMap.empty, BiMap.empty⟩
            { Ser.new b with contracts := (Ser.new b).contracts ++ [tbl], hContracts := (Ser.new b).hContracts.insert hd (Ser.new b).contracts.length } :=
          ⟨g.base, g.inv, forall₂_snoc g.contracts st, g.states, g.objects, g.hObjects, rfl, g.hContractStates, g.hObjectStates⟩
        split at h
        · simp at h
        · obtain ⟨f2, k, h3, e3, i3, s3⟩ := wrote_cdHandle i1 (BitVec.ofNat 16 (((SerB.new b).contracts ++ [off]).length % 65536 - 1))
          rw [h3] at h
          simp only at h
          obtain ⟨_, e4, _⟩ := pushObjects_sim C hd (ord.order cd.objects) (m1.grow e3 i3) s3
          have hc := pushObjects_contracts C hd k (ord.order cd.objects)
            ⟨b, f2, [] ++ [off], [], [], BiMap.empty, BiMap.empty.insert hd 0, BiMap.empty, BiMap.empty⟩
          have h' : SerB.pushObjects ⟨b, f2, [] ++ [off], [], [], BiMap.empty, BiMap.empty.insert hd 0, BiMap.empty, BiMap.empty⟩ C hd k
              (ord.order cd.objects) = (t, .ok ()) := h
          have e4' : Ext f2 (SerB.pushObjects ⟨b, f2, [] ++ [off], [], [], BiMap.empty, BiMap.empty.insert hd 0, BiMap.empty, BiMap.empty⟩ C hd k
              (ord.order cd.objects)).1.fbb := e4
          rw [h'] at e4' hc
          refine ⟨off, ?_, n1.mono (e3.trans e4')⟩
          rw [hc]
          exact List.mem_append_right _ (List.mem_singleton.2 rfl)

/-! ## The whole file -/

theorem finish_cut {sb : SerB} {s : Ser} (h : Mirrors sb s) (hp : Pow sb.fbb) {ident : Bytes} (hid : ident.length = 4)
    {ordC ordO : IterOrder (Idx × Nat)} {bytes : Bytes} (hfin : sb.finishWith ident ordC ordO = .ok bytes) (hl : bytes.length < 2 ^ 31)
    (hf : FirstNeeded sb) {a y : Bytes} (hay : bytes = a ++ y) (hy : 4 ≤ y.length) : root a = none := by
  unfold SerB.finishWith at hfin
  rw [h.base, h.hContracts, h.hContractStates, h.hObjects, h.hObjectStates] at hfin
  rcases patch_sim (b := s.base) (t := .prim .contractDataHandle) (as := fun v => v) (map := s.hContracts) wrote_patchC
    (ordC.order s.hContractStates.pairs) h.inv h.states with ⟨f1, sts1, stsT1, a1, a2, a3, a4, a5⟩ | ⟨m, a1, a2⟩
  · simp only [a1] at hfin
    rcases patch_sim (b := s.base) (t := .prim .objectHandle) (as := fun v => v) (map := s.hObjects) wrote_patchO
      (ordO.order s.hObjectStates.pairs) a4 a5 with ⟨f2, sts2, stsT2, b1, b2, b3, b4, b5⟩ | ⟨m, b1, b2⟩
    · simp only [b1] at hfin
      have e12 := a3.trans b3
      obtain ⟨c0, hc0, hn0⟩ := hf
      cases h3 : f2.createVecOff sb.contracts with
      | none => rw [h3] at hfin; simp at hfin
      | some x3 =>
        obtain ⟨f3, c⟩ := x3
        obtain ⟨e3, i3, l3, _⟩ := createVecOff_spec b4 h3
        have n3 := needed_vec b4 h3 hc0 (hn0.mono e12)
        rw [h3] at hfin
        simp only [Option.bind_some] at hfin
        cases h4 : f3.createVecOff sts2 with
        | none => rw [h4] at hfin; simp at hfin
        | some x4 =>
          obtain ⟨f4, sv⟩ := x4
          obtain ⟨e4, i4, l4, _⟩ := createVecOff_spec i3 h4
          rw [h4] at hfin
          simp only [Option.bind_some] at hfin
          cases h5 : f4.createVecOff sb.objects with
          | none => rw [h5] at hfin; simp at hfin
          | some x5 =>
            obtain ⟨f5, o⟩ := x5
            obtain ⟨e5, i5, l5, _⟩ := createVecOff_spec i4 h5
            rw [h5] at hfin
            simp only [Option.bind_some] at hfin
            obtain ⟨f6, r, h6, e6, i6, l6, _, m6, _⟩ := createBaseline_spec i5 (Nat.le_trans l3 (e4.trans e5).le) (Nat.le_trans l4 e5.le) l5
            rw [h6] at hfin
            simp only [Option.bind_some] at hfin
            have sp6 := createTable_spec i5 (by
                intro s m
                simp only [List.mem_cons, List.not_mem_nil, or_false] at m
                rcases m with rfl | rfl | rfl <;> trivial) (by
                intro v m
                simp only [List.map_cons, List.map_nil, List.mem_cons, List.not_mem_nil, or_false] at m
                rcases m with rfl | rfl | rfl <;> decide) (by simp) h6
            have n6 : Needed f6 r rdBaseline := by
              refine needed_table (u := c) sp6 ?_ (n3.mono (e4.trans e5)) ?_
              · simp [lookupSlot]
              · intro b p v hv
                unfold rdBaseline at hv
                obtain ⟨t, ht, hv⟩ := bind_some_iff hv
                obtain ⟨w, hw, _⟩ := bind_some_iff hv
                exact ⟨t, w, ht, hw⟩
            have eAll : Ext sb.fbb f6 := e12.trans (e3.trans (e4.trans (e5.trans e6)))
            obtain ⟨bytes', h7, d7, _, r7⟩ := finish_good (ident := ident) hid (eAll.pow hp) m6 l6
            rw [h7] at hfin
            simp only [Outcome.ok.injEq] at hfin
            subst hfin
            obtain ⟨good, hfol⟩ := r7 hl
            subst hay
            cases hc : root a with
            | none => rfl
            | some v =>
              have h8 := follow_mono (const_mono (rdBaseline a)) a y 0 v hc
              simp only [hfol] at h8
              rw [n6 a y good hy] at h8
              cases h8
    · simp only [b1] at hfin; cases hfin
  · simp only [a1] at hfin; cases hfin

end Verif.Fb
