import Verif.Proofs.Bytes
import Verif.Proofs.Repeat
/-!
# What a genuine file contains, whatever was saved
-/
namespace Verif.Fb
open Verif Verif.Spec

/-- Patching keeps the number of slots and adds only handles. -/
theorem patch_slots {b : Baseline} {t : PropType} {asHandle : t.Carrier → Idx} {map : BiMap Idx Nat} {mk : Nat → FbVal} :
    ∀ (l : List (Idx × Nat)) {sts out : List (Option FbVal)}, Ser.patch b t asHandle map mk l sts = .ok out →
      out.length = sts.length ∧ ∀ v : FbVal, some v ∈ out → some v ∈ sts ∨ ∃ r, v = mk r := by
  intro l
  induction l with
  | nil =>
    intro sts out h
    simp only [Ser.patch, Outcome.ok.injEq] at h
    subst h
    exact ⟨rfl, fun v h => Or.inl h⟩
  | cons e rest ih =>
    obtain ⟨h0, i⟩ := e
    intro sts out h
    unfold Ser.patch at h
    split at h
    · cases h
    · cases h
    · split at h
      · cases h
      · rename_i r _
        split at h
        · cases h
        · cases h
        · obtain ⟨h1, h2⟩ := ih h
          refine ⟨by rw [h1, List.length_set], fun v hv => ?_⟩
          rcases h2 v hv with h3 | h3
          · rcases List.mem_or_eq_of_mem_set h3 with h4 | h4
            · exact Or.inl h4
            · injection h4 with h4; exact Or.inr ⟨r, h4⟩
          · exact Or.inr h3

/-- `filled` only removes the wrapping. -/
theorem filled_mem : ∀ {sts : List (Option FbVal)} {vs : List FbVal}, filled sts = some vs → vs.map some = sts := by
  intro sts
  induction sts with
  | nil => intro vs h; simp [filled] at h; subst h; rfl
  | cons x sts ih =>
    intro vs h
    cases x with
    | none => simp [filled] at h
    | some v =>
      simp only [filled, Option.map_eq_some_iff] at h
      obtain ⟨w, h1, rfl⟩ := h
      simp [ih h1]

/-- The tables of anything that was saved: the contracts are described one by one, and there is none of the defects the reader does not check. -/
theorem genuine_tables {b : Baseline} {calls : List (ContractTy × Idx × HashOrder)} {s : Ser} (hs : (Ser.new b).serializeAll calls = (s, .ok ()))
    {ordC ordO : IterOrder (Idx × Nat)} {out : FbOut} (hf : s.finish ordC ordO = .ok out) {buf : FbBaseline} (hd : out.decode = some buf) :
    NoHidden buf ∧ ∃ tbls, buf.contracts = some tbls ∧ calls.map (fun c => Ser.contractTable c.1) = tbls.map Outcome.ok := by
  obtain ⟨W, S, hI⟩ := serializeAll_ok (serInv_new b) hs
  rw [List.nil_append] at hI
  unfold Ser.finish at hf
  split at hf
  · cases hf
  · cases hf
  · rename_i sts1 e1
    split at hf
    · cases hf
    · cases hf
    · rename_i sts2 e2
      injection hf with hf
      subst hf
      obtain ⟨p1, p2⟩ := patch_slots _ e1
      obtain ⟨q1, q2⟩ := patch_slots _ e2
      unfold FbOut.decode at hd
      rw [Option.map_eq_some_iff] at hd
      obtain ⟨vs, h1, h2⟩ := hd
      have hv : vs.map some = sts2 := filled_mem h1
      subst h2
      have hlen : vs.length = S.length := by
        have := congrArg List.length hv
        rw [List.length_map] at this
        rw [this, q1, p1, hI.objs.slots.len]
      have hval : ∀ v ∈ vs, (∃ q sl, encodeState q = some sl ∧ sl = some v) ∨ (∃ r, v = .contractDataHandle r) ∨ ∃ r, v = .objectHandle r := by
        intro v h
        have hm : some v ∈ sts2 := by rw [← hv]; exact List.mem_map.2 ⟨v, h, rfl⟩
        rcases q2 v hm with h3 | ⟨r, h3⟩
        · rcases p2 v h3 with h4 | ⟨r, h4⟩
          · obtain ⟨i, hi⟩ := List.getElem?_of_mem h4
            have hl := (List.getElem?_eq_some_iff.1 hi).1
            rw [hI.objs.slots.len] at hl
            obtain ⟨_, _, sl, a1, a2⟩ := hI.objs.slots.slots i _ (List.getElem?_eq_getElem hl)
            rw [hi] at a2
            exact Or.inl ⟨_, sl, a1, (Option.some.inj a2).symm⟩
          · exact Or.inr (Or.inl ⟨_, h4⟩)
        · exact Or.inr (Or.inr ⟨_, h3⟩)
      have hat : ∀ (i : Nat) (v : FbVal), StateAt ⟨some s.contracts, some vs, some s.objects⟩ i v → v ∈ vs := by
        rintro i v ⟨sts, g1, g2⟩
        injection g1 with g1
        subst g1
        exact List.mem_of_getElem? g2
      refine ⟨⟨?_, ?_, ?_⟩, _, rfl, ?_⟩
      · intro p i obj sts ⟨objs, g1, g2⟩ g3 hi
        injection g1 with g1
        injection g3 with g3
        subst g1 g3
        rw [hI.objs.objs, List.getElem?_map, Option.map_eq_some_iff] at g2
        obtain ⟨w, hw, rfl⟩ := g2
        simp only [stateIdxs, WObj.table, Option.getD_some, List.map_map, List.mem_map, List.mem_range, Function.comp] at hi
        obtain ⟨n, hn, rfl⟩ := hi
        obtain ⟨x, hx, _⟩ := hI.objs.fields p w hw n _ (List.getElem?_eq_getElem hn)
        have := (List.getElem?_eq_some_iff.1 hx).1
        rw [BitVec.toNat_ofNat, hlen]
        exact Nat.lt_of_le_of_lt (Nat.mod_le _ _) this
      · intro i g h
        rcases hval _ (hat _ _ h) with ⟨q, sl, h3, h4⟩ | ⟨r, h3⟩ | ⟨r, h3⟩
        · subst h4
          unfold encodeState at h3
          split at h3 <;> cases h3
        · cases h3
        · cases h3
      · intro i h
        rcases hval _ (hat _ _ h) with ⟨q, sl, h3, h4⟩ | ⟨r, h3⟩ | ⟨r, h3⟩
        · subst h4
          unfold encodeState at h3
          split at h3 <;> cases h3
        · cases h3
        · cases h3
      · have := hI.tables
        rw [List.map_map] at this
        exact this

/-- The tables read from anything that was saved to a file. -/
theorem saved_file {c : Cycle} {b : Baseline} {bytes : Bytes} (h : c.save b = .ok bytes) (hl : bytes.length < 2 ^ 31) :
    ∃ (s : Ser) (out : FbOut), (Ser.new b).serializeAll c.calls = (s, .ok ()) ∧ s.finish c.ordC c.ordO = .ok out ∧ root bytes = out.decode := by
  obtain ⟨hm, he, ho⟩ := serializeAll_sim c.calls (mirrors_new b)
  have hp := he.pow (Or.inl rfl)
  unfold Cycle.save at h
  cases hb : (SerB.new b).serializeAll c.calls with
  | mk sb rb =>
    cases hs : (Ser.new b).serializeAll c.calls with
    | mk s rs =>
      rw [hb, hs] at hm ho
      rw [hb] at hp h
      simp only at hm ho hp h
      cases ho with
      | err m => simp at h
      | panic m => simp at h
      | ok a b' _ =>
        simp only at h
        rcases finish_sim hm hp (ident := SerB.prefixBytes) rfl c.ordC c.ordO with ⟨m, h1, h2⟩ | ⟨out, h1, h2⟩
        · exact absurd (h.symm.trans h1) (by simp)
        · rcases h2 with ⟨h3, _⟩ | ⟨bs, h3, _, h5⟩
          · exact absurd (h.symm.trans h3) (by simp)
          · have := h.symm.trans h3
            injection this with this
            subst this
            exact ⟨s, out, rfl, h1, h5 hl⟩

end Verif.Fb
