import Verif.Model.Macro
import Verif.Proofs.Contract
/-!
# C47: the derive numbers fields by declaration order
-/
namespace Verif.Props
open Verif

/-- The lists that have been generated for the fields `fs`, numbered from `i`. -/
theorem expandFields_spec (fs : List (String × PropType)) (i : Nat) (acc : Expansion) :
    ((∃ f ∈ fs, f.1 ∈ reservedNames) → (expandFields i acc fs).isErr = true) ∧
    ((∀ f ∈ fs, f.1 ∉ reservedNames) → expandFields i acc fs = .ok
      ⟨acc.fields ++ fs, acc.getters ++ fs.map (fun f => (f.1, f.1, f.2)),
        acc.inits ++ (fs.zipIdx i).map (fun f => (f.1.1, f.2)), acc.typeIds ++ fs.map Prod.snd,
        acc.propTypes ++ fs.map Prod.snd, acc.names ++ fs.map Prod.fst⟩) := by
  induction fs generalizing i acc with
  | nil => exact ⟨by simp, by simp [expandFields]⟩
  | cons f fs ih =>
    obtain ⟨name, ty⟩ := f
    obtain ⟨ih1, ih2⟩ := ih (i + 1)
      ⟨acc.fields ++ [(name, ty)], acc.getters ++ [(name, name, ty)], acc.inits ++ [(name, i)],
          acc.typeIds ++ [ty], acc.propTypes ++ [ty], acc.names ++ [name]⟩
    constructor
    · rintro ⟨f, hf, hr⟩
      unfold expandFields
      by_cases hn : name ∈ reservedNames
      · rw [if_pos (by simpa using hn)]; rfl
      · rw [if_neg (by simpa using hn)]
        rcases List.mem_cons.1 hf with rfl | hf
        · exact absurd hr hn
        · exact ih1 ⟨f, hf, hr⟩
    · intro hr
      unfold expandFields
      rw [if_neg (by simpa using hr (name, ty) (by simp)), ih2 fun f hf => hr f (by simp [hf])]
      simp [List.zipIdx_cons]

theorem find_by_name {α β : Type} [DecidableEq α] (l : List (α × β)) (hnd : (l.map Prod.fst).Nodup) {i : Nat} {a : α} {b : β}
    (h : l[i]? = some (a, b)) : (l.find? fun p => p.1 = a) = some (a, b) := by
  induction l generalizing i with
  | nil => simp at h
  | cons x l ih =>
    simp only [List.map_cons, List.nodup_cons] at hnd
    rcases i with _ | i
    · simp at h; subst h; simp
    · simp at h
      have : x.1 ≠ a := by
        intro e
        exact hnd.1 (by rw [e]; exact List.mem_map.2 ⟨_, List.mem_of_getElem? h, rfl⟩)
      rw [List.find?_cons_of_neg (by simpa using this)]
      exact ih hnd.2 h

/-- **C47.** The macro rejects everything but structs with named fields none of which is reserved.  Otherwise the lists
of types, type ids and names have one entry for each field, in declaration order; and, when the field names differ (rustc
requires it), the getter of the `i`-th field returns the id with index `i`, the declared type and the contract's handle,
which is the `i`-th id the field iterators produce for a contract with these fields, both as states and as channels. -/
theorem C47_fields_numbered (d : MData) :
    ((expandProps d).isErr = true ↔ (∀ fs, d ≠ .struct_ (.named fs)) ∨
      ∃ fs, d = .struct_ (.named fs) ∧ ∃ f ∈ fs, f.1 = "type_ids" ∨ f.1 = "enumerate_types" ∨ f.1 = "field_names") ∧
    (expandProps d).isPanic = false ∧
    ∀ (fs : List (String × PropType)) (e : Expansion), d = .struct_ (.named fs) → expandProps d = .ok e →
      e.typeIds = fs.map Prod.snd ∧ e.propTypes = fs.map Prod.snd ∧ e.names = fs.map Prod.fst ∧
      ((fs.map Prod.fst).Nodup → ∀ (h : Idx) (i : Nat) (name : String) (ty : PropType), fs[i]? = some (name, ty) →
        e.get h name = some ⟨ty, ⟨i, h⟩⟩ ∧
        ∀ C : ContractTy,
          (C.states = fs.map (fun f => ⟨f.1, f.2⟩) → (C.stateIds h)[i]? = e.get h name ∧ C.stateId h i = e.get h name) ∧
          (C.channels = fs.map (fun f => ⟨f.1, f.2⟩) → (C.channelIds h)[i]? = e.get h name ∧ C.chanId h i = e.get h name)) := by
  have hres : ∀ s : String, s ∈ reservedNames ↔ s = "type_ids" ∨ s = "enumerate_types" ∨ s = "field_names" := by
    intro s; simp [reservedNames]
  have hcases : (∃ fs, d = .struct_ (.named fs)) ∨ ((∀ fs, d ≠ .struct_ (.named fs)) ∧ (expandProps d).isErr = true) := by
    rcases d with (fs | ts | _) | _ | _
    · exact .inl ⟨fs, rfl⟩
    all_goals exact .inr ⟨fun fs => by simp, rfl⟩
  rcases hcases with ⟨fs, rfl⟩ | ⟨h1, h2⟩
  · obtain ⟨s1, s2⟩ := expandFields_spec fs 0 ⟨[], [], [], [], [], []⟩
    have key : (∃ f ∈ fs, f.1 ∈ reservedNames) ∨ ∀ f ∈ fs, f.1 ∉ reservedNames := by
      by_cases hx : ∃ f ∈ fs, f.1 ∈ reservedNames
      · exact .inl hx
      · exact .inr fun f hf hr => hx ⟨f, hf, hr⟩
    have hE : expandProps (.struct_ (.named fs)) = expandFields 0 ⟨[], [], [], [], [], []⟩ fs := rfl
    rw [hE]
    rcases key with hk | hk
    · have he := s1 hk
      obtain ⟨f, hf, hr⟩ := hk
      refine ⟨⟨fun _ => .inr ⟨fs, rfl, f, hf, (hres _).1 hr⟩, fun _ => he⟩, ?_, ?_⟩
      · cases hx : expandFields 0 ⟨[], [], [], [], [], []⟩ fs <;> rw [hx] at he <;> first | rfl | cases he
      · intro fs' e _ heq
        rw [heq] at he; cases he
    · have he := s2 hk
      rw [he]
      refine ⟨⟨(fun h => by cases h), ?_⟩, rfl, ?_⟩
      · rintro (h | ⟨fs', e, f, hf, hr⟩)
        · exact absurd rfl (h fs)
        · simp at e; subst e
          exact absurd ((hres _).2 hr) (hk f hf)
      · intro fs' e e1 e2
        simp at e1; subst e1
        injection e2 with e2; subst e2
        refine ⟨by simp, by simp, by simp, ?_⟩
        intro hnd h i name ty hi
        have hget : Expansion.get ⟨[] ++ fs, [] ++ fs.map (fun f => (f.1, f.1, f.2)),
            [] ++ (fs.zipIdx 0).map (fun f => (f.1.1, f.2)), [] ++ fs.map Prod.snd,
            [] ++ fs.map Prod.snd, [] ++ fs.map Prod.fst⟩ h name = some ⟨ty, ⟨i, h⟩⟩ := by
          unfold Expansion.get Expansion.construct
          simp only [List.nil_append]
          have g1 := find_by_name (fs.map fun f => (f.1, f.1, f.2)) (by simpa [List.map_map, Function.comp_def] using hnd)
            (i := i) (a := name) (b := (name, ty)) (by simp [hi])
          rw [g1]
          simp only
          have g2 := find_by_name ((fs.zipIdx 0).map fun f => (f.1.1, f.2)) (by
            have : ((fs.zipIdx 0).map fun f => (f.1.1, f.2)).map Prod.fst = fs.map Prod.fst := by
              apply List.ext_getElem?
              intro n
              simp only [List.getElem?_map, List.getElem?_zipIdx, Option.map_map]
              cases fs[n]? <;> rfl
            rw [this]; exact hnd) (i := i) (a := name) (b := i) (by simp [List.getElem?_zipIdx, hi])
          have g3 := find_by_name (fs.map fun f => (f.1, (((fs.zipIdx 0).map fun f => (f.1.1, f.2)).find? fun p => p.1 = f.1).map
            fun p => (⟨f.2, ⟨p.2, h⟩⟩ : DynId))) (by simpa [List.map_map, Function.comp_def] using hnd)
            (i := i) (a := name) (b := some ⟨ty, ⟨i, h⟩⟩) (by
              rw [List.getElem?_map, hi]
              simp only [Option.map_some]
              rw [g2]
              rfl)
          rw [g3]; rfl
        refine ⟨hget, ?_⟩
        intro C
        rw [hget]
        have hl := (List.getElem?_eq_some_iff.1 hi).1
        constructor
        · intro hC
          constructor
          · rw [ContractTy.stateIds_eq]
            simp [ContractTy.stateTypes, hC, hi, DynId.new]
          · simp [ContractTy.stateId, ContractTy.stateTypes, hC, hi, DynId.new]
        · intro hC
          constructor
          · rw [ContractTy.channelIds_eq]
            simp [ContractTy.channelTypes, hC, hi, DynId.new]
          · simp [ContractTy.chanId, ContractTy.channelTypes, hC, hi, DynId.new]
  · refine ⟨⟨fun _ => .inl h1, fun _ => h2⟩, ?_, ?_⟩
    · cases hx : expandProps d <;> rw [hx] at h2 <;> first | rfl | cases h2
    · intro fs e h; exact absurd h (h1 fs)

/-- An accepted struct with three fields, and the four kinds of rejected inputs. -/
example : (match expandProps (.struct_ (.named [("hp", .prim .u8), ("label", .prim .string), ("path", .vec .f32)])) with
    | .ok e => e.get ⟨3, 1⟩ "path" | _ => none) = some ⟨.vec .f32, ⟨2, ⟨3, 1⟩⟩⟩ ∧
    (expandProps (.struct_ (.named [("hp", .prim .u8), ("field_names", .prim .u8)]))).isErr = true ∧
    (expandProps (.struct_ .unit)).isErr = true ∧ (expandProps (.struct_ (.unnamed [.prim .u8]))).isErr = true ∧
    (expandProps .enum_).isErr = true := by decide +kernel

end Verif.Props
