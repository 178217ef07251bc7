import Verif.Proofs.DeserializerRun
/-! # The deserializer: building, runs -/
namespace Verif
open Arena Baseline Store

/-- `b` is reachable from a fresh baseline through API calls none of which panicked, and every object created on the
way was created through a contract type and handle satisfying `P`. -/
def Reach (kind : Kind) (P : ContractTy → Idx → Prop) (b : Baseline) : Prop :=
  ∃ evs, History kind evs b ∧ NoPanic evs ∧
    ∀ (C : ContractTy) (h o : Idx) (ss : List DynProp) (cs : List DynChannel),
      (BOp.create C h ss cs, Outcome.ok (some o)) ∈ evs → P C h

theorem Trace.append {b1 b2 b3 : Baseline} {e1 e2 : List Event} (h1 : Trace b1 e1 b2) (h2 : Trace b2 e2 b3) :
    Trace b1 (e1 ++ e2) b3 := by
  induction h1 with
  | nil b => exact h2
  | cons b op evs b' _ ih => exact .cons _ _ _ _ (ih h2)

theorem Reach.new (kind : Kind) (P : ContractTy → Idx → Prop) : Reach kind P (Baseline.new kind) :=
  ⟨[], .nil _, by simp [NoPanic], by simp⟩

theorem Reach.mono {kind : Kind} {P Q : ContractTy → Idx → Prop} {b : Baseline} (h : Reach kind P b)
    (hPQ : ∀ (C : ContractTy) (k : Idx), P C k → Q C k) : Reach kind Q b := by
  obtain ⟨evs, h1, h2, h3⟩ := h
  exact ⟨evs, h1, h2, fun C k o ss cs hm => hPQ C k (h3 C k o ss cs hm)⟩

theorem Reach.step {kind : Kind} {P : ContractTy → Idx → Prop} {b : Baseline} (h : Reach kind P b) (op : BOp)
    (hp : (b.step op).2.isPanic = false)
    (hP : ∀ (C : ContractTy) (k : Idx) (ss : List DynProp) (cs : List DynChannel), op = .create C k ss cs → P C k) :
    Reach kind P (b.step op).1 := by
  obtain ⟨evs, h1, h2, h3⟩ := h
  refine ⟨evs ++ [(op, (b.step op).2)], Trace.append h1 (.cons _ _ _ _ (.nil _)), ?_, ?_⟩
  · intro e he
    rcases List.mem_append.1 he with he | he
    · exact h2 e he
    · simp at he; subst he; exact hp
  · intro C k o ss cs he
    rcases List.mem_append.1 he with he | he
    · exact h3 C k o ss cs he
    · simp only [List.mem_singleton, Prod.mk.injEq] at he
      exact hP C k ss cs he.1.symm

theorem isPanic_map {α β : Type} (f : α → β) (r : Outcome α) : (r.map f).isPanic = r.isPanic := by
  cases r <;> rfl

theorem Reach.register {kind : Kind} {P : ContractTy → Idx → Prop} {b : Baseline} (h : Reach kind P b)
    (C : ContractTy) : Reach kind P (b.registerContract C).1 := by
  refine h.step (.register C) ?_ (by intros; contradiction)
  show ((b.registerContract C).2.map some).isPanic = false
  rw [isPanic_map]
  rcases registerContract_cases b C with ⟨_, e⟩ | ⟨_, e⟩ <;> rw [e] <;> rfl

theorem objectCreate_noPanic (b : Baseline) (C : ContractTy) (k : Idx) (ss : List DynProp)
    (cs : List DynChannel) : (b.objectCreate C k ss cs).2.isPanic = false := by
  rcases objectCreate_cases b C k ss cs with ⟨⟨cd, h1⟩, h2, h3⟩ | ⟨_, h2, _⟩
  · obtain ⟨cons, _, e⟩ := objectCreate_ok h1 h2 h3
    rw [e]; rfl
  · revert h2; cases (b.objectCreate C k ss cs).2 <;> simp [Outcome.isErr, Outcome.isPanic]

theorem Reach.create {kind : Kind} {P : ContractTy → Idx → Prop} {b : Baseline} (h : Reach kind P b)
    (C : ContractTy) (k : Idx) (ss : List DynProp) (cs : List DynChannel) (hP : P C k) :
    Reach kind P (b.objectCreate C k ss cs).1 := by
  refine h.step (.create C k ss cs) ?_ (by intro C' k' ss' cs' e; injection e with e1 e2; subst e1 e2; exact hP)
  show ((b.objectCreate C k ss cs).2.map some).isPanic = false
  rw [isPanic_map]; exact objectCreate_noPanic _ _ _ _ _

theorem Reach.write {kind : Kind} {P : ContractTy → Idx → Prop} {b : Baseline} (h : Reach kind P b) (t : PropType)
    (j : Idx) (v : t.Carrier) : Reach kind P (b.stateWrite t j v).1 := by
  refine h.step (.writeState t j v) ?_ (by intros; contradiction)
  show ((b.stateWrite t j v).2.map _).isPanic = false
  rw [isPanic_map]; unfold stateWrite; split <;> rfl

theorem Reach.unregister {kind : Kind} {P : ContractTy → Idx → Prop} {b : Baseline} (h : Reach kind P b)
    (C : ContractTy) (k : Idx) (ord : HashOrder) (hp : (b.unregisterContract C k ord).2.isPanic = false) :
    Reach kind P (b.unregisterContract C k ord).1 := by
  refine h.step (.unregister C k ord) ?_ (by intros; contradiction)
  show ((b.unregisterContract C k ord).2.map _).isPanic = false
  rw [isPanic_map]; exact hp

theorem builder_new_err {buf : FbBaseline} (kind : Kind) (h : maxTables < buf.tables) :
    Builder.new buf kind = .err "Error while verifying flatbuffer" := by
  unfold Builder.new; rw [if_pos h]

theorem builder_new_small {buf : FbBaseline} {kind : Kind} {bd : Builder} (h : Builder.new buf kind = .ok bd) :
    buf.tables ≤ maxTables := by
  by_cases hs : maxTables < buf.tables
  · rw [builder_new_err kind hs] at h; cases h
  · omega

/-- `DeserializerBuilder::new` on a buffer within the limit succeeds and starts from the null contract and the
null object. -/
theorem builder_new (buf : FbBaseline) (hsize : buf.tables ≤ maxTables) (kind : Kind) : ∃ bd, Builder.new buf kind = .ok bd ∧ bd.buf = buf ∧
    bd.contracts = BiMap.empty ∧ DInv (Des.new bd) [] ∧
    (∀ (k : Idx) (cd : ContractData), bd.base.contracts.get k = some cd → k = bd.nullContract) ∧
    Reach kind (fun _ k => k = bd.nullContract) bd.base := by
  unfold Builder.new
  rw [if_neg (show ¬ maxTables < buf.tables by omega)]
  rcases registerContract_cases (Baseline.new kind) nullContractTy with ⟨⟨h, cd, h1, _⟩, _⟩ | ⟨_, hr⟩
  · have h1 : (Arena.new : Arena ContractData).get h = some cd := h1
    rw [get_new] at h1; cases h1
  · rw [hr]
    simp only
    have hci : Arena.Inv (Baseline.new kind).contracts := new_inv
    have hself := get_insert_self hci ⟨nullContractTy.id, []⟩
    have hcinv := insert_inv hci ⟨nullContractTy.id, []⟩
    have hcget := get_insert hci ⟨nullContractTy.id, []⟩
    generalize hins : (Baseline.new kind).contracts.insert ⟨nullContractTy.id, []⟩ = ins at *
    obtain ⟨cons1, h⟩ := ins
    simp only at *
    obtain ⟨cons2, hm, hoc⟩ := objectCreate_ok (b := { Baseline.new kind with contracts := cons1 })
      (C := nullContractTy) (h := h) (ss := []) (cs := []) hself rfl rfl
    rw [hoc]
    have hoi : Arena.Inv (Baseline.new kind).objects := new_inv
    let ob : ObjectD := ⟨[], [], h, TimeWarp.default⟩
    have hob : createdObj { Baseline.new kind with contracts := cons1 } h [] [] = ob := rfl
    have hoself := get_insert_self hoi ob
    have hoinv := insert_inv hoi ob
    have hoget := get_insert hoi ob
    simp only [hob] at hm ⊢
    generalize hoins : (Baseline.new kind).objects.insert ob = oins at *
    obtain ⟨objs, o⟩ := oins
    simp only at *
    have hgetc : ∀ k' : Idx, cons2.get k' = if k' = h then some (addObj o ⟨nullContractTy.id, []⟩) else cons1.get k' := by
      intro k'
      rw [get_modify hm]
      split
      · rw [hself]; rfl
      · rfl
    have honly : ∀ (k : Idx) (cd : ContractData), cons2.get k = some cd → k = h := by
      intro k cd hg
      rw [hgetc] at hg
      split at hg
      · rename_i e; exact e
      · rename_i e
        rw [hcget, if_neg e] at hg
        have hg : (Arena.new : Arena ContractData).get k = some cd := hg
        rw [get_new] at hg; cases hg
    refine ⟨_, rfl, rfl, rfl, ?_, honly, ?_⟩
    · refine ⟨hoinv, modify_inv hcinv hm, Store.empty_inv, BiMap.empty_inv, BiMap.empty_inv, BiMap.empty_inv,
        hoself, ?_, ?_, ?_, ?_, ?_, ?_, ?_, ?_, ?_, ?_, ?_, ?_⟩
      · show cons2.get h = _
        rw [hgetc, if_pos rfl]; rfl
      · intro k cd hg hne; exact absurd (honly k cd hg) hne
      · intro i k hm; exact absurd hm (BiMap.mem_empty _)
      · intro o' ob' hg
        have hg : objs.get o' = some ob' := hg
        rw [hoget] at hg
        split at hg
        · rename_i e; exact .inl e
        · have hg : (Arena.new : Arena ObjectD).get o' = some ob' := hg
          rw [get_new] at hg; cases hg
      · simp
      · intro o' p'
        constructor
        · intro hm; exact absurd hm (BiMap.mem_empty _)
        · simp
      · simp
      · simp
      · simp
      · intro i j hm; exact absurd hm (BiMap.mem_empty _)
      · intro j v hg
        have hg : (Store.empty : Store PropType.Carrier).get objT j = some v := hg
        rw [Store.get_empty] at hg; cases hg
      · intro i j hm; exact absurd hm (BiMap.mem_empty _)
    · have h1 := (Reach.new kind (fun _ k => k = h)).register nullContractTy
      rw [hr] at h1
      have h2 := h1.create nullContractTy h [] [] rfl
      rw [hoc] at h2
      simpa only [hob, hoins] using h2

/-! ## Registering -/

theorem idMatches_id {C : ContractTy} {c : FbContract} (h : idMatches C c = true) :
    c.id = some ⟨some C.id.name, C.id.version⟩ := by
  unfold idMatches at h
  split at h
  · cases h
  · rename_i id hid
    split at h
    · cases h
    · rename_i name hn
      simp only [decide_eq_true_eq] at h
      obtain ⟨rfl, h2⟩ := h
      rw [hid]; cases id; simp only at hn h2; rw [hn, h2]

theorem findSerialized_ok {C : ContractTy} {buf : FbBaseline} {i : Nat} (h : findSerialized C buf = .ok i) :
    ∃ cs c, buf.contracts = some cs ∧ cs[i]? = some c ∧ idMatches C c = true ∧ schemaMatches C c = true ∧
      ∀ (j : Nat) (c' : FbContract), j < i → cs[j]? = some c' →
        ¬(idMatches C c' = true ∧ schemaMatches C c' = true) := by
  unfold findSerialized at h
  split at h
  · cases h
  · rename_i cs hcs
    split at h
    · cases h
    · rename_i i' hf
      injection h with h; subst h
      obtain ⟨hlt, h1, h2⟩ := List.findIdx?_eq_some_iff_getElem.1 hf
      simp only [Bool.and_eq_true] at h1
      refine ⟨cs, cs[i'], hcs, List.getElem?_eq_getElem hlt, h1.1, h1.2, ?_⟩
      intro j c' hj hc'
      have := h2 j hj
      obtain ⟨hl, e⟩ := List.getElem?_eq_some_iff.1 hc'
      rw [e] at this
      simpa using this

theorem findSerialized_err {C : ContractTy} {buf : FbBaseline} :
    (∃ m, findSerialized C buf = .err m) ↔ ∀ (cs : List FbContract) (c : FbContract), buf.contracts = some cs → c ∈ cs →
      ¬(idMatches C c = true ∧ schemaMatches C c = true) := by
  unfold findSerialized
  cases buf.contracts with
  | none => simp
  | some cs =>
    simp only
    cases hf : cs.findIdx? (fun c => idMatches C c && schemaMatches C c) with
    | none =>
      rw [List.findIdx?_eq_none_iff] at hf
      simp only [Option.some.injEq, Outcome.err.injEq, exists_eq', true_iff]
      rintro _ c rfl hc ⟨h1, h2⟩
      have := hf c hc
      simp [h1, h2] at this
    | some i =>
      simp only [reduceCtorEq, exists_false, false_iff]
      intro h
      obtain ⟨hlt, h1, _⟩ := List.findIdx?_eq_some_iff_getElem.1 hf
      simp only [Bool.and_eq_true] at h1
      exact h cs _ rfl (List.getElem_mem hlt) h1

theorem findSerialized_noPanic (C : ContractTy) (buf : FbBaseline) (m : String) :
    findSerialized C buf ≠ .panic m := by
  unfold findSerialized; split
  · simp
  · split <;> simp

theorem findSerialized_inj {C C' : ContractTy} {buf : FbBaseline} {i : Nat} (h : findSerialized C buf = .ok i)
    (h' : findSerialized C' buf = .ok i) : C.id = C'.id := by
  obtain ⟨cs, c, a1, a2, a3, _⟩ := findSerialized_ok h
  obtain ⟨cs', c', b1, b2, b3, _⟩ := findSerialized_ok h'
  rw [a1] at b1; injection b1 with b1; subst b1
  rw [a2] at b2; injection b2 with b2; subst b2
  have e1 := idMatches_id a3
  rw [idMatches_id b3] at e1
  simp only [Option.some.injEq, FbContractId.mk.injEq] at e1
  rcases hC : C.id with ⟨n, v⟩
  rcases hC' : C'.id with ⟨n', v'⟩
  rw [hC, hC'] at e1
  simp only at e1
  rw [e1.1, e1.2]

/-- What registering a contract does. -/
theorem register_spec {bd : Builder} (hI : DInv (Des.new bd) []) (C : ContractTy) :
    ((bd.registerContract C).1 = bd ∧ (bd.registerContract C).2.isErr = true ∧
      ((∃ m, findSerialized C bd.buf = .err m) ∨
        ∃ h cd, bd.base.contracts.get h = some cd ∧ cd.id = C.id)) ∨
    (∃ k h, findSerialized C bd.buf = .ok k ∧ (∀ (k : Idx) (cd : ContractData), bd.base.contracts.get k = some cd → cd.id ≠ C.id) ∧
      h = (bd.base.contracts.insert ⟨C.id, []⟩).2 ∧
      bd.registerContract C = ({ bd with
        base := { bd.base with contracts := (bd.base.contracts.insert ⟨C.id, []⟩).1 },
        contracts := bd.contracts.insert k h }, .ok h) ∧ bd.contracts.clashes k h = false ∧
      DInv (Des.new (bd.registerContract C).1) []) := by
  have hunf : bd.registerContract C =
    (match findSerialized C bd.buf with
      | .err m => (bd, .err m)
      | .panic m => (bd, .panic m)
      | .ok k =>
        match bd.base.registerContract C with
        | (b1, .err m) => ({ bd with base := b1 }, .err m)
        | (b1, .panic m) => ({ bd with base := b1 }, .panic m)
        | (b1, .ok h) =>
          let bd' := { bd with base := b1, contracts := bd.contracts.insert k h }
          if bd.contracts.clashes k h then (bd', .panic "assertion failed") else (bd', .ok h)) := rfl
  rw [hunf]
  cases hf : findSerialized C bd.buf with
  | err m => left; exact ⟨rfl, rfl, .inl ⟨m, rfl⟩⟩
  | panic m => exact absurd hf (findSerialized_noPanic _ _ _)
  | ok k =>
    simp only
    rcases registerContract_cases bd.base C with ⟨h1, h2⟩ | ⟨h1, h2⟩
    · left; rw [h2]; exact ⟨rfl, rfl, .inr h1⟩
    · right
      rw [h2]
      simp only
      have hfresh := insert_fresh hI.kInv (⟨C.id, []⟩ : ContractData)
      have hcl : bd.contracts.clashes k (bd.base.contracts.insert ⟨C.id, []⟩).2 = false := by
        refine BiMap.clashes_false.2 ⟨?_, ?_⟩
        · intro h' hm
          obtain ⟨_, cd, C', e1, e2, e3⟩ := hI.reg k h' hm
          exact h1 h' cd e1 (by rw [e2]; exact findSerialized_inj e3 hf)
        · intro k' hm
          obtain ⟨_, cd, C', e1, e2, e3⟩ := hI.reg k' _ hm
          have hfr : bd.base.contracts.get (bd.base.contracts.insert ⟨C.id, []⟩).2 = none := hfresh
          rw [show (Des.new bd).b.base.contracts = bd.base.contracts from rfl, hfr] at e1; cases e1
      refine ⟨k, _, rfl, h1, rfl, by rw [hcl]; rfl, hcl, ?_⟩
      rw [hcl]
      have hnull : C.id ≠ nullContractTy.id := fun e => h1 _ _ hI.nullCon e.symm
      have hget : ∀ j : Idx, (bd.base.contracts.insert ⟨C.id, []⟩).1.get j =
          if j = (bd.base.contracts.insert ⟨C.id, []⟩).2 then some ⟨C.id, []⟩ else bd.base.contracts.get j :=
        get_insert hI.kInv (⟨C.id, []⟩ : ContractData)
      have hknn : (bd.base.contracts.insert ⟨C.id, []⟩).2 ≠ bd.nullContract := by
        intro e
        have hfr : bd.base.contracts.get (bd.base.contracts.insert ⟨C.id, []⟩).2 = none := hfresh
        have := hI.nullCon
        rw [show (Des.new bd).b.base.contracts = bd.base.contracts from rfl, show (Des.new bd).b.nullContract = bd.nullContract from rfl, ← e, hfr] at this; cases this
      have hkinv : Arena.Inv (bd.base.contracts.insert ⟨C.id, []⟩).1 := insert_inv hI.kInv (⟨C.id, []⟩ : ContractData)
      simp only [Bool.false_eq_true, if_false]
      clear hfresh hunf h2
      generalize bd.base.contracts.insert ⟨C.id, []⟩ = ins at *
      obtain ⟨cons, h⟩ := ins
      simp only at *
      refine ⟨hI.oInv, hkinv, hI.sInv, BiMap.insert_inv hI.cmap _ _, hI.smap, hI.omap, hI.nullObj, ?_, ?_, ?_,
        hI.live, by simp, hI.objs, by simp, by simp, by simp, ?_, hI.store, ?_⟩
      · show cons.get bd.nullContract = _
        rw [hget, if_neg hknn.symm]; exact hI.nullCon
      · intro k' cd' hg hne
        replace hg : cons.get k' = some cd' := hg
        rw [hget] at hg
        show (∃ i, (i, k') ∈ (bd.contracts.insert k h).pairs) ∧ _
        simp only [BiMap.mem_insert_fresh hcl]
        split at hg
        · rename_i e; subst e
          injection hg with hg; subst hg
          exact ⟨⟨k, .inl ⟨rfl, rfl⟩⟩, hnull, by simp⟩
        · obtain ⟨⟨i, a1⟩, a2, a3⟩ := hI.cons k' cd' hg hne
          exact ⟨⟨i, .inr a1⟩, a2, a3⟩
      · intro i k' hm
        have hm : (i, k') ∈ (bd.contracts.insert k h).pairs := hm
        rcases (BiMap.mem_insert_fresh hcl).1 hm with ⟨rfl, rfl⟩ | hm'
        · refine ⟨hknn, ⟨C.id, []⟩, C, ?_, rfl, hf⟩
          show cons.get k' = _
          rw [hget, if_pos rfl]
        · obtain ⟨a1, cd, C', a2, a3, a4⟩ := hI.reg i k' hm'
          refine ⟨a1, cd, C', ?_, a3, a4⟩
          show cons.get k' = _
          rw [hget, if_neg]
          · exact a2
          · rintro rfl
            exact (BiMap.clashes_false.1 hcl).2 i hm'
      · intro i j hm; exact absurd hm (BiMap.mem_empty _)
      · intro i j hm; exact absurd hm (BiMap.mem_empty _)

end Verif
