import Verif.Props.SaveRestore
/-!
# C101: what was saved can be restored, however large

The serializer has no limit on the number of tables it writes; the reader refuses a buffer with more than a million.
-/
namespace Verif.Props
open Verif Spec Arena Baseline Store

/-- `DeserializerBuilder::new` accepts a buffer if and only if it has at most a million tables, and it never panics. -/
theorem C101_reader_limit_partial (buf : FbBaseline) (kind : Kind) :
    ((Builder.new buf kind).isOk = true ↔ buf.tables ≤ 1000000) ∧
    ((Builder.new buf kind).isErr = true ↔ 1000000 < buf.tables) := by
  by_cases h : maxTables < buf.tables
  · rw [builder_new_err kind h]
    have h : 1000000 < buf.tables := h
    simp only [Outcome.isOk, Outcome.isErr, Bool.false_eq_true, false_iff, true_iff]
    omega
  · obtain ⟨bd, e, _⟩ := builder_new buf (by omega) kind
    rw [e]
    have h : ¬ 1000000 < buf.tables := h
    simp only [Outcome.isOk, Outcome.isErr, Bool.false_eq_true, false_iff, true_iff]
    omega

/-- The number of tables of the buffer. -/
theorem saved_tables {kind : Kind} {evs : List Event} {b : Baseline} {cs : List (ContractTy × Idx)}
    (hW : CanWrite kind evs b cs) {calls : List (ContractTy × Idx × HashOrder)}
    (hcalls : calls.map (fun c => (c.1, c.2.1)) = cs) {ordC ordO : IterOrder (Idx × Nat)} {s : Ser} {out : FbOut}
    {buf : FbBaseline} (h1 : (Ser.new b).serializeAll calls = (s, .ok ())) (h2 : s.finish ordC ordO = .ok out)
    (h3 : out.decode = some buf) : buf.tables = savedTables b cs := by
  obtain ⟨W, S, hI⟩ := serializeAll_ok (serInv_new b) h1
  rw [List.nil_append, hcalls] at hI
  obtain ⟨out', buf', hf, hd, hO⟩ := finish_output hW.serializable.storable hW.history hW.different hW.objects hI
    (resolved_of_closed hW.serializable.storable hW.history hW.different hW.closed hI) ordC ordO
  rw [h2] at hf; injection hf with hf; subst hf
  rw [h3] at hd; injection hd with hd; subst hd
  exact Output.tables hI hO

theorem canWrite_perm {kind : Kind} {evs : List Event} {b : Baseline} {cs cs' : List (ContractTy × Idx)}
    (hS : CanWrite kind evs b cs) (hp : cs'.Perm cs) : CanWrite kind evs b cs' ∧ savedTables b cs' = savedTables b cs := by
  have hm : ∀ {C : ContractTy} {h : Idx}, (C, h) ∈ cs' ↔ (C, h) ∈ cs := hp.mem_iff
  have e1 : objectCount b cs' = objectCount b cs := perm_sum (hp.map _)
  have e2 : stateCount b cs' = stateCount b cs := perm_sum (hp.map _)
  refine ⟨⟨hS.history, ⟨?_, ?_, ?_, ?_, ?_⟩, ⟨?_, ?_⟩, (hp.map _).nodup_iff.2 hS.different, ?_, ?_, ?_, ?_⟩, ?_⟩
  · intro C h m; exact hS.serializable.registered C h (hm.1 m)
  · intro C C' h o m; exact hS.serializable.typed C C' h o (hm.1 m)
  · intro C h o m; exact hS.serializable.present C h o (hm.1 m)
  · intro C h f m; exact hS.serializable.primitive C h f (hm.1 m)
  · rw [hp.length_eq]; exact hS.serializable.few
  · intro C h o n f v m l e1 e2 e3
    obtain ⟨C', h', m', l'⟩ := hS.closed.objects C h o n f v (hm.1 m) l e1 e2 e3
    exact ⟨C', h', hm.2 m', l'⟩
  · intro C h o n f v m l e1 e2 e3
    obtain ⟨C', m'⟩ := hS.closed.contracts C h o n f v (hm.1 m) l e1 e2 e3
    exact ⟨C', hm.2 m'⟩
  · intro e he; exact hS.notNull e (hp.mem_iff.1 he)
  · intro C k he; exact hS.noChannels C k (hp.mem_iff.1 he)
  · rw [e1]; exact hS.objects
  · rw [e2]; exact hS.states
  · unfold savedTables; rw [e1, e2, hp.length_eq]

/-- **C101, partial.** Contracts that can be written out are always written out, whatever the choices and however large
they are; and reading the result back succeeds if and only if it has at most a million tables.  Otherwise the reader's
very first call returns an error. -/
theorem C101_exactly_partial {kind : Kind} {evs : List Event} {b : Baseline} {cs : List (ContractTy × Idx)}
    (hW : CanWrite kind evs b cs) (c : Cycle) (hc : c.Fits cs) :
    (∃ (s : Ser) (out : FbOut) (buf : FbBaseline), (Ser.new b).serializeAll c.calls = (s, .ok ()) ∧
      s.finish c.ordC c.ordO = .ok out ∧ out.decode = some buf ∧
      ∀ kind' : Kind, (Builder.new buf kind').isOk = true ↔ savedTables b cs ≤ 1000000) ∧
    ((c.run b).isOk = true ↔ savedTables b cs ≤ 1000000) ∧
    (1000000 < savedTables b cs → c.run b = .err "Error while verifying flatbuffer") := by
  obtain ⟨hp, hty⟩ := hc
  obtain ⟨hW1, hsz⟩ := canWrite_perm hW hp
  obtain ⟨s, out, buf, r1, r2, r3, r4⟩ := C48_round_trip hW1.history hW1.serializable hW1.closed hW1.different
    hW1.notNull hW1.noChannels hW1.objects hW1.states c.calls rfl c.ordC c.ordO
  have ht := saved_tables hW1 rfl r1 r2 r3
  have hrun : c.run b = restore buf c.kind c.types c.sched c.ord c.hord := by
    unfold Cycle.run; rw [r1]; simp only; rw [r2]; simp only; rw [r3]
  have hbig : 1000000 < savedTables b cs → c.run b = .err "Error while verifying flatbuffer" := by
    intro hb
    rw [hrun]
    unfold restore
    rw [builder_new_err c.kind (show maxTables < buf.tables by rw [ht, hsz]; exact hb)]
  refine ⟨⟨s, out, buf, r1, r2, r3, fun kind' => ?_⟩, ⟨fun h => ?_, fun h => ?_⟩, hbig⟩
  · rw [(C101_reader_limit_partial buf kind').1, ht, hsz]
  · by_cases hb : 1000000 < savedTables b cs
    · rw [hbig hb] at h; cases h
    · omega
  · obtain ⟨cs', b', φ, ψ, e1, e2⟩ := r4 (by rw [hsz]; exact h) c.types (hty.trans (hp.map _).symm) c.kind c.sched
      c.ord c.hord
    rw [hrun, e1]; rfl

/-- One contract with `n` objects of `k` states each takes `4 + (2 + 3 k) n` tables. -/
theorem saved_one (b : Baseline) (C : ContractTy) (h : Idx) :
    savedTables b [(C, h)] = 4 + (2 + 3 * C.states.length) * (objectsOf b h).length := by
  simp only [savedTables, objectCount, stateCount, List.map_cons, List.map_nil, List.sum_cons, List.sum_nil,
    List.length_cons, List.length_nil, Nat.add_mul, Nat.add_zero]
  have : 3 * C.states.length * (objectsOf b h).length = 3 * ((objectsOf b h).length * C.states.length) := by
    rw [Nat.mul_assoc, Nat.mul_comm C.states.length]
  omega

/-- A reachable baseline in which `C` is registered with `n` live objects, all created with `C`. -/
def Many (kind : Kind) (C : ContractTy) (n : Nat) : Prop :=
  ∃ (evs : List Event) (b : Baseline) (h : Idx) (objs : List Idx), History kind evs b ∧
    b.contracts.get h = some ⟨C.id, objs⟩ ∧ objs.length = n ∧ (∀ o ∈ objs, ∃ ob, b.objects.get o = some ob) ∧
    ∀ (C' : ContractTy) (h' o : Idx), CreatedAs evs C' h' o → C' = C

theorem many (kind : Kind) {C : ContractTy} (hch : C.channels = []) {ss : List DynProp}
    (hss : ss.map DynProp.propType = C.stateTypes) (n : Nat) : Many kind C n := by
  induction n with
  | zero =>
    have hH := runOps_trace (Baseline.new kind) [.register C]
    rcases registerContract_cases (Baseline.new kind) C with ⟨⟨h, cd, h1, _⟩, _⟩ | ⟨_, hr⟩
    · have h1 : (Arena.new : Arena ContractData).get h = some cd := h1
      rw [get_new] at h1; cases h1
    · refine ⟨_, _, (((Baseline.new kind).contracts.insert ⟨C.id, []⟩).2), [], hH, ?_, rfl, by simp, ?_⟩
      · show (((Baseline.new kind).registerContract C).1).contracts.get _ = _
        rw [hr]
        exact get_insert_self (a := (Baseline.new kind).contracts) new_inv _
      · rintro C' h' o ⟨ss', cs', hm⟩
        simp [Baseline.runOps] at hm
  | succ n ih =>
    obtain ⟨evs, b, h, objs, hH, hc, hl, hlive, hty⟩ := ih
    have hB := history_binv hH
    obtain ⟨cons, hm, hcr⟩ := objectCreate_ok (C := C) (ss := ss) (cs := []) hc hss (by
      simp [ContractTy.channelTypes, hch])
    have hfr := insert_fresh hB.o.inv (createdObj b h ss [])
    have hget := get_insert hB.o.inv (createdObj b h ss [])
    generalize hins : b.objects.insert (createdObj b h ss []) = ins at hm hcr hfr hget
    obtain ⟨objs', o⟩ := ins
    simp only at hm hcr hfr hget
    have hnew : o ∉ objs := by
      intro ho
      obtain ⟨ob, e⟩ := hlive o ho
      rw [hfr] at e; cases e
    refine ⟨evs ++ [(.create C h ss [], (b.step (.create C h ss [])).2)], (b.step (.create C h ss [])).1, h,
      objs.insert o, ?_, ?_, ?_, ?_, ?_⟩
    · exact Trace.append hH (.cons _ _ _ _ (.nil _))
    · show (b.objectCreate C h ss []).1.contracts.get h = _
      rw [hcr]
      show cons.get h = _
      rw [get_modify hm, if_pos rfl, hc]; rfl
    · rw [List.length_insert_of_not_mem hnew, hl]
    · show ∀ o' ∈ objs.insert o, ∃ ob, (b.objectCreate C h ss []).1.objects.get o' = some ob
      rw [hcr]
      intro o' ho'
      simp only
      rw [hget]
      by_cases e : o' = o
      · rw [if_pos e]; exact ⟨_, rfl⟩
      · rw [if_neg e]
        rcases List.mem_insert_iff.1 ho' with e' | e'
        · exact absurd e' e
        · exact hlive o' e'
    · rintro C' h' o' ⟨ss', cs', hmem⟩
      rcases List.mem_append.1 hmem with hmem | hmem
      · exact hty C' h' o' ⟨ss', cs', hmem⟩
      · simp only [List.mem_singleton, Prod.mk.injEq, BOp.create.injEq] at hmem
        exact hmem.1.1

/-- Any number of objects of a contract without channels and handles can be written out. -/
theorem many_canWrite (kind : Kind) {C : ContractTy} (hch : C.channels = [])
    (hnull : C.id ≠ ⟨"teleportal.serialize.NullContract", (0, 0, 0)⟩)
    (hplain : ∀ f ∈ C.states, (∃ p, f.ty = .prim p) ∧ f.ty ≠ .prim .objectHandle ∧ f.ty ≠ .prim .contractDataHandle)
    {ss : List DynProp} (hss : ss.map DynProp.propType = C.stateTypes) (n : Nat) (hn : n ≤ 2 ^ 32)
    (hn' : n * C.states.length ≤ 2 ^ 32) :
    ∃ (evs : List Event) (b : Baseline) (h : Idx), CanWrite kind evs b [(C, h)] ∧ (objectsOf b h).length = n := by
  obtain ⟨evs, b, h, objs, hH, hc, hl, hlive, hty⟩ := many kind hch hss n
  have hobj : objectsOf b h = objs := objectsOf_eq (contractData_ok.2 hc)
  have hone : ∀ {C' : ContractTy} {h' : Idx}, (C', h') ∈ [(C, h)] → C' = C ∧ h' = h := by
    intro C' h' hm; simpa using hm
  refine ⟨evs, b, h, ⟨hH, ⟨?_, ?_, ?_, ?_, by simp⟩, ⟨?_, ?_⟩, by simp, by simpa using hnull, by intro C' k m hne; simp at m; rw [m.1] at hne; exact absurd hch hne, ?_, ?_⟩,
    by rw [hobj, hl]⟩
  · intro C' h' m; obtain ⟨rfl, rfl⟩ := hone m; exact ⟨_, contractData_ok.2 hc, rfl⟩
  · intro C' C'' h' o m hcr; obtain ⟨rfl, rfl⟩ := hone m; exact hty _ _ _ hcr
  · intro C' h' o m ho
    obtain ⟨rfl, rfl⟩ := hone m
    rw [hobj] at ho
    obtain ⟨ob, e⟩ := hlive o ho
    exact ⟨ob, object_ok.2 e⟩
  · intro C' h' f m hf; obtain ⟨rfl, rfl⟩ := hone m; exact (hplain f hf).1
  · intro C' h' o n f v m _ hf ht
    obtain ⟨rfl, rfl⟩ := hone m
    exact absurd ht (hplain f (List.mem_of_getElem? hf)).2.1
  · intro C' h' o n f v m _ hf ht
    obtain ⟨rfl, rfl⟩ := hone m
    exact absurd ht (hplain f (List.mem_of_getElem? hf)).2.2
  · simp [objectCount, hobj, hl]; omega
  · simp [stateCount, hobj, hl]; omega

/-- Ten numbers, like the states of a ball (demos). -/
def tenC : ContractTy := ⟨⟨"ten", (1, 0, 0)⟩, List.replicate 10 ⟨"x", .prim .u8⟩, []⟩

/-- For every number of objects there is a baseline with that many, all written out; exactly up to 31,249 objects of ten
states can be read back, and exactly up to 499,998 objects without states. -/
theorem C101_thresholds_partial (n : Nat) (hn : 10 * n ≤ 2 ^ 32) :
    (∃ (evs : List Event) (b : Baseline) (h : Idx), CanWrite .main evs b [(tenC, h)] ∧ (objectsOf b h).length = n ∧
      ∀ c : Cycle, c.Fits [(tenC, h)] → ((c.run b).isOk = true ↔ n ≤ 31249)) ∧
    ∃ (evs : List Event) (b : Baseline) (h : Idx), CanWrite .main evs b [(otherC, h)] ∧ (objectsOf b h).length = n ∧
      ∀ c : Cycle, c.Fits [(otherC, h)] → ((c.run b).isOk = true ↔ n ≤ 499998) := by
  constructor
  · obtain ⟨evs, b, h, hW, hl⟩ := many_canWrite .main (C := tenC) rfl (by decide)
      (fun f hf => by rw [List.eq_of_mem_replicate hf]; exact ⟨⟨_, rfl⟩, by decide, by decide⟩)
      (ss := List.replicate 10 (.primitive (.u8 0))) (by decide) n (by omega)
      (by show n * 10 ≤ _; omega)
    refine ⟨evs, b, h, hW, hl, fun c hc => ?_⟩
    rw [(C101_exactly_partial hW c hc).2.1, saved_one, hl]
    show 4 + (2 + 3 * 10) * n ≤ 1000000 ↔ _
    omega
  · obtain ⟨evs, b, h, hW, hl⟩ := many_canWrite .main (C := otherC) rfl (by decide)
      (fun f hf => by cases hf) (ss := []) (by decide) n (by omega) (by show n * 0 ≤ _; omega)
    refine ⟨evs, b, h, hW, hl, fun c hc => ?_⟩
    rw [(C101_exactly_partial hW c hc).2.1, saved_one, hl]
    show 4 + (2 + 3 * 0) * n ≤ 1000000 ↔ _
    omega

/-- **C101, refuted.** It is not the case that whatever can be written out can be read back. -/
theorem C101_negation : ¬ ∀ (kind : Kind) (evs : List Event) (b : Baseline) (cs : List (ContractTy × Idx)) (c : Cycle),
    CanWrite kind evs b cs → c.Fits cs → (c.run b).isOk = true := by
  intro h
  obtain ⟨⟨evs, b, k, hW, _, hiff⟩, _⟩ := C101_thresholds_partial 31250 (by omega)
  have hf := demoCycle_fits [(tenC, k)]
  have := (hiff _ hf).1 (h _ _ _ _ _ hW hf)
  omega

end Verif.Props
