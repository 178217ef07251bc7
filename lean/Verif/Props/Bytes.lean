import Verif.Proofs.Bytes
import Verif.Proofs.FbCut
import Verif.Proofs.SizeBytes
import Verif.Props.CycleIff
import Verif.Props.Transparent
import Verif.Props.SerializeErr
/-!
# C127–C131: files (and C51, C55 of files)
-/
namespace Verif.Props
open Verif Verif.Spec Verif.Fb

/-! ## C130: the size of a file -/

/-- **C130.** Whatever is saved, the file is a multiple of four bytes long, and its size is bounded linearly by the numbers of contracts,
of their declared states, of objects, of states of objects, and of the bytes of text in it. -/
theorem C130_file_size {c : Cycle} {b : Baseline} {bytes : Bytes} (h : c.save b = .ok bytes) :
    4 ∣ bytes.length ∧ ∀ cs : List (ContractTy × Idx), c.Fits cs →
      bytes.length ≤ 101 + 226 * cs.length + 13 * fieldCount cs + 56 * objectCount b cs + 190 * stateCount b cs + textBytes b cs := by
  refine ⟨?_, fun cs hc => saveAs_size (ident := SerB.prefixBytes) rfl h hc.1⟩
  rcases saveAs_sim c b (ident := SerB.prefixBytes) rfl with ⟨m, h1, _⟩ | ⟨m, h1, _⟩ | ⟨h1, _⟩ | ⟨bs, h1, h2, _⟩
  all_goals rw [saveAs_prefix, h] at h1; try cases h1
  exact h2

/-- What is within the reader's limit of a million tables is below 2 GiB, if it does not have too much text. -/
theorem small_file {c : Cycle} {b : Baseline} {bytes : Bytes} (h : c.save b = .ok bytes) {cs : List (ContractTy × Idx)} (hc : c.Fits cs)
    (hs : savedTables b cs ≤ 1000000) (ht : 13 * fieldCount cs + textBytes b cs ≤ 2000000000) : bytes.length < 2 ^ 31 := by
  have := (C130_file_size h).2 cs hc
  unfold savedTables at hs
  omega

/-! ## C127: what is saved can be restored -/

/-- **C127.** A file below 2 GiB restores to exactly what restoring the tables it was made from gives: all results about saving and
restoring hold of files. -/
theorem C127_files_are_faithful {c : Cycle} {b : Baseline} {bytes : Bytes} (h : c.save b = .ok bytes) (hl : bytes.length < 2 ^ 31) :
    c.load bytes = c.run b := by
  rcases saveAs_sim c b (ident := SerB.prefixBytes) rfl with ⟨m, h1, _⟩ | ⟨m, h1, _⟩ | ⟨h1, _⟩ | ⟨bs, h1, _, h3⟩
  all_goals rw [saveAs_prefix, h] at h1; try cases h1
  exact h3 hl

/-- **C127.** The same when saving fails: what goes wrong in writing the file goes wrong in the tables, with the same message, and what goes wrong in
the tables before there is a file goes wrong in writing it.  (A handle state that `finish` leaves without a value shows in writing the file as an overflow, in
the tables as a file that cannot be read.) -/
theorem C127_failures_are_faithful (c : Cycle) (b : Baseline) :
    (∀ m, c.save b = .err m → c.run b = .err m) ∧
    (∀ m, c.save b = .panic m → c.run b = .panic m ∨ (m = overflow ∧ c.run b = .err "Error while verifying flatbuffer")) ∧
    ∀ m, c.run b = .panic m → c.save b = .panic m ∨ ∃ bytes, c.save b = .ok bytes ∧ (bytes.length < 2 ^ 31 → c.load bytes = .panic m) := by
  rcases saveAs_sim c b (ident := SerB.prefixBytes) rfl with ⟨m, h1, h2⟩ | ⟨m, h1, h2⟩ | ⟨h1, h2⟩ | ⟨bs, h1, _, h3⟩
  all_goals rw [saveAs_prefix] at h1
  · refine ⟨fun k hk => ?_, fun k hk => ?_, fun k hk => ?_⟩
    · rw [h1] at hk; cases hk; exact h2
    · rw [h1] at hk; cases hk
    · rw [h2] at hk; cases hk
  · refine ⟨fun k hk => ?_, fun k hk => ?_, fun k hk => ?_⟩
    · rw [h1] at hk; cases hk
    · rw [h1] at hk; cases hk; exact .inl h2
    · rw [h2] at hk; cases hk; exact .inl h1
  · refine ⟨fun k hk => ?_, fun k hk => ?_, fun k hk => ?_⟩
    · rw [h1] at hk; cases hk
    · rw [h1] at hk; cases hk; exact .inr ⟨rfl, h2⟩
    · rw [h2] at hk; cases hk
  · refine ⟨fun k hk => ?_, fun k hk => ?_, fun k hk => .inr ⟨bs, h1, fun hl => ?_⟩⟩
    · rw [h1] at hk; cases hk
    · rw [h1] at hk; cases hk
    · rw [h3 hl]; exact hk

/-- The other direction: what can be restored was saved. -/
theorem save_of_run {c : Cycle} {b : Baseline} {x : List (ContractTy × Idx) × Baseline} (h : c.run b = .ok x) : ∃ bytes, c.save b = .ok bytes := by
  rcases saveAs_sim c b (ident := SerB.prefixBytes) rfl with ⟨m, _, h1⟩ | ⟨m, _, h1⟩ | ⟨_, h1⟩ | ⟨bs, h1, _, _⟩
  · rw [h] at h1; cases h1
  · rw [h] at h1; cases h1
  · rw [h] at h1; cases h1
  · exact ⟨bs, h1⟩

/-- **C127.** Contracts that can be saved (and do not have almost two gigabytes of text) are written to a file, and whoever reads that
file (`d` chooses the types' order, the kind of baseline and all hash orders independently of the writer `c`) gets a baseline
with the same contents, which can be saved again. -/
theorem C127_file_restores {kind : Kind} {evs : List Event} {b : Baseline} {cs : List (ContractTy × Idx)} (hS : Savable kind evs b cs)
    (ht : 13 * fieldCount cs + textBytes b cs ≤ 2000000000) (c : Cycle) (hc : c.Fits cs) :
    ∃ bytes : Bytes, c.save b = .ok bytes ∧ ∀ d : Cycle, d.types.Perm (cs.map Prod.fst) →
      ∃ (cs' : List (ContractTy × Idx)) (b' : Baseline) (φ ψ : Idx → Idx) (evs' : List Event),
        d.load bytes = .ok (cs', b') ∧ SameContents b cs b' cs' φ ψ ∧ Savable d.kind evs' b' cs' := by
  obtain ⟨_, _, _, _, _, h1, _⟩ := C78_savable_again hS c hc
  obtain ⟨bytes, h2⟩ := save_of_run h1
  refine ⟨bytes, h2, fun d hd => ?_⟩
  have hl := small_file h2 hc hS.size ht
  have hx := C78_savable_again hS ⟨c.calls, c.ordC, c.ordO, d.types, d.kind, d.sched, d.ord, d.hord⟩ ⟨hc.1, hd⟩
  obtain ⟨cs', b', φ, ψ, evs', r1, r2, r3⟩ := hx
  refine ⟨cs', b', φ, ψ, evs', ?_, r2, r3⟩
  have hs : Cycle.save ⟨c.calls, c.ordC, c.ordO, d.types, d.kind, d.sched, d.ord, d.hord⟩ b = .ok bytes := h2
  have := C127_files_are_faithful hs hl
  rw [r1] at this
  exact this

/-- **C127.** In every reachable baseline, contracts used with their own types can be written to a file that can be read back if and only
if `Survives` holds, whatever the choices; and what is read back has the same contents. -/
theorem C127_exactly {kind : Kind} {evs : List Event} {b : Baseline} (hH : History kind evs b) {cs : List (ContractTy × Idx)}
    (hu : UsedAs evs b cs) (ht : 13 * fieldCount cs + textBytes b cs ≤ 2000000000) (c : Cycle) (hc : c.Fits cs) :
    ((∃ bytes x, c.save b = .ok bytes ∧ bytes.length < 2 ^ 31 ∧ c.load bytes = .ok x) ↔ Survives b cs) ∧
    ∀ (bytes : Bytes) (cs' : List (ContractTy × Idx)) (b' : Baseline), c.save b = .ok bytes → bytes.length < 2 ^ 31 →
      c.load bytes = .ok (cs', b') → ∃ φ ψ : Idx → Idx, SameContents b cs b' cs' φ ψ := by
  obtain ⟨h1, h2⟩ := C116_exactly hH hu c hc
  refine ⟨⟨?_, fun hS => ?_⟩, ?_⟩
  · rintro ⟨bytes, x, e1, e2, e3⟩
    rw [C127_files_are_faithful e1 e2] at e3
    exact h1.1 (by rw [e3]; rfl)
  · have hr := h1.2 hS
    cases hx : c.run b with
    | err m => rw [hx] at hr; cases hr
    | panic m => rw [hx] at hr; cases hr
    | ok x =>
      obtain ⟨bytes, e⟩ := save_of_run hx
      have hl := small_file e hc hS.size ht
      exact ⟨bytes, x, e, hl, by rw [C127_files_are_faithful e hl, hx]⟩
  · intro bytes cs' b' e1 e2 e3
    rw [C127_files_are_faithful e1 e2] at e3
    exact h2 cs' b' e3

/-! A graph of objects of two contracts that refer to each other, with strings, numbers and both kinds of handles: a file of 568
bytes. -/

example : ∃ bytes : Bytes, (demoCycle graphCs).save graphB = .ok bytes ∧ ∃ (cs' : List (ContractTy × Idx)) (b' : Baseline) (φ ψ : Idx → Idx),
    (mainCycle graphCs).load bytes = .ok (cs', b') ∧ SameContents graphB graphCs b' cs' φ ψ := by
  obtain ⟨bytes, h1, h2⟩ := C127_file_restores graph_savable (by decide +kernel) _ (demoCycle_fits _)
  obtain ⟨cs', b', φ, ψ, _, h3, h4, _⟩ := h2 (mainCycle graphCs) (mainCycle_fits _).2
  exact ⟨bytes, h1, cs', b', φ, ψ, h3, h4⟩

/-- The file of the tag, byte by byte. -/
def tagFile : Bytes := [20, 0, 0, 0, 84, 80, 70, 49, 0, 0, 10, 0, 16, 0, 4, 0, 8, 0, 12, 0, 10, 0, 0, 0, 32, 0, 0, 0, 16, 0, 0, 0, 4, 0, 0,
  0, 1, 0, 0, 0, 48, 0, 0, 0, 2, 0, 0, 0, 84, 0, 0, 0, 20, 0, 0, 0, 1, 0, 0, 0, 116, 0, 0, 0, 8, 0, 12, 0, 7, 0, 8, 0, 8, 0, 0, 0, 0, 0, 0,
  14, 4, 0, 0, 0, 172, 255, 255, 255, 156, 255, 255, 255, 80, 0, 0, 0, 4, 0, 0, 0, 2, 0, 0, 0, 16, 0, 0, 0, 4, 0, 0, 0, 222, 255, 255, 255,
  1, 0, 0, 0, 208, 255, 255, 255, 8, 0, 14, 0, 7, 0, 8, 0, 8, 0, 0, 0, 0, 0, 0, 12, 12, 0, 0, 0, 0, 0, 6, 0, 8, 0, 4, 0, 6, 0, 0, 0, 4, 0,
  0, 0, 1, 0, 0, 0, 97, 0, 0, 0, 4, 0, 4, 0, 4, 0, 0, 0, 244, 255, 255, 255, 76, 0, 0, 0, 12, 0, 0, 0, 8, 0, 12, 0, 4, 0, 8, 0, 8, 0, 0, 0,
  16, 0, 0, 0, 4, 0, 0, 0, 2, 0, 0, 0, 11, 13, 0, 0, 2, 0, 0, 0, 16, 0, 0, 0, 4, 0, 0, 0, 2, 0, 0, 0, 111, 102, 0, 0, 5, 0, 0, 0, 108, 97,
  98, 101, 108, 0, 0, 0, 8, 0, 12, 0, 8, 0, 6, 0, 8, 0, 0, 0, 0, 0, 2, 0, 4, 0, 0, 0, 3, 0, 0, 0, 116, 97, 103, 0]

theorem tag_file : (demoCycle [(tagC, h0)]).save tagB = .ok tagFile := by decide +kernel

/-! Saving fails with an error if the contract is not there, and panics if a state refers to a contract that is not saved. -/

example : (demoCycle [(tagC, h0)]).save (Baseline.new .main) = .err "no contract exists for that handle" := by decide +kernel
example : (demoCycle [(tagC, h0)]).save ((Baseline.new .main).runOps [.register tagC,
    .create tagC h0 [.primitive (.string "a"), .primitive (.contractDataHandle h1)] []]).2 = .panic "No such handle was serialized" := by
  decide +kernel

/-! ## C128: files cut short -/

/-- **C128.** Take any file (saved by this library or not) and any reader.  What is left of it after it was cut off anywhere is refused, or
read as exactly what the whole file is read as. -/
theorem C128_cut_files {bytes part : Bytes} (hc : CutTo bytes part) (c : Cycle) :
    c.load part = .err "Error while verifying flatbuffer" ∨ c.load part = c.load bytes := by
  obtain ⟨rest, rfl⟩ := hc
  cases h : root part with
  | none => exact Or.inl (restoreBytes_none h ..)
  | some buf =>
    refine Or.inr ?_
    unfold Cycle.load
    rw [restoreBytes_some h, restoreBytes_some (root_mono part rest buf h)]

/-- **C128.** Bytes after the end of a file that is accepted change nothing. -/
theorem C128_trailing_bytes {bytes : Bytes} {c : Cycle} (h : c.load bytes ≠ .err "Error while verifying flatbuffer") (more : Bytes) :
    c.load (bytes ++ more) = c.load bytes := by
  rcases C128_cut_files (bytes := bytes ++ more) (part := bytes) ⟨more, rfl⟩ c with h1 | h1
  · exact absurd h1 h
  · exact h1.symm

/-- **C128.** Opening a file never panics, whatever bytes it consists of. -/
theorem C128_open_never_panics (bytes : Bytes) (kind : Kind) : (newBytes bytes kind).isPanic = false := by
  unfold newBytes
  cases h : root bytes with
  | none => rfl
  | some buf =>
    simp only
    have := C101_reader_limit_partial buf kind
    cases hb : Builder.new buf kind with
    | ok x => rfl
    | err m => rfl
    | panic m =>
      rw [hb] at this
      simp only [Outcome.isOk, Outcome.isErr, Bool.false_eq_true, false_iff] at this
      omega

/-- The file of nothing. -/
def nothingFile : Bytes := [20, 0, 0, 0, 84, 80, 70, 49, 0, 0, 10, 0, 16, 0, 4, 0, 8, 0, 12, 0, 10, 0, 0, 0, 20, 0, 0, 0, 12, 0, 0, 0, 4, 0, 0, 0, 0, 0, 0, 0, 0, 0, 0, 0, 0, 0, 0, 0]

theorem nothing_file {c : Cycle} {b : Baseline} (h : c.calls = []) : c.save b = .ok nothingFile := by
  have hn : ∀ o : IterOrder (Idx × Nat), o.order [] = [] := fun o => List.perm_nil.1 (o.perm [])
  unfold Cycle.save
  rw [h]
  show (SerB.new b).finish c.ordC c.ordO = _
  unfold SerB.finish SerB.finishWith
  show (match SerB.patch b _ _ _ _ _ (c.ordC.order []) _ _ with | .err m => _ | .panic m => _ | .ok (f1, sts1) => _) = _
  rw [hn]
  simp only [SerB.patch]
  show (match SerB.patch b _ _ _ _ _ (c.ordO.order []) _ _ with | .err m => _ | .panic m => _ | .ok (f1, sts1) => _) = _
  rw [hn]
  simp only [SerB.patch]
  have hX : ((Fbb.empty.createVecOff []).bind fun (f3, cs) => (f3.createVecOff []).bind fun (f4, sts) =>
      (f4.createVecOff []).bind fun (f5, os) => (f5.createBaseline cs sts os).bind fun (f6, r) => f6.finish r SerB.prefixBytes) =
      some nothingFile := by decide +kernel
  have hX' : (((SerB.new b).fbb.createVecOff (SerB.new b).contracts).bind fun (f3, cs) => (f3.createVecOff []).bind fun (f4, sts) =>
      (f4.createVecOff []).bind fun (f5, os) => (f5.createBaseline cs sts os).bind fun (f6, r) => f6.finish r SerB.prefixBytes) =
      some nothingFile := hX
  erw [hX']

/-- **C128.** Whenever at least four bytes at the end of a saved file are missing, the file is refused, whoever reads it: an interrupted
write does not go unnoticed.  (Up to three bytes at the end can be padding.) -/
theorem C128_missing_end {c : Cycle} {b : Baseline} {bytes part : Bytes} (h : c.save b = .ok bytes) (hl : bytes.length < 2 ^ 31)
    (hc : CutTo bytes part) (hm : part.length + 4 ≤ bytes.length) (d : Cycle) : d.load part = .err "Error while verifying flatbuffer" := by
  obtain ⟨rest, hr⟩ := hc
  have hy : 4 ≤ rest.length := by rw [hr, List.length_append] at hm; omega
  suffices hroot : root part = none from restoreBytes_none hroot ..
  cases hcalls : c.calls with
  | nil =>
    have := nothing_file (b := b) hcalls
    rw [h] at this
    cases this
    have ht : part = nothingFile.take part.length := by rw [hr, List.take_left]
    have hlen : part.length < 48 := by
      have : nothingFile.length = 48 := by decide +kernel
      omega
    have hall : ∀ n < 48, root (nothingFile.take n) = none := by decide +kernel
    rw [ht]
    exact hall _ hlen
  | cons x rest' =>
    obtain ⟨C, hd, ord⟩ := x
    obtain ⟨m1, e1, _⟩ := serializeAll_sim c.calls (mirrors_new b)
    have hp := e1.pow (Or.inl rfl)
    unfold Cycle.save at h
    have hf : ∀ s, (SerB.new b).serializeAll c.calls = (s, .ok ()) → FirstNeeded s := by
      intro s hs
      rw [hcalls] at hs
      unfold SerB.serializeAll at hs
      obtain ⟨m2, _, _⟩ := serialize_sim (mirrors_new b) C hd ord
      cases h1 : (SerB.new b).serialize C hd ord with
      | mk s1 r =>
        rw [h1] at hs m2
        cases r with
        | err m => simp at hs
        | panic m => simp at hs
        | ok u =>
          cases u
          simp only at hs
          have := serializeAll_first rest' m2 (serialize_first h1)
          rw [hs] at this
          exact this
    cases hb : (SerB.new b).serializeAll c.calls with
    | mk s r =>
      rw [hb] at h m1 hp
      cases r with
      | err m => simp at h
      | panic m => simp at h
      | ok u =>
        cases u
        exact finish_cut m1 hp (ident := SerB.prefixBytes) rfl h hl (hf s hb) hr hy

/-- **C128.** A saved file of which only whole words (or sectors, or pages) arrived, but not all, is refused. -/
theorem C128_missing_words {c : Cycle} {b : Baseline} {bytes part : Bytes} (h : c.save b = .ok bytes) (hl : bytes.length < 2 ^ 31)
    (hc : CutTo bytes part) (hw : 4 ∣ part.length) (hne : part ≠ bytes) (d : Cycle) : d.load part = .err "Error while verifying flatbuffer" := by
  refine C128_missing_end h hl hc ?_ d
  have h4 := (C130_file_size h).1
  obtain ⟨rest, rfl⟩ := hc
  rw [List.length_append] at h4 ⊢
  have : rest ≠ [] := by rintro rfl; simp at hne
  have := List.length_pos_iff.2 this
  omega

/-! Four is the least such number: the last three bytes of the file of the graph are padding, and without them it is read as before; one more
byte is too much.  Without any contract, the file consists of 48 bytes, all of them needed. -/

example : (match (demoCycle graphCs).save graphB with
    | .ok bytes => decide (bytes.length = 568) && (root (bytes.take 565)).isSome && (root (bytes.take 564)).isNone
    | _ => false) = true := by decide +kernel
example : ∀ n < 48, root (nothingFile.take n) = none := by decide +kernel
example : (root nothingFile).isSome = true := by decide +kernel

/-! Both happen: without its last byte the file of the tag is refused (the zero byte that ends a string is missing), and with more bytes it is
read as before. -/

example : root (tagFile.take 275) = none := by decide +kernel
example : (root tagFile).isSome = true := by decide +kernel

/-! ## C129: the file identifier -/

/-- The file with its identifier overwritten. -/
def withIdent (bytes ident : Bytes) : Bytes := bytes.take 4 ++ ident ++ bytes.drop 8

/-- **C129 (partial: the claim itself is false).** A saved file carries the identifier "TPF1" in its bytes 4 to 7, but the reader does not look at it:
whatever four bytes are put there, the file is read as before. -/
theorem C129_identifier_partial {c : Cycle} {b : Baseline} {bytes : Bytes} (h : c.save b = .ok bytes) :
    (bytes.drop 4).take 4 = "TPF1".toUTF8.data.toList ∧
    (bytes.length < 2 ^ 31 → ∀ ident : Bytes, ident.length = 4 → ∀ d : Cycle, d.load (withIdent bytes ident) = d.load bytes) := by
  obtain ⟨pre, post, hpre, hall⟩ := saveAs_idents h
  have hb : bytes = pre ++ SerB.prefixBytes ++ post := by
    have := hall SerB.prefixBytes rfl
    rw [saveAs_prefix, h] at this
    injection this
  have hd4 : bytes.drop 4 = SerB.prefixBytes ++ post := by
    rw [hb, List.append_assoc, ← hpre, List.drop_left]
  refine ⟨?_, fun hl ident hid d => ?_⟩
  · rw [hd4]
    show [(84 : UInt8), 80, 70, 49] = _
    decide +kernel
  · have hw : withIdent bytes ident = pre ++ ident ++ post := by
      unfold withIdent
      have h1 : bytes.take 4 = pre := by rw [hb, List.append_assoc, ← hpre, List.take_left]
      have h2 : bytes.drop 8 = post := by
        rw [show 8 = 4 + 4 from rfl, ← List.drop_drop, hd4]
        exact List.drop_left (l₁ := SerB.prefixBytes)
      rw [h1, h2]
    have hs := hall ident hid
    rw [← hw] at hs
    have hlen : (withIdent bytes ident).length = bytes.length := by
      rw [hw, hb]
      simp only [List.length_append, hid]
      rfl
    have key : ∀ (i bs : Bytes), i.length = 4 → c.saveAs i b = .ok bs → bs.length < 2 ^ 31 →
        Cycle.load d bs = Cycle.run ⟨c.calls, c.ordC, c.ordO, d.types, d.kind, d.sched, d.ord, d.hord⟩ b := by
      intro i bs hi e l
      have e' : Cycle.saveAs ⟨c.calls, c.ordC, c.ordO, d.types, d.kind, d.sched, d.ord, d.hord⟩ i b = .ok bs := e
      rcases saveAs_sim ⟨c.calls, c.ordC, c.ordO, d.types, d.kind, d.sched, d.ord, d.hord⟩ b (ident := i) hi with
        ⟨m, h1, _⟩ | ⟨m, h1, _⟩ | ⟨h1, _⟩ | ⟨bs', h1, _, h3⟩
      all_goals rw [e'] at h1; try cases h1
      exact h3 l
    rw [key ident _ hid hs (by rw [hlen]; exact hl), key SerB.prefixBytes bytes rfl h hl]

/-- **C129 is false**: not every file without the identifier "TPF1" is refused. -/
theorem C129_negation : ¬ ∀ (c : Cycle) (bytes : Bytes), (bytes.drop 4).take 4 ≠ "TPF1".toUTF8.data.toList → (c.load bytes).isOk = false := by
  intro hall
  obtain ⟨bytes, h1, h2⟩ := C127_file_restores tag_savable (by decide +kernel) (demoCycle [(tagC, h0)]) (demoCycle_fits _)
  obtain ⟨cs', b', _, _, _, h3, _⟩ := h2 (demoCycle [(tagC, h0)]) (demoCycle_fits _).2
  rw [tag_file] at h1
  injection h1 with h1
  subst h1
  have h4 := (C129_identifier_partial tag_file).2 (by decide +kernel) [0, 0, 0, 0] rfl (demoCycle [(tagC, h0)])
  have h5 := hall (demoCycle [(tagC, h0)]) (withIdent tagFile [0, 0, 0, 0]) (by decide +kernel)
  rw [h4, h3] at h5
  cases h5

/-! ## C131: damaged and hostile files -/

/-- **C131 (partial: the claim itself is false).** Whatever the bytes of a file are, restoring from it gives an error, or exactly the contracts asked
for, all different, in a baseline that could have been made by calls of the public functions; it panics only if the file
is accepted by the verifier and an object of one of the contracts asked for has one of three defects (a state number out of range,
an unknown kind of value, a string value without a string). -/
theorem C131_any_file_partial (bytes : Bytes) (c : Cycle) :
    (∀ (cs : List (ContractTy × Idx)) (b : Baseline), c.load bytes = .ok (cs, b) →
      cs.map Prod.fst = c.types ∧ (cs.map Prod.snd).Nodup ∧ ∃ evs, History c.kind evs b) ∧
    ((c.load bytes).isPanic = true → ∃ buf, root bytes = some buf ∧ ¬ NoHiddenIn buf c.types) := by
  cases h : root bytes with
  | none =>
    have e : c.load bytes = .err "Error while verifying flatbuffer" := restoreBytes_none h ..
    rw [e]
    exact ⟨fun _ _ h => (by cases h), fun h => (by cases h)⟩
  | some buf =>
    have e : c.load bytes = restore buf c.kind c.types c.sched c.ord c.hord := restoreBytes_some h ..
    rw [e]
    refine ⟨fun cs b hr => ?_, fun hp => ⟨buf, rfl, fun hn => ?_⟩⟩
    · have hids := (restore_needs hr).2.2
      obtain ⟨h1, evs, h2, _⟩ := restore_typed hr hids
      exact ⟨(restore_inv hr).1, h1, evs, h2⟩
    · rw [C55_restore_no_panic_partial hn] at hp
      cases hp

/-- **C131 is false**: damage to a single byte of a saved file goes unnoticed (the object is gone without an error), or makes
restoring it panic. -/
theorem C131_negation :
    (∃ (c : Cycle) (b : Baseline) (bytes : Bytes) (i : Nat), c.save b = .ok bytes ∧ (c.load (bytes.set i 0)).isPanic = true) ∧
    (∃ (c : Cycle) (b : Baseline) (bytes : Bytes) (i : Nat) (cs cs' : List (ContractTy × Idx)) (b1 b2 : Baseline), c.save b = .ok bytes ∧
      c.load bytes = .ok (cs, b1) ∧ c.load (bytes.set i 0) = .ok (cs', b2) ∧ objectCount b1 cs = 1 ∧ objectCount b2 cs' = 0) := by
  refine ⟨⟨demoCycle [(tagC, h0)], tagB, tagFile, 44, tag_file, by decide +kernel⟩, demoCycle [(tagC, h0)], tagB, tagFile, 36, ?_⟩
  have h1 : ((demoCycle [(tagC, h0)]).load tagFile).isOk = true := by decide +kernel
  have h2 : ((demoCycle [(tagC, h0)]).load (tagFile.set 36 0)).isOk = true := by decide +kernel
  have c1 : (match (demoCycle [(tagC, h0)]).load tagFile with | .ok (cs, b) => objectCount b cs | _ => 0) = 1 := by decide +kernel
  have c2 : (match (demoCycle [(tagC, h0)]).load (tagFile.set 36 0) with | .ok (cs, b) => objectCount b cs | _ => 1) = 0 := by decide +kernel
  cases e1 : (demoCycle [(tagC, h0)]).load tagFile with
  | err m => rw [e1] at h1; cases h1
  | panic m => rw [e1] at h1; cases h1
  | ok x =>
    cases e2 : (demoCycle [(tagC, h0)]).load (tagFile.set 36 0) with
    | err m => rw [e2] at h2; cases h2
    | panic m => rw [e2] at h2; cases h2
    | ok y =>
      rw [e1] at c1
      rw [e2] at c2
      exact ⟨x.1, y.1, x.2, y.2, tag_file, rfl, rfl, c1, c2⟩

/-! ## C51 of files -/

/-- **C51, of files (partial: the claim itself is false).** If a contract with an object that has a handle state is saved twice, no file below
2 GiB comes of it that any reader accepts: the placeholder left for the second occurrence is never an offset to a readable table. -/
theorem C51_files_partial {c d : Cycle} {b : Baseline} {bytes : Bytes} {i j : Nat} {C : ContractTy} {h o : Idx} {o1 o2 : HashOrder}
    (hij : i ≠ j) (hi : c.calls[i]? = some (C, h, o1)) (hj : c.calls[j]? = some (C, h, o2)) (ho : o ∈ objectsOf b h) {n : Nat} {f : Field}
    (hf : C.states[n]? = some f) (ht : f.ty = .prim .objectHandle ∨ f.ty = .prim .contractDataHandle)
    (hs : c.save b = .ok bytes) (hl : bytes.length < 2 ^ 31) : d.load bytes = .err "Error while verifying flatbuffer" := by
  have hs' : Cycle.save ⟨c.calls, c.ordC, c.ordO, d.types, d.kind, d.sched, d.ord, d.hord⟩ b = .ok bytes := hs
  have e := C127_files_are_faithful hs' hl
  show Cycle.load ⟨c.calls, c.ordC, c.ordO, d.types, d.kind, d.sched, d.ord, d.hord⟩ bytes = _
  obtain ⟨hm, he, hor⟩ := serializeAll_sim c.calls (mirrors_new b)
  have hp := he.pow (Or.inl rfl)
  unfold Cycle.save at hs
  rw [e]
  unfold Cycle.run
  cases hb : (SerB.new b).serializeAll c.calls with
  | mk sb rb =>
    rw [hb] at hs hm hor hp
    cases rb with
    | err m => cases hs
    | panic m => cases hs
    | ok u =>
      simp only at hs hm hor hp
      cases hss : (Ser.new b).serializeAll c.calls with
      | mk s rs =>
        rw [hss] at hm hor
        simp only at hm hor
        cases hor with
        | ok _ u' _ =>
          simp only
          rcases finish_sim hm hp (ident := SerB.prefixBytes) rfl c.ordC c.ordO with ⟨m, h1, h2⟩ | ⟨out, h1, _⟩
          · have : sb.finish c.ordC c.ordO = .panic m := h1
            rw [this] at hs; cases hs
          · rw [h1]
            simp only
            rw [C51_repeated_handles_break hij hi hj ho hf ht (by rw [hss]) h1]

/-- Two nodes that refer to each other, saved twice: the placeholder would be before the beginning of the file, and `finish` panics. -/
example : ((demoCycle [(nodeC, h0), (nodeC, h0)]).save graphB).isPanic = true := by decide +kernel

/-- Saved seven times, there is a file (of 1852 bytes), and nobody can read it. -/
example : ∃ bytes, (demoCycle (List.replicate 7 (nodeC, h0))).save graphB = .ok bytes ∧
    ∀ d : Cycle, d.load bytes = .err "Error while verifying flatbuffer" := by
  have h : (match (demoCycle (List.replicate 7 (nodeC, h0))).save graphB with | .ok b => b.length | _ => 0) = 1852 := by decide +kernel
  cases e : (demoCycle (List.replicate 7 (nodeC, h0))).save graphB with
  | err m => rw [e] at h; cases h
  | panic m => rw [e] at h; cases h
  | ok bytes =>
    rw [e] at h
    simp only at h
    exact ⟨bytes, rfl, fun d => C51_files_partial (i := 0) (j := 1) (n := 1) (o := h0) (by decide) rfl rfl
      (by rw [graph_objects.1]; decide) rfl (.inl rfl) e (by rw [h]; decide)⟩

end Verif.Props
