import Verif.Proofs.Gc
import Verif.Props.FfiHeap
/-!
# C80: leaving wrappers to the garbage collector

`Spec/KeepAlive` states the rule a program has to add to those of `Spec/BorrowRules`; the theorems relate it to every
schedule of the collector (`GcRun`).
-/
namespace Verif.Props
open Verif Verif.Ffi

/-! ## A decision procedure for the rule, for the examples -/

instance (p : List Instr) (i : Nat) : Decidable (mentioned p i) := by unfold mentioned; infer_instance

/-- `KeepsAlive`, computed. -/
def keepsAliveB : List B → List Instr → Bool
  | _, [] => true
  | bs, .keepAlive _ :: p => keepsAliveB bs p
  | bs, .call (.dispose i) :: p => keepsAliveB (bs.modify i fun b => { b with full := false }) p
  | bs, .call (.method a args) :: p =>
      decide (∀ x ∈ a.method.sig.params.zip args, x.1.borrows = true → mentioned p (rootOf bs x.2)) &&
      keepsAliveB (after bs a.method.sig args) p

theorem keepsAliveB_iff (p : List Instr) : ∀ bs : List B, keepsAliveB bs p = true ↔ KeepsAlive bs p := by
  induction p with
  | nil => intro bs; simp [keepsAliveB, KeepsAlive]
  | cons x p ih =>
    intro bs
    cases x with
    | keepAlive i => exact ih bs
    | call c =>
      cases c with
      | dispose i => exact ih _
      | method a args =>
        simp only [keepsAliveB, KeepsAlive, Bool.and_eq_true, decide_eq_true_eq]
        exact and_congr_right fun _ => ih _

/-! ## C80 -/

/-- **C80, partial.** Take a program that follows the rules of `Spec/BorrowRules`, disposes what it likes and leaves the
rest to the collector.  If after every call that borrows from an object the object's owner is used again, then whatever
the collector's schedule, no call and no finalizer misuses native memory, and none fails.  Without the condition this is
false (`C80_negation`). -/
theorem C80_keep_alive_partial {p : List Instr} {bs : List B} (hd : Disciplined [] (calls p) bs) (hk : KeepsAlive [] p) :
    (∀ rs : List Res, GcRun World.empty p rs → ∀ r ∈ rs, ∃ n, r = .ok n) ∧ GcSafe p := by
  have h : ∀ rs : List Res, GcRun World.empty p rs → ∀ r ∈ rs, ∃ n, r = .ok n :=
    fun rs hr => gcRun_ok hr [] [] bs hd hk ⟨fun _ => rfl, fun _ _ => rfl⟩ inv_init
  refine ⟨h, fun rs hr f hf => ?_⟩
  obtain ⟨n, e⟩ := h rs hr _ hf
  cases e

/-- **C80, partial.** The condition is exact: a program that follows the borrow rules (and makes no keyframe vector, whose
memory is never freed) is safe under every schedule if and only if it keeps every owner alive over the calls that
borrow from it. -/
theorem C80_exact_partial {p : List Instr} {bs : List B} (hd : Disciplined [] (calls p) bs)
    (hv : ∀ args : List Nat, Instr.call (.method .rvecNew args) ∉ p) : GcSafe p ↔ KeepsAlive [] p := by
  constructor
  · intro hs
    apply Classical.byContradiction
    intro hk
    obtain ⟨rs, hr, f, hf⟩ := gcRun_fault p World.empty [] bs inv_init (fun b hb => by cases hb) hv hd hk
    exact hs rs hr f hf
  · exact fun hk => (C80_keep_alive_partial hd hk).2

theorem mentioned_append_right {p q : List Instr} {i : Nat} (h : mentioned q i) : mentioned (p ++ q) i := by
  obtain ⟨x, hx, hi⟩ := h
  exact ⟨x, by simp [hx], hi⟩

theorem after_length_le (bs : List B) (s : Sig) (args : List Nat) : bs.length ≤ (after bs s args).length := by
  have hp : ∀ (xs : List (Param × Nat)) (bs : List B), (xs.foldl passed bs).length = bs.length := by
    intro xs
    induction xs with
    | nil => intro bs; rfl
    | cons x xs ih =>
      intro bs
      rw [List.foldl_cons, ih]
      unfold passed
      split <;> (try split) <;> simp
  unfold after returned
  rw [← hp (s.params.zip args) bs]
  split <;> (try split) <;> simp

theorem keepsAlive_all {cs : List Call} {bs bs' : List B} (hd : Disciplined bs cs bs') (ks : List Instr)
    (hks : ∀ b, KeepsAlive b ks) : bs.length ≤ bs'.length ∧
      ((∀ i : Nat, i < bs'.length → mentioned ks i) → KeepsAlive bs (cs.map .call ++ ks)) := by
  induction hd with
  | nil bs => exact ⟨Nat.le_refl _, fun _ => hks bs⟩
  | method bs a args cs bs' hb ha _ ih =>
    refine ⟨Nat.le_trans (after_length_le bs _ args) ih.1, fun hm => ⟨?_, ih.2 hm⟩⟩
    intro x hx _
    obtain ⟨⟨b, r, h1, h2, _⟩, _⟩ := ha.2.1 x hx
    apply mentioned_append_right
    apply hm
    rw [show rootOf bs x.2 = b.root by unfold rootOf; rw [h1]; rfl]
    exact Nat.lt_of_lt_of_le (List.getElem?_eq_some_iff.1 h2).1 (Nat.le_trans (after_length_le bs _ args) ih.1)
  | dispose bs i cs bs' hl _ ih =>
    have := ih.1
    simp only [List.length_modify] at this
    exact ⟨this, fun hm => ih.2 hm⟩

theorem calls_map_append (cs : List Call) (n : List Nat) : calls (cs.map .call ++ n.map .keepAlive) = cs := by
  induction cs with
  | nil => induction n with
    | nil => rfl
    | cons i n ih => exact ih
  | cons c cs ih => exact congrArg (c :: ·) ih

theorem keepsAlive_keepAlives (n : List Nat) : ∀ b : List B, KeepsAlive b (n.map .keepAlive) := by
  induction n with
  | nil => intro b; trivial
  | cons i n ih => intro b; exact ih b

/-- **C80, partial.** Every program that follows the borrow rules becomes safe under every schedule by ending it with
`GC.KeepAlive` of every wrapper it constructed. -/
theorem C80_keep_all_partial {cs : List Call} {bs : List B} (hd : Disciplined [] cs bs) :
    GcSafe (cs.map .call ++ (List.range bs.length).map .keepAlive) := by
  refine (C80_keep_alive_partial (bs := bs) (by rw [calls_map_append]; exact hd) ?_).2
  refine (keepsAlive_all hd _ (keepsAlive_keepAlives _)).2 fun i hi => ⟨.keepAlive i, ?_, by simp [Instr.uses]⟩
  simp [hi]

theorem calls_map_append_dispose (cs : List Call) (n : List Nat) :
    calls (cs.map .call ++ n.map fun i => .call (.dispose i)) = cs ++ n.map .dispose := by
  induction cs with
  | nil => induction n with
    | nil => rfl
    | cons i n ih => exact congrArg (Call.dispose i :: ·) ih
  | cons c cs ih => exact congrArg (c :: ·) ih

theorem disciplined_disposes (n : List Nat) : ∀ bs : List B, (∀ i ∈ n, i < bs.length) →
    ∃ bs', Disciplined bs (n.map .dispose) bs' := by
  induction n with
  | nil => intro bs _; exact ⟨bs, .nil bs⟩
  | cons i n ih =>
    intro bs h
    obtain ⟨bs', hd⟩ := ih (bs.modify i fun b => { b with full := false }) (fun j hj => by simpa using h j (by simp [hj]))
    exact ⟨bs', .dispose bs i _ bs' (h i (by simp)) hd⟩

theorem disciplined_app {cs ds : List Call} {bs bs' bs'' : List B} (h1 : Disciplined bs cs bs') (h2 : Disciplined bs' ds bs'') :
    Disciplined bs (cs ++ ds) bs'' := by
  induction h1 with
  | nil bs => exact h2
  | method bs a args cs bs' hb ha _ ih => exact .method bs a args _ bs'' hb ha (ih h2)
  | dispose bs i cs bs' hl _ ih => exact .dispose bs i _ bs'' hl (ih h2)

theorem keepsAlive_disposes (n : List Nat) : ∀ b : List B, KeepsAlive b (n.map fun i => .call (.dispose i)) := by
  induction n with
  | nil => intro b; trivial
  | cons i n ih => intro b; exact ih _

/-- **C80, partial.** Every program that follows the borrow rules is safe under every schedule if it disposes every wrapper
it constructed at its end, in any order: nested `using` statements will do. -/
theorem C80_dispose_all_partial {cs : List Call} {bs : List B} (hd : Disciplined [] cs bs) (ds : List Nat)
    (hds : ds.Perm (List.range bs.length)) : GcSafe (cs.map .call ++ ds.map fun i => .call (.dispose i)) := by
  have hm : ∀ i : Nat, i ∈ ds ↔ i < bs.length := fun i => by rw [hds.mem_iff, List.mem_range]
  obtain ⟨bs', h2⟩ := disciplined_disposes ds bs fun i hi => (hm i).1 hi
  refine (C80_keep_alive_partial (bs := bs') (by rw [calls_map_append_dispose]; exact disciplined_app hd h2) ?_).2
  refine (keepsAlive_all hd _ (keepsAlive_disposes _)).2 fun i hi => ⟨.call (.dispose i), ?_, by simp [Instr.uses]⟩
  simp only [List.mem_map]
  exact ⟨i, (hm i).2 hi, rfl⟩

/-- `tidy` uses most of the API. -/
example : ∃ bs, GcSafe (tidy.map .call ++ (List.range (List.length (α := B) bs)).map .keepAlive) := by
  obtain ⟨bs, h⟩ := tidy_disciplined
  exact ⟨bs, C80_keep_all_partial h⟩

example : ∃ bs, GcSafe (tidy.map .call ++ (List.range (List.length (α := B) bs)).reverse.map fun i => .call (.dispose i)) := by
  obtain ⟨bs, h⟩ := tidy_disciplined
  exact ⟨bs, C80_dispose_all_partial h _ (List.reverse_perm _)⟩

/-- Contract data read while the baseline is kept alive; nothing is disposed. -/
def kept : List Instr :=
  [.call (.method .baselineNew []), .call (.method .exRegister [0]), .call (.method .exHandle [1]),
   .call (.method .baselineContractData [0, 2]), .call (.method .contractDataId [3]), .call (.method .contractIdName [4]),
   .keepAlive 0, .keepAlive 1, .keepAlive 2]

example : GcSafe kept := by
  refine (C80_keep_alive_partial (checkCalls_sound (calls kept) [] _
    (by decide +kernel : checkCalls [] (calls kept) = some ((checkCalls [] (calls kept)).getD []))) ?_).2
  exact (keepsAliveB_iff kept []).1 (by decide +kernel)

/-- `using` works as well: a `Dispose` at the end of the scope is a use. -/
def usingBlock : List Instr :=
  [.call (.method .baselineNew []), .call (.method .exRegister [0]), .call (.method .exHandle [1]),
   .call (.method .baselineContractData [0, 2]), .call (.method .contractDataId [3]),
   .call (.dispose 2), .call (.dispose 1), .call (.dispose 0)]

example : GcSafe usingBlock := by
  refine (C80_keep_alive_partial (checkCalls_sound (calls usingBlock) [] _
    (by decide +kernel : checkCalls [] (calls usingBlock) = some ((checkCalls [] (calls usingBlock)).getD []))) ?_).2
  exact (keepsAliveB_iff usingBlock []).1 (by decide +kernel)

/-- A program that reads a contract's data and disposes nothing. -/
def unkept : List Instr :=
  [.call (.method .baselineNew []), .call (.method .exRegister [0]), .call (.method .exHandle [1]),
   .call (.method .baselineContractData [0, 2]), .call (.method .contractDataId [3])]

/-- A program that makes a state and reads its value. -/
def readOnce : List Instr := [.call (.method (.primNew .u8) []), .call (.method (.stateNew .u8) [0]),
  .call (.method (.stateValue .u8) [1])]

/-- **C80 is false of the API.** Two programs that follow the borrow rules, so that by `C72_disciplined_partial` they are
right if no finalizer runs.  In the first the baseline is finalized between two calls, after its last use, and the
contract data then point into freed memory.  In the second the state is finalized after its pointer has been read and
before the native function runs: a single method call on a wrapper that is not used again is not safe. -/
theorem C80_negation :
    (∃ bs, Disciplined [] (calls unkept) bs) ∧
    GcRun World.empty unkept [.ok (some 0), .ok (some 1), .ok (some 2), .ok (some 3), .ok none, .fault .dangling] ∧
    (∃ bs, Disciplined [] (calls readOnce) bs) ∧
    GcRun World.empty readOnce [.ok (some 0), .ok (some 1), .ok none, .fault .dangling] := by
  refine ⟨⟨_, checkCalls_sound (calls unkept) [] _
      (by decide +kernel : checkCalls [] (calls unkept) = some ((checkCalls [] (calls unkept)).getD []))⟩, ?_,
    ⟨_, checkCalls_sound (calls readOnce) [] _
      (by decide +kernel : checkCalls [] (calls readOnce) = some ((checkCalls [] (calls readOnce)).getD []))⟩, ?_⟩
  · refine .method World.empty .baselineNew [] _ [] _ (by simp) ?_
    refine .method _ .exRegister [0] _ [] _ (by simp) ?_
    refine .method _ .exHandle [1] _ [] _ (by simp) ?_
    refine .method _ .baselineContractData [0, 2] _ [] _ (by simp) ?_
    refine .finalize _ _ 0 _ (by decide +kernel) (by decide +kernel) ?_
    exact .method _ .contractDataId [3] [] [] [] (by simp) (.stop _ _)
  · refine .method World.empty (.primNew .u8) [] _ [] _ (by simp) ?_
    refine .method _ (.stateNew .u8) [0] _ [] _ (by simp) ?_
    exact .method _ (.stateValue .u8) [1] [] [1] [] (by decide +kernel) (.stop _ _)

/-- The same from the exact criterion: neither program keeps its owner alive. -/
theorem C80_unkept_negation : ¬ GcSafe unkept ∧ ¬ GcSafe readOnce := by
  obtain ⟨_, h1, _, h2⟩ := C80_negation
  exact ⟨fun h => h _ h1 .dangling (by simp), fun h => h _ h2 .dangling (by simp)⟩

end Verif.Props
