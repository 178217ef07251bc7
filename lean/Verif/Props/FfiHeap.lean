import Verif.Proofs.FfiHeap
import Verif.Proofs.FfiExact
/-!
# C72, C73: memory safety of the C# API

`Spec/BorrowRules` states the rules (`Disciplined`); the theorems relate them to the heap of `Model/FfiHeap`.
-/
namespace Verif.Props
open Verif Verif.Ffi

/-! ## A decision procedure for the rules, for the examples -/

/-- `usable`, computed. -/
def usableB (bs : List B) (i : Nat) : Bool :=
  match bs[i]? with
  | none => false
  | some b => match bs[b.root]? with
    | none => false
    | some r => b.full && r.full && (decide (b.own = .owned) || decide (b.stamp = r.moved))

theorem usableB_iff (bs : List B) (i : Nat) : usableB bs i = true ↔ usable bs i := by
  unfold usable usableB
  constructor
  · intro h
    split at h
    · cases h
    · rename_i b hb
      split at h
      · cases h
      · rename_i r hr
        simp only [Bool.and_eq_true, Bool.or_eq_true, decide_eq_true_eq] at h
        exact ⟨b, r, hb, hr, h.1.1, h.1.2, h.2⟩
  · rintro ⟨b, r, h1, h2, h3, h4, h5⟩
    simp only [h1, h2, h3, h4, Bool.and_self, Bool.true_and, Bool.or_eq_true, decide_eq_true_eq]; exact h5

instance (bs : List B) (i : Nat) : Decidable (usable bs i) := decidable_of_decidable_of_iff (usableB_iff bs i)

instance (b : B) (q : Param) : Decidable (fits b q) := by cases q <;> (unfold fits; infer_instance)

instance (bs : List B) (i : Nat) (q : Param) : Decidable (∃ b, bs[i]? = some b ∧ fits b q) :=
  match h : bs[i]? with
  | none => isFalse (by simp)
  | some b => if hf : fits b q then isTrue ⟨b, rfl, hf⟩ else isFalse (by simpa using hf)

instance (bs : List B) (s : Sig) (args : List Nat) : Decidable (allowed bs s args) := by unfold allowed; infer_instance

/-- The checker as a program. -/
def checkCalls (bs : List B) : List Call → Option (List B)
  | [] => some bs
  | .method a args :: cs => if a.broken = false ∧ allowed bs a.method.sig args then checkCalls (after bs a.method.sig args) cs else none
  | .dispose i :: cs => if i < bs.length then checkCalls (bs.modify i fun b => { b with full := false }) cs else none

theorem checkCalls_sound (cs : List Call) : ∀ (bs bs' : List B), checkCalls bs cs = some bs' → Disciplined bs cs bs' := by
  induction cs with
  | nil => intro bs bs' h; simp only [checkCalls, Option.some.injEq] at h; subst h; exact .nil bs
  | cons c cs ih =>
    intro bs bs' h
    cases c with
    | method a args =>
      simp only [checkCalls] at h
      split at h
      · rename_i hc; exact .method bs a args cs bs' hc.1 hc.2 (ih _ _ h)
      · cases h
    | dispose i =>
      simp only [checkCalls] at h
      split at h
      · rename_i hc; exact .dispose bs i cs bs' hc (ih _ _ h)
      · cases h

theorem checkCalls_complete {cs : List Call} {bs bs' : List B} (h : Disciplined bs cs bs') : checkCalls bs cs = some bs' := by
  induction h with
  | nil bs => rfl
  | method bs a args cs bs' hb ha _ ih => simp only [checkCalls, hb, ha, and_self, if_true, ih]
  | dispose bs i cs bs' hl _ ih => simp only [checkCalls, hl, if_true, ih]

/-! ## C72 -/

/-- **C72, partial.** A C# program that follows the rules of `Spec/BorrowRules` never hands the native library a freed,
moved, wrongly typed or aliased pointer and never gets an exception: every one of its calls succeeds.  Programs that do
not follow the rules compile as well (`C72_negation`), and five methods cannot be used within them
(`C72_broken_methods_partial`). -/
theorem C72_disciplined_partial {cs : List Call} {bs : List B} (h : Disciplined [] cs bs) :
    (World.empty.run cs).2.length = cs.length ∧ ∀ r ∈ (World.empty.run cs).2, ∃ n, r = .ok n :=
  (inv_run h World.empty inv_init).2

/-- A program that uses most of the API: values, states, keyframes, a vector, a baseline with two contracts. -/
def tidy : List Call :=
  [.method (.primNew .u8) [], .method (.stateNew .u8) [0], .method (.stateValue .u8) [1], .method (.primValue .u8) [2],
   .method (.primNew .u8) [], .method (.stateSetValue .u8) [1, 3], .dispose 2, .dispose 1,
   .method .baselineNew [], .method .exRegister [4], .method .ballRegister [4], .method .exHandle [5],
   .method .baselineContractData [4, 7], .method .contractDataId [8], .method .contractIdName [9],
   .method .exStates [5], .method (.exField .u8) [10], .method (.stateIdContract .u8) [11],
   .method .rvecNew [], .method (.primNew .u8) [], .method (.keyframeNew .u8) [14], .method .rvecPush [13, 15],
   .method .rvecGet [13], .method (.keyframeValue .u8) [16], .method (.primValue .u8) [17],
   .method .ballHandle [6], .method .ballUnregister [4, 18], .dispose 4, .dispose 5, .dispose 6, .dispose 7, .dispose 11,
   .dispose 12, .dispose 13]

theorem tidy_disciplined : ∃ bs, Disciplined [] tidy bs :=
  ⟨_, checkCalls_sound tidy [] _ (by decide +kernel : checkCalls [] tidy = some ((checkCalls [] tidy).getD []))⟩

example : ∀ r ∈ (World.empty.run tidy).2, ∃ n, r = .ok n := by
  obtain ⟨bs, h⟩ := tidy_disciplined
  exact (C72_disciplined_partial h).2

/-- **C72 is false of the API**: programs that compile, use no broken method, and pass all run-time checks up to a call
with undefined behaviour.  In order: contract data used after its baseline is disposed (or finalized: a `ContractData`
does not keep the baseline alive); contract data used after another contract is registered; a state's own value assigned
to it; a keyframe of a vector used after a push; a borrowed keyframe pushed. -/
theorem C72_negation :
    (World.empty.run [.method .baselineNew [], .method .exRegister [0], .method .exHandle [1],
      .method .baselineContractData [0, 2], .dispose 0, .method .contractDataId [3]]).2 =
      [.ok (some 0), .ok (some 1), .ok (some 2), .ok (some 3), .ok none, .fault .dangling] ∧
    (World.empty.run [.method .baselineNew [], .method .exRegister [0], .method .exHandle [1],
      .method .baselineContractData [0, 2], .method .ballRegister [0], .method .contractDataId [3]]).2 =
      [.ok (some 0), .ok (some 1), .ok (some 2), .ok (some 3), .ok (some 4), .fault .dangling] ∧
    (World.empty.run [.method (.primNew .string) [], .method (.stateNew .string) [0], .method (.stateValue .string) [1],
      .method (.stateSetValue .string) [1, 2]]).2 = [.ok (some 0), .ok (some 1), .ok (some 2), .fault .notABox] ∧
    (World.empty.run [.method .rvecNew [], .method (.primNew .u8) [], .method (.keyframeNew .u8) [1], .method .rvecPush [0, 2],
      .method .rvecGet [0], .method (.primNew .u8) [], .method (.keyframeNew .u8) [4], .method .rvecPush [0, 5],
      .method (.keyframeTime .u8) [3]]).2 =
      [.ok (some 0), .ok (some 1), .ok (some 2), .ok none, .ok (some 3), .ok (some 4), .ok (some 5), .ok none, .fault .dangling] ∧
    (World.empty.run [.method .rvecNew [], .method (.primNew .u8) [], .method (.keyframeNew .u8) [1], .method .rvecPush [0, 2],
      .method .rvecGet [0], .method .rvecPush [0, 3]]).2 =
      [.ok (some 0), .ok (some 1), .ok (some 2), .ok none, .ok (some 3), .fault .notABox] := by
  decide +kernel

/-- **C72, partial.** For programs that use neither a broken method nor a vector the rules are exact: such a program follows
them if and only if every one of its calls succeeds; whoever breaks a rule gets an exception or undefined behaviour. -/
theorem C72_exact_partial (cs : List Call)
    (hc : ∀ (a : Api) (args : List Nat), .method a args ∈ cs → a.broken = false ∧ a ≠ .rvecNew) :
    (∃ bs, Disciplined [] cs bs) ↔ ∀ r ∈ (World.empty.run cs).2, ∃ n, r = .ok n :=
  ⟨fun ⟨_, h⟩ => (C72_disciplined_partial h).2, disciplined_of_ok cs World.empty [] inv_init ext_init hc⟩

/-- A program without vectors to which `C72_exact_partial` applies, and one that breaks a rule. -/
example : ∃ cs : List Call, cs.length = 7 ∧ (∀ (a : Api) (args : List Nat), .method a args ∈ cs → a.broken = false ∧ a ≠ .rvecNew) ∧
    ∃ bs, Disciplined [] cs bs := by
  refine ⟨[.method .baselineNew [], .method .exRegister [0], .method .exHandle [1], .method .baselineContractData [0, 2],
    .method .contractDataId [3], .dispose 0, .dispose 1], rfl, ?_, ?_⟩
  · intro a args h
    simp at h
    rcases h with ⟨rfl, _⟩ | ⟨rfl, _⟩ | ⟨rfl, _⟩ | ⟨rfl, _⟩ | ⟨rfl, _⟩ <;> exact ⟨rfl, by decide⟩
  · exact ⟨_, checkCalls_sound _ [] _ (by decide +kernel : checkCalls [] _ = some ((checkCalls [] [.method .baselineNew [],
      .method .exRegister [0], .method .exHandle [1], .method .baselineContractData [0, 2],
      .method .contractDataId [3], .dispose 0, .dispose 1]).getD []))⟩

example : ¬ ∃ bs, Disciplined [] [.method .baselineNew [], .method .exRegister [0], .method .exHandle [1],
    .method .baselineContractData [0, 2], .dispose 0, .method .contractDataId [3]] bs := by
  rw [C72_exact_partial]
  · intro h
    obtain ⟨n, hn⟩ := h (.fault .dangling) (by decide +kernel)
    cases hn
  · intro a args h
    simp at h
    rcases h with ⟨rfl, _⟩ | ⟨rfl, _⟩ | ⟨rfl, _⟩ | ⟨rfl, _⟩ | ⟨rfl, _⟩ <;> exact ⟨rfl, by decide⟩

/-- With vectors the rules are stricter than necessary: a disposed vector is leaked, and its keyframes can still be read. -/
theorem C72_vector_negation :
    (World.empty.run [.method .rvecNew [], .method (.primNew .u8) [], .method (.keyframeNew .u8) [1], .method .rvecPush [0, 2],
      .method .rvecGet [0], .dispose 0, .method (.keyframeTime .u8) [3]]).2 =
      [.ok (some 0), .ok (some 1), .ok (some 2), .ok none, .ok (some 3), .ok none, .ok none] ∧
    ¬ ∃ bs, Disciplined [] [.method .rvecNew [], .method (.primNew .u8) [], .method (.keyframeNew .u8) [1], .method .rvecPush [0, 2],
      .method .rvecGet [0], .dispose 0, .method (.keyframeTime .u8) [3]] bs := by
  refine ⟨by decide +kernel, ?_⟩
  rintro ⟨bs, h⟩
  have := checkCalls_complete h
  revert this
  have : checkCalls [] [.method .rvecNew [], .method (.primNew .u8) [], .method (.keyframeNew .u8) [1], .method .rvecPush [0, 2],
      .method .rvecGet [0], .dispose 0, .method (.keyframeTime .u8) [3]] = none := by decide +kernel
  rw [this]; intro h; cases h

/-- Registering either contract, and unregistering one, takes the baseline by `&mut` and may move or drop what it contains:
it invalidates all contract data obtained before. -/
theorem C72_stale_negation :
    (World.empty.run [.method .baselineNew [], .method .ballRegister [0], .method .ballHandle [1],
      .method .baselineContractData [0, 2], .method .exRegister [0], .method .contractDataId [3]]).2 =
      [.ok (some 0), .ok (some 1), .ok (some 2), .ok (some 3), .ok (some 4), .fault .dangling] ∧
    (World.empty.run [.method .baselineNew [], .method .ballRegister [0], .method .exRegister [0], .method .exHandle [2],
      .method .baselineContractData [0, 3], .method .ballHandle [1], .method .ballUnregister [0, 5],
      .method .contractDataId [4]]).2 =
      [.ok (some 0), .ok (some 1), .ok (some 2), .ok (some 3), .ok (some 4), .ok (some 5), .ok none, .fault .dangling] := by
  decide +kernel

/-- Every wrapper holds a pointer to what its class says. -/
def TypesRight (w : World) : Prop := ∀ x ∈ w.ws, ∀ p : Ptr, x.w.inner = some p → p.ty = x.cls

theorem typesRight_sub {ws ws' : List W} (h : ∀ x ∈ ws, ∀ p : Ptr, x.w.inner = some p → p.ty = x.cls)
    (hs : ∀ x ∈ ws', ∀ p, x.w.inner = some p → x ∈ ws) : ∀ x ∈ ws', ∀ p : Ptr, x.w.inner = some p → p.ty = x.cls :=
  fun x hx p hp => h x (hs x hx p hp) p hp

theorem evalPass_sub (ws : List W) (args : List Nat) (q : Pass) :
    ∀ x ∈ (World.evalPass ws args q).1, ∀ p, x.w.inner = some p → x ∈ ws := by
  intro x hx p hp
  unfold World.evalPass at hx
  split at hx
  · exact hx
  · split at hx
    · exact hx
    · rename_i i _ y hy
      cases q with
      | inner => exact hx
      | data => exact hx
      | steal =>
        simp only at hx
        cases hs : y.w.inner with
        | none => simp only [Wrapper.stealInner, hs] at hx; exact hx
        | some r =>
          simp only [Wrapper.stealInner, hs] at hx
          rcases List.mem_or_eq_of_mem_set hx with hx | rfl
          · exact hx
          · cases hp

theorem evalPasses_sub (qs : List Pass) : ∀ (ws : List W) (args : List Nat),
    ∀ x ∈ (World.evalPasses ws args qs).1, ∀ p, x.w.inner = some p → x ∈ ws := by
  induction qs with
  | nil => intro ws args x hx p hp; exact hx
  | cons q qs ih =>
    intro ws args x hx p hp
    have h1 := evalPass_sub ws args q
    simp only [World.evalPasses] at hx
    cases he : World.evalPass ws args q with
    | mk ws1 o =>
      rw [he] at hx h1
      cases o with
      | none => exact h1 x hx p hp
      | some r =>
        simp only at hx
        have h2 := ih ws1 args
        cases he2 : World.evalPasses ws1 args qs with
        | mk ws2 o2 =>
          rw [he2] at hx h2
          cases o2 <;> exact h1 x (h2 x hx p hp) p hp

theorem native_ret_ty {h h' : Heap} {s : Sig} {ptrs : List Ptr} {p : Ptr} (he : h.native s ptrs = .ok (h', some p)) :
    s.ret = .box p.ty ∨ ∃ i w, s.ret = .borrow i p.ty w := by
  unfold Heap.native at he
  split at he
  · cases he
  · simp only at he
    split at he
    · cases he
    · split at he
      · injection he with he
        cases hr : s.ret with
        | nothing => rw [hr] at he; simp [Heap.applyRet] at he
        | box t => rw [hr] at he; simp [Heap.applyRet] at he; obtain ⟨_, rfl⟩ := he; exact .inl rfl
        | borrow i t w =>
          rw [hr] at he
          simp only [Heap.applyRet] at he
          split at he
          · cases he
          · injection he with _ he; injection he with he; subst he; exact .inr ⟨i, w, rfl⟩
      · cases he

theorem api_ret_ty (a : Api) (t : NTy) (c : NTy) (o : Ownership) (hm : a.method.ret = some (c, o))
    (hr : a.method.sig.ret = .box t ∨ ∃ i w, a.method.sig.ret = .borrow i t w) : t = c := by
  cases a <;> simp [Api.method] at hm hr <;> simp_all

theorem typesRight_step (w : World) (hw : TypesRight w) (c : Call) : TypesRight (w.step c).1 := by
  cases c with
  | method a args =>
    simp only [World.step, World.call]
    split
    · exact hw
    · split
      · exact hw
      · have hs := evalPasses_sub a.method.pass w.ws args
        cases he : World.evalPasses w.ws args a.method.pass with
        | mk ws' o =>
          rw [he] at hs
          have h0 : ∀ x ∈ ws', ∀ p : Ptr, x.w.inner = some p → p.ty = x.cls := typesRight_sub hw hs
          cases o with
          | none => exact h0
          | some ptrs =>
            simp only
            split
            · exact h0
            · rename_i h' r hn
              split
              · rename_i c o p hret
                intro x hx q hq
                rcases List.mem_append.1 hx with hx | hx
                · exact h0 x hx q hq
                · simp only [List.mem_singleton] at hx
                  subst hx
                  simp only [Wrapper.new, Option.some.injEq] at hq
                  subst hq
                  exact api_ret_ty a _ c o hret (native_ret_ty hn)
              · exact h0
  | dispose i =>
    simp only [World.step, World.dispose]
    split
    · exact hw
    · rename_i x hx
      have : ∀ v : Wrapper Ptr, v.inner = none → ∀ y ∈ w.ws.set i { x with w := v }, ∀ p : Ptr, y.w.inner = some p → p.ty = y.cls := by
        intro v hv y hy p hp
        rcases List.mem_or_eq_of_mem_set hy with hy | rfl
        · exact hw y hy p hp
        · rw [show ({ x with w := v } : W).w.inner = v.inner from rfl, hv] at hp; cases hp
      simp only [Wrapper.dispose]
      split
      · rename_i w' p heq
        injection heq with h1 h2
        subst h1
        split
        · exact this _ rfl
        · split <;> exact this _ rfl
      · rename_i w' _ _ heq
        injection heq with h1 h2
        subst h1
        exact this _ rfl

theorem typesRight_run (cs : List Call) : ∀ (w : World), TypesRight w → TypesRight (w.run cs).1 := by
  induction cs with
  | nil => intro w hw; exact hw
  | cons c cs ih =>
    intro w hw
    have h1 := typesRight_step w hw c
    simp only [World.run]
    cases he : w.step c with
    | mk w' r =>
      rw [he] at h1
      cases r <;> first | exact h1 | exact ih w' h1

/-- What two evaluated arguments are. -/
theorem evalPasses_two {ws ws' : List W} {args : List Nat} {q1 q2 : Pass} {ptrs : List Ptr}
    (h : World.evalPasses ws args [q1, q2] = (ws', some ptrs)) :
    ∃ p1 p2, ptrs = [p1, p2] ∧ (World.evalPass ws args q1).2 = some p1 ∧
      (World.evalPass (World.evalPass ws args q1).1 args q2).2 = some p2 := by
  simp only [World.evalPasses] at h
  cases e1 : World.evalPass ws args q1 with
  | mk w1 o1 =>
    rw [e1] at h
    cases o1 with
    | none => cases h
    | some p1 =>
      simp only at h
      cases e2 : World.evalPass w1 args q2 with
      | mk w2 o2 =>
        rw [e2] at h
        cases o2 with
        | none => cases h
        | some p2 =>
          simp only [Prod.mk.injEq, Option.some.injEq] at h
          exact ⟨p1, p2, h.2.symm, rfl, by simp only [e2]⟩

theorem evalPass_some {ws : List W} {args : List Nat} {q : Pass} {p : Ptr} (h : (World.evalPass ws args q).2 = some p) :
    ∃ i x p0, args[q.idx]? = some i ∧ ws[i]? = some x ∧ x.w.inner = some p0 ∧
      (p = p0 ∨ (∃ k, q = .data k) ∧ p = ⟨p0.alloc, .keyframe .u8, true, true, p0.ver⟩) := by
  unfold World.evalPass at h
  split at h
  · cases h
  · rename_i i hi
    split at h
    · cases h
    · rename_i x hx
      refine ⟨i, x, ?_⟩
      cases q with
      | inner k => exact ⟨p, hi, hx, h, .inl rfl⟩
      | steal k =>
        cases hs : x.w.inner with
        | none => simp only [Wrapper.stealInner, hs] at h; cases h
        | some r =>
          simp only [Wrapper.stealInner, hs, Option.some.injEq] at h
          exact ⟨r, hi, hx, rfl, .inl h.symm⟩
      | data k =>
        simp only [Option.map_eq_some_iff] at h
        obtain ⟨r, hr, rfl⟩ := h
        exact ⟨r, hi, hx, hr, .inr ⟨⟨k, rfl⟩, rfl⟩⟩

theorem evalPass_inner (ws : List W) (args : List Nat) (k : Nat) : (World.evalPass ws args (.inner k)).1 = ws := by
  unfold World.evalPass
  split
  · rfl
  · split <;> rfl

theorem evalPasses_length (qs : List Pass) : ∀ (ws ws' : List W) (args : List Nat) (ptrs : List Ptr),
    World.evalPasses ws args qs = (ws', some ptrs) → ptrs.length = qs.length := by
  induction qs with
  | nil => intro ws ws' args ptrs h; simp only [World.evalPasses, Prod.mk.injEq, Option.some.injEq] at h; rw [← h.2]; rfl
  | cons q qs ih =>
    intro ws ws' args ptrs h
    simp only [World.evalPasses] at h
    cases e1 : World.evalPass ws args q with
    | mk w1 o1 =>
      rw [e1] at h
      cases o1 with
      | none => cases h
      | some p1 =>
        simp only at h
        cases e2 : World.evalPasses w1 args qs with
        | mk w2 o2 =>
          rw [e2] at h
          cases o2 with
          | none => cases h
          | some p2 =>
            simp only [Prod.mk.injEq, Option.some.injEq] at h
            rw [← h.2, List.length_cons, List.length_cons, ih w1 w2 args p2 e2]

theorem native_wrongType {h : Heap} {s : Sig} {ptrs : List Ptr} {k : Nat} {q : Param} {p : Ptr} (hq : s.params[k]? = some q)
    (hp : ptrs[k]? = some p) (hne : p.ty ≠ q.ty) : ∃ f, h.native s ptrs = .error f := by
  unfold Heap.native
  split
  · exact ⟨_, rfl⟩
  · simp only
    cases hf : (s.params.zip ptrs).findSome? fun x => h.checkParam x.1 x.2 with
    | some f => exact ⟨f, rfl⟩
    | none =>
      rw [List.findSome?_eq_none_iff] at hf
      have := hf (q, p) (mem_zip_of_get hq hp)
      unfold Heap.checkParam at this
      split at this
      · cases this
      · simp [hne] at this

theorem call_never_ok {w : World} {m : Method} {args : List Nat}
    (h : World.typed w.ws args m.args = true → ∀ (ws' : List W) (ptrs : List Ptr), World.evalPasses w.ws args m.pass = (ws', some ptrs) →
      ∃ f, w.heap.native m.sig ptrs = .error f) (n : Option Nat) : (w.call m args).2 ≠ .ok n := by
  unfold World.call
  split
  · exact fun e => by cases e
  · rename_i ht
    split
    · exact fun e => by cases e
    · cases he : World.evalPasses w.ws args m.pass with
      | mk ws' o =>
        cases o with
        | none => exact fun e => by cases e
        | some ptrs =>
          obtain ⟨f, hf⟩ := h (by simpa using ht) ws' ptrs he
          simp only [hf]
          exact fun e => by cases e

/-- **C72, partial.** Four methods cannot be called successfully at all, whatever the program did before:
`ExampleContract.ObjectCreate` passes three pointers where five are expected, `BallContract.ObjectCreate` a contract data
handle where the contract is expected, `BallContract.ObjectRemove` a contract data handle where an object handle is
expected, and the indexer of `RVec_Keyframe_U8` the data of the vector where the vector is expected. -/
theorem C72_broken_methods_partial (cs : List Call) (a : Api) (args : List Nat) (n : Option Nat)
    (ha : a = .exObjectCreate ∨ a = .ballObjectCreate ∨ a = .ballObjectRemove ∨ a = .rvecSet) :
    ((World.empty.run cs).1.step (.method a args)).2 ≠ .ok n := by
  have hT := typesRight_run cs World.empty (by intro x hx; cases hx)
  generalize (World.empty.run cs).1 = w at hT
  rcases ha with rfl | rfl | rfl | rfl
  · apply call_never_ok
    intro _ ws' ptrs he
    refine ⟨.arity, ?_⟩
    have hl : ptrs.length = 3 := evalPasses_length _ _ _ _ _ he
    simp [Heap.native, Api.method, hl]
  · apply call_never_ok
    intro ht ws' ptrs he
    obtain ⟨p1, p2, rfl, h1, h2⟩ := evalPasses_two he
    rw [evalPass_inner] at h2
    obtain ⟨i, x, p0, ha, hx, hp, hpp⟩ := evalPass_some h2
    rcases hpp with hpp | ⟨⟨k, hk⟩, _⟩
    · subst hpp
      have := hT x (List.mem_of_getElem? hx) _ hp
      refine native_wrongType (k := 1) (q := .ref .ballContract) rfl rfl ?_
      rw [this]
      simp only [World.typed, Api.method, beq_iff_eq] at ht
      have h3 : (args.map fun i => w.ws[i]?.map W.cls)[1]? = some (some contractDataHandle) := by rw [ht]; rfl
      rw [List.getElem?_map] at h3
      simp only [Pass.idx] at ha
      rw [ha] at h3
      rw [Option.map_some, hx] at h3
      simp at h3
      rw [h3]; decide
    · cases hk
  · apply call_never_ok
    intro ht ws' ptrs he
    obtain ⟨p1, p2, rfl, h1, h2⟩ := evalPasses_two he
    rw [evalPass_inner] at h2
    obtain ⟨i, x, p0, ha, hx, hp, hpp⟩ := evalPass_some h2
    rcases hpp with hpp | ⟨⟨k, hk⟩, _⟩
    · subst hpp
      have := hT x (List.mem_of_getElem? hx) _ hp
      refine native_wrongType (k := 1) (q := .box objectHandle) rfl rfl ?_
      rw [this]
      simp only [World.typed, Api.method, beq_iff_eq] at ht
      have h3 : (args.map fun i => w.ws[i]?.map W.cls)[1]? = some (some contractDataHandle) := by rw [ht]; rfl
      rw [List.getElem?_map] at h3
      simp only [Pass.idx] at ha
      rw [ha] at h3
      rw [Option.map_some, hx] at h3
      simp at h3
      rw [h3]; decide
    · cases hk
  · apply call_never_ok
    intro ht ws' ptrs he
    obtain ⟨p1, p2, rfl, h1, h2⟩ := evalPasses_two he
    refine native_wrongType (k := 0) (q := .refMut .rvec false) rfl rfl ?_
    obtain ⟨i, x, p0, ha, hx, hp, hpp⟩ := evalPass_some h1
    have : p1.ty = .keyframe .u8 := by
      simp only [World.evalPass] at h1
      simp only [Pass.idx] at ha h1
      rw [ha] at h1
      simp only [hx, hp, Option.map_some, Option.some.injEq] at h1
      rw [← h1]
    rw [this]; decide

/-- The four methods are reachable: they compile and pass all checks on wrappers that exist, and then fault. -/
example : (World.empty.run [.method .baselineNew [], .method .exRegister [0], .method (.primNew .string) [],
    .method .exObjectCreate [1, 0, 2]]).2 = [.ok (some 0), .ok (some 1), .ok (some 2), .fault .arity] := by decide +kernel
example : (World.empty.run [.method .baselineNew [], .method .ballRegister [0], .method .ballHandle [1],
    .method .ballObjectCreate [0, 2]]).2 = [.ok (some 0), .ok (some 1), .ok (some 2), .fault .wrongType] := by decide +kernel
example : (World.empty.run [.method .baselineNew [], .method .ballRegister [0], .method .ballHandle [1],
    .method .ballObjectRemove [0, 2]]).2 = [.ok (some 0), .ok (some 1), .ok (some 2), .fault .wrongType] := by decide +kernel
example : (World.empty.run [.method .rvecNew [], .method (.primNew .u8) [], .method (.keyframeNew .u8) [1],
    .method .rvecSet [0, 2]]).2 = [.ok (some 0), .ok (some 1), .ok (some 2), .fault .wrongType] := by decide +kernel

/-- **C72, partial.** Whenever a call of `ExampleContract.ObjectRemove` returns, the object handle given to it has been
freed and its wrapper does not know: disposing or finalizing an owning wrapper frees it a second time.  (The native
function panics on every object of this contract, C68, so at present the call does not return.) -/
theorem C72_double_free_partial (w : World) (b o : Nat) (n : Option Nat) (x : W) (hx : w.ws[o]? = some x)
    (ho : x.w.own = .owned) (h : (w.step (.method .exObjectRemove [b, o])).2 = .ok n) :
    ((w.step (.method .exObjectRemove [b, o])).1.step (.dispose o)).2 = .fault .dangling := by
  simp only [World.step, World.call] at h ⊢
  split at h
  · cases h
  · rename_i ht
    split at h
    · cases h
    · rename_i hg
      simp only [ht, hg, if_false, Bool.false_eq_true]
      have htc : x.cls = objectHandle := by
        simp only [World.typed, Api.method, Bool.not_eq_true', beq_eq_false_iff_ne, ne_eq, Decidable.not_not] at ht
        simp [hx] at ht
        exact ht.2
      cases he : World.evalPasses w.ws [b, o] (Api.method .exObjectRemove).pass with
      | mk ws' op =>
        rw [he] at h
        cases op with
        | none => cases h
        | some ptrs =>
          obtain ⟨p1, p2, rfl, h1, h2⟩ := evalPasses_two (by simpa [Api.method] using he)
          have hws : ws' = w.ws := by
            have h3 := he
            simp only [Api.method, World.evalPasses] at h3
            have e0 := evalPass_inner w.ws [b, o]
            cases e1 : World.evalPass w.ws [b, o] (.inner 0) with
            | mk w1 o1 =>
              have hw1 := e0 0; rw [e1] at hw1; simp only at hw1
              rw [e1] at h3
              cases o1 with
              | none => cases h3
              | some q1 =>
                simp only at h3
                cases e2 : World.evalPass w1 [b, o] (.inner 1) with
                | mk w2 o2 =>
                  have hw2 := evalPass_inner w1 [b, o] 1; rw [e2] at hw2; simp only at hw2
                  rw [e2] at h3
                  cases o2 with
                  | none => cases h3
                  | some q2 => simp only [Prod.mk.injEq] at h3; rw [← h3.1, hw2, hw1]
          subst hws
          have hp2 : x.w.inner = some p2 := by
            obtain ⟨i, y, p0, ha, hy, hp, hpp⟩ := evalPass_some h2
            rw [evalPass_inner] at hy
            simp only [Pass.idx, List.getElem?_cons_succ, List.getElem?_cons_zero, Option.some.injEq] at ha
            subst ha
            rw [hx] at hy; injection hy with hy; subst hy
            rcases hpp with hpp | ⟨⟨k, hk⟩, _⟩
            · rw [hpp]; exact hp
            · cases hk
          simp only at h ⊢
          cases hn : w.heap.native (Api.method .exObjectRemove).sig [p1, p2] with
          | error f => rw [hn] at h; cases h
          | ok r =>
            obtain ⟨h', r'⟩ := r
            simp only [Api.method] at hn ⊢
            have hh : (h'[p2.alloc]?).map Alloc.live ≠ some true := by
              unfold Heap.native at hn
              split at hn
              · cases hn
              · simp only at hn
                split at hn
                · cases hn
                · split at hn
                  · injection hn with hn
                    simp only [Heap.applyRet, Prod.mk.injEq] at hn
                    rw [← hn.1]
                    simp only [List.zip_cons_cons, List.zip_nil_right, List.foldl_cons, List.foldl_nil, Heap.applyParam]
                    rw [modify_get, if_pos rfl, Option.map_map]
                    intro e
                    obtain ⟨al, _, e⟩ := Option.map_eq_some_iff.1 e
                    cases e
                  · cases hn
            simp only [World.dispose, hx, Wrapper.dispose, ho, hp2, htc]
            have hv : Heap.valid h' p2 = false := by
              unfold Heap.valid
              cases hq : h'[p2.alloc]? with
              | none => rfl
              | some al => rw [hq] at hh; simp only [Option.map_some, ne_eq, Option.some.injEq, Bool.not_eq_true] at hh; simp [hh]
            have : Heap.native h' ⟨[.box objectHandle], .nothing⟩ [p2] = .error .dangling := by
              simp [Heap.native, Heap.checkParam, hv]
            rw [if_neg (by decide), this]

/-- **C72, partial.** Assigning to the `Value` of a state wrapper that is only a shared reference writes through it: there
is no check. -/
theorem C72_shared_write_partial (w : World) (t : PrimType) (i j : Nat) (x y : W) (p q : Ptr) (hx : w.ws[i]? = some x)
    (hy : w.ws[j]? = some y) (hcx : x.cls = .state t) (hcy : y.cls = .prim t) (hp : x.w.inner = some p)
    (hq : y.w.inner = some q) (hv : w.heap.valid p = true) (hpt : p.ty = .state t) (hro : p.writable = false) (hij : i ≠ j) :
    (w.step (.method (.stateSetValue t) [i, j])).2 = .fault .sharedWrite := by
  have hji : j ≠ i := fun e => hij e.symm
  simp [World.step, World.call, Api.method, World.typed, hx, hy, hcx, hcy, World.guards, World.evalPasses, World.evalPass,
    Pass.idx, hp, hq, Wrapper.stealInner, Heap.native, Heap.checkParam, hv, hpt, Param.ty, hro]

/-- A baseline with a state wrapper as `Baseline.State` returns it, and a value. -/
example : ((⟨[⟨.baseline, ⟨some ⟨0, .baseline, false, true, 0⟩, .owned⟩⟩, ⟨.state .u8, ⟨some ⟨0, .state .u8, true, false, 2⟩, .sharedRef⟩⟩,
    ⟨.prim .u8, ⟨some ⟨1, .prim .u8, false, true, 0⟩, .owned⟩⟩], [⟨.baseline, true, 2⟩, ⟨.prim .u8, true, 0⟩]⟩ : World).step
      (.method (.stateSetValue .u8) [1, 2])).2 = .fault .sharedWrite :=
  C72_shared_write_partial _ .u8 1 2 _ _ _ _ rfl rfl rfl rfl rfl rfl (by decide) rfl rfl (by decide)
/-- Such a wrapper comes from `Baseline.State`. -/
example : ((⟨[⟨.baseline, ⟨some ⟨0, .baseline, false, true, 0⟩, .owned⟩⟩, ⟨.stateHandle .u8, ⟨some ⟨1, .stateHandle .u8, false, true, 0⟩, .owned⟩⟩],
    [⟨.baseline, true, 2⟩, ⟨.stateHandle .u8, true, 0⟩]⟩ : World).step (.method (.baselineState .u8) [0, 1])).1.ws[2]? =
      some ⟨.state .u8, ⟨some ⟨0, .state .u8, true, false, 2⟩, .sharedRef⟩⟩ := by decide
/-- `ObjectRemove` on a wrapper that owns its handle. -/
example : let w : World := ⟨[⟨.baseline, ⟨some ⟨0, .baseline, false, true, 0⟩, .owned⟩⟩, ⟨objectHandle, ⟨some ⟨1, objectHandle, false, true, 0⟩, .owned⟩⟩],
    [⟨.baseline, true, 2⟩, ⟨objectHandle, true, 0⟩]⟩
    ((w.step (.method .exObjectRemove [0, 1])).1.step (.dispose 1)).2 = .fault .dangling :=
  C72_double_free_partial _ 0 1 none _ rfl rfl (by decide)

/-! ## C73 -/

/-- **C73, partial.** After a disciplined program the native objects that are still allocated are exactly those of the
owning wrappers that have not been disposed or given away, one each, vectors aside; when all wrappers have been disposed
nothing but vectors is left.  Vectors are never freed (`C73_negation`). -/
theorem C73_no_leaks_partial {cs : List Call} {bs : List B} (h : Disciplined [] cs bs) :
    (∀ (a : Nat) (al : Alloc), (World.empty.run cs).1.heap[a]? = some al → al.ty ≠ .rvec →
      (al.live = true ↔ ∃ (i : Nat) (x : W) (p : Ptr), (World.empty.run cs).1.ws[i]? = some x ∧ x.w.own = .owned ∧
        x.w.inner = some p ∧ p.alloc = a)) ∧
    (∀ (i j : Nat) (x y : W) (p q : Ptr), (World.empty.run cs).1.ws[i]? = some x → (World.empty.run cs).1.ws[j]? = some y →
      x.w.own = .owned → y.w.own = .owned → x.w.inner = some p → y.w.inner = some q → p.alloc = q.alloc → i = j) ∧
    ((∀ x ∈ (World.empty.run cs).1.ws, x.w.inner = none) →
      ∀ al ∈ (World.empty.run cs).1.heap, al.ty ≠ .rvec → al.live = false) := by
  have hi := (inv_run h World.empty inv_init).1
  generalize (World.empty.run cs).1 = w at hi
  have hown : ∀ (i : Nat) (x : W), w.ws[i]? = some x → ∃ b, bs[i]? = some b ∧ b.own = x.w.own := by
    intro i x hx
    have := hi.same i
    rw [hx] at this
    cases hb : bs[i]? with
    | none => rw [hb] at this; simp at this
    | some b => rw [hb] at this; simp only [Option.map_some, Option.some.injEq, Prod.mk.injEq] at this; exact ⟨b, rfl, this.2.1.symm⟩
  have hA : ∀ (a : Nat) (al : Alloc), w.heap[a]? = some al → al.ty ≠ .rvec → al.live = true →
      ∃ (i : Nat) (x : W) (p : Ptr), w.ws[i]? = some x ∧ x.w.own = .owned ∧ x.w.inner = some p ∧ p.alloc = a := by
    intro a al ha ht hl
    obtain ⟨i, b, p, hb, ho, hp, hpa⟩ := hi.noLeak a al ha hl ht
    obtain ⟨x, hx, _, hxo, _⟩ := ws_some hi hb
    refine ⟨i, x, p, hx, hxo.trans ho, ?_, hpa⟩
    simpa [ptrAt, hx] using hp
  refine ⟨fun a al ha ht => ⟨hA a al ha ht, ?_⟩, ?_, ?_⟩
  · rintro ⟨i, x, p, hx, ho, hp, rfl⟩
    obtain ⟨b, hb, hbo⟩ := hown i x hx
    have := (hi.good i b p hb (hbo.trans ho) (by simp [ptrAt, hx, hp])).2.2.2
    rw [ha] at this; injection this with this; rw [this]
  · intro i j x y p q hx hy hxo hyo hp hq e
    obtain ⟨b, hb, hbo⟩ := hown i x hx
    obtain ⟨c, hc, hco⟩ := hown j y hy
    exact hi.inj i j b c p q hb (hbo.trans hxo) hc (hco.trans hyo) (by simp [ptrAt, hx, hp]) (by simp [ptrAt, hy, hq]) e
  · intro hall al hal ht
    obtain ⟨a, ha⟩ := List.mem_iff_getElem?.1 hal
    cases hl : al.live with
    | false => rfl
    | true =>
      obtain ⟨i, x, p, hx, _, hp, _⟩ := hA a al ha ht hl
      rw [hall x (List.mem_of_getElem? hx)] at hp; cases hp

example : ∀ al ∈ (World.empty.run (tidy ++ (List.range 19).map .dispose)).1.heap, al.ty ≠ .rvec → al.live = false := by
  obtain ⟨bs, h⟩ : ∃ bs, Disciplined [] (tidy ++ (List.range 19).map .dispose) bs :=
    ⟨_, checkCalls_sound _ [] _ (by decide +kernel :
      checkCalls [] (tidy ++ (List.range 19).map .dispose) = some ((checkCalls [] (tidy ++ (List.range 19).map .dispose)).getD []))⟩
  exact (C73_no_leaks_partial h).2.2 (by decide +kernel)

/-- **C73 is false of the API**: a vector that is created and disposed by a program that follows the rules stays
allocated for ever. -/
theorem C73_negation : ∃ (cs : List Call) (bs : List B), Disciplined [] cs bs ∧
    (∀ x ∈ (World.empty.run cs).1.ws, x.w.inner = none) ∧ ∃ al ∈ (World.empty.run cs).1.heap, al.live = true :=
  ⟨[.method .rvecNew [], .dispose 0], _, checkCalls_sound _ [] _ (by rfl), by decide, by decide⟩

end Verif.Props
