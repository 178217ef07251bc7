import Verif.Proofs.Replay
import Verif.Props.Baseline
import Verif.Props.Serialize
import Verif.Props.Deserialize
/-!
# C93: what a program sees does not depend on the hash seed

The object set of a contract is a `std` `HashSet`, whose iteration order depends on a seed drawn at random in each process.
`unregister_contract` and `Serializer::serialize` iterate it.
-/
namespace Verif.Props
open Verif Arena Store Baseline Spec

/-- The same calls, the `k`-th traversal going by `ords k`, and nothing else changed. -/
def reseed (ords : Nat → HashOrder) : List BOp → List BOp
  | [] => []
  | .unregister C h _ :: ops => .unregister C h (ords 0) :: reseed (fun k => ords (k + 1)) ops
  | op :: ops => op :: reseed (fun k => ords (k + 1)) ops

/-- No call of the run unregisters a contract that lists two or more objects. -/
def FewListed (b : Baseline) : List BOp → Prop
  | [] => True
  | op :: ops => (∀ (C : ContractTy) (h : Idx) (ord : HashOrder), op = .unregister C h ord →
      ∀ cd : ContractData, b.contractData h = .ok cd → cd.objects.length ≤ 1) ∧ FewListed (b.step op).1 ops

theorem order_short (ord : HashOrder) {l : List Idx} (h : l.length ≤ 1) : ord.order l = l := by
  match l, h with
  | [], _ => exact List.perm_nil.1 (ord.perm [])
  | [o], _ => exact List.perm_singleton.1 (ord.perm [o])

theorem unregister_short (b : Baseline) (C : ContractTy) (h : Idx) (ord ord' : HashOrder)
    (hs : ∀ cd : ContractData, b.contractData h = .ok cd → cd.objects.length ≤ 1) :
    b.unregisterContract C h ord' = b.unregisterContract C h ord := by
  unfold unregisterContract
  cases hg : b.contracts.get h with
  | none => rfl
  | some cd =>
    have hl := hs cd (by unfold Baseline.contractData; rw [hg])
    simp only [order_short ord hl, order_short ord' hl]

/-- As long as no contract is unregistered while it lists two or more objects, the hash seed is invisible: every call gives
the same result, handles included, and the final baseline is the same. -/
theorem C93_seed_invisible_partial (b : Baseline) (ops : List BOp) (ords : Nat → HashOrder) (hf : FewListed b ops) :
    ((b.runOps (reseed ords ops)).1.map Prod.snd = (b.runOps ops).1.map Prod.snd) ∧ (b.runOps (reseed ords ops)).2 = (b.runOps ops).2 := by
  induction ops generalizing b ords with
  | nil => exact ⟨rfl, rfl⟩
  | cons op ops ih =>
    have step : ∀ op' : BOp, b.step op' = b.step op →
        ((b.runOps (op' :: reseed (fun k => ords (k + 1)) ops)).1.map Prod.snd = (b.runOps (op :: ops)).1.map Prod.snd) ∧
        (b.runOps (op' :: reseed (fun k => ords (k + 1)) ops)).2 = (b.runOps (op :: ops)).2 := by
      intro op' e
      simp only [runOps, e]
      obtain ⟨h1, h2⟩ := ih (b.step op).1 (fun k => ords (k + 1)) hf.2
      exact ⟨by simp only [List.map_cons, h1], h2⟩
    cases op with
    | unregister C h ord =>
      refine step (.unregister C h (ords 0)) ?_
      simp only [Baseline.step]
      rw [unregister_short b C h ord (ords 0) (hf.1 C h ord rfl)]
    | register C => exact step _ rfl
    | create C h ss cs => exact step _ rfl
    | remove C o => exact step _ rfl
    | writeState t h v => exact step _ rfl
    | writeChannel t h v => exact step _ rfl
    | setWarp o w => exact step _ rfl

/-- The order of the other process. -/
def revOrder : HashOrder := ⟨List.reverse, fun l => List.reverse_perm l⟩

/-- Register, create one object, unregister, register again, create: the second handle is the same under any seed. -/
def fewOps : List BOp := [.register emptyC, .create emptyC h0 [] [], .unregister emptyC h0 .id, .register emptyC]

example : FewListed (Baseline.new .main) fewOps := by
  refine ⟨?_, ?_, ?_, ?_, trivial⟩
  · intro C h ord e; cases e
  · intro C h ord e; cases e
  · intro C h ord e cd hcd
    cases e
    have : (((Baseline.new .main).step (.register emptyC)).1.step (.create emptyC h0 [] [])).1.contractData h0 = .ok ⟨emptyC.id, [h0]⟩ := by decide +kernel
    rw [this] at hcd; cases hcd; decide
  · intro C h ord e; cases e

/-- However often contracts with many objects are unregistered, as long as no such call panics over two or more listed objects,
two processes with different hash seeds give the same results up to the names of objects: there is a one-to-one renaming of object
handles under which every call of the second process, made with the renamed handles, returns the renamed result, and at the end all
readers agree. -/
theorem C93_same_up_to_renaming_partial (kind : Kind) (ops : List BOp) (ords : Nat → HashOrder) (calm : CalmRun (Baseline.new kind) ops) :
    ∃ σ : Equiv.Perm Idx,
      (((Baseline.new kind).runOps (replayAll σ ords ops)).1.map Prod.snd = ((Baseline.new kind).runOps ops).1.map (replayOut σ)) ∧
      Renamed σ ((Baseline.new kind).runOps ops).2 ((Baseline.new kind).runOps (replayAll σ ords ops)).2 :=
  replay_exists kind ops ords calm

/-- Unregistering a contract with two objects. -/
def manyOps : List BOp :=
  [.register emptyC, .create emptyC h0 [] [], .create emptyC h0 [] [], .unregister emptyC h0 .id,
   .register emptyC, .create emptyC ⟨0, 1⟩ [] []]

example : CalmRun (Baseline.new .main) manyOps := by
  refine ⟨trivial, trivial, trivial, ?_, trivial, trivial, trivial⟩
  intro hp
  exact absurd hp (by decide +kernel)

/-- A contract with a field and two objects: `unregister_contract` panics after the first removal. -/
def panicOps : List BOp :=
  [.register demoC, .create demoC h0 [.primitive (.u8 1), .primitive (.u16 2)] [⟨.prim .f32, []⟩],
   .create demoC h0 [.primitive (.u8 3), .primitive (.u16 4)] [⟨.prim .f32, []⟩], .unregister demoC h0 .id]

/-- A baseline with two objects to save. -/
def savedB : Baseline :=
  ((Baseline.new .main).runOps [.register numC, .create numC h0 [.primitive (.u8 1)] [], .create numC h0 [.primitive (.u8 2)] []]).2

/-- The seed shows.  (1) A program that unregisters a contract with two objects gets another handle from its next
`object_create`.  (2) After a panicking `unregister_contract` another object is gone: no renaming of handles explains the difference.
(3) Two saves of one baseline are different buffers. -/
theorem C93_seed_visible_negation :
    (¬ ∀ (kind : Kind) (ops : List BOp) (ords : Nat → HashOrder),
      (((Baseline.new kind).runOps (reseed ords ops)).1.map Prod.snd = ((Baseline.new kind).runOps ops).1.map Prod.snd)) ∧
    (¬ ∀ (kind : Kind) (ops : List BOp) (ords : Nat → HashOrder), ∃ σ : Equiv.Perm Idx,
      (((Baseline.new kind).runOps (replayAll σ ords ops)).1.map Prod.snd = ((Baseline.new kind).runOps ops).1.map (replayOut σ)) ∧
      Renamed σ ((Baseline.new kind).runOps ops).2 ((Baseline.new kind).runOps (replayAll σ ords ops)).2) ∧
    (¬ ∀ (b : Baseline) (C : ContractTy) (h : Idx) (ord ord' : HashOrder), (b.contractData h).isOk = true →
      ((Ser.new b).serialize C h ord).1.finish .id .id = ((Ser.new b).serialize C h ord').1.finish .id .id) := by
  refine ⟨?_, ?_, ?_⟩
  · intro h
    have := h .main manyOps (fun _ => revOrder)
    exact absurd this (by decide +kernel)
  · intro h
    obtain ⟨σ, h1, h2⟩ := h .main panicOps (fun _ => revOrder)
    have hr : ((Baseline.new .main).runOps panicOps).1.map (replayOut σ) =
        [.ok (some h0), .ok (some (σ h0)), .ok (some (σ Verif.Props.h1)), .panic "failed to remove object"] := by rfl
    have hr' : ((Baseline.new .main).runOps (replayAll σ (fun _ => revOrder) panicOps)).1.map Prod.snd =
        [.ok (some h0), .ok (some h0), .ok (some Verif.Props.h1), .panic "failed to remove object"] := by rfl
    rw [hr, hr'] at h1
    simp only [List.cons.injEq, Outcome.ok.injEq, Option.some.injEq, true_and, and_true] at h1
    have ho := h2.object h0
    rw [← h1.1] at ho
    have e1 : (((Baseline.new .main).runOps panicOps).2.object h0).isOk = true := by decide +kernel
    have e2 : (((Baseline.new .main).runOps (replayAll σ (fun _ => revOrder) panicOps)).2.object h0).isOk = false := by rfl
    rw [ho, e1] at e2
    cases e2
  · intro h
    have := h savedB numC h0 .id revOrder (by decide +kernel)
    exact absurd this (by decide +kernel)

end Verif.Props
