import Verif.Model.FfiHeap
import Verif.Model.CApi
/-!
# What the objects behind the C# API hold

`Model/FfiHeap` says which pointers go where.  This file adds what the allocations contain and what the native functions
do with it: an `NObj` for every allocation, and for every wrapper the place inside the allocation that its pointer
points to.

Simplifications.  A pointer to the inside of an object is the allocation and the fields followed from it (`PStep`); that
it is only used while these have not moved is checked by the heap model.  A native panic ends the process.  The string
constructor throws for `""` (C64), so there is no such step.
-/
namespace Verif.Ffi

/-- What an allocation, or a part of one, holds. (the native types of `NTy`, client/rust/src/baseline.rs:375-521 and the
files cited there) -/
inductive NObj where
  | prim (v : DynProp)
  | state (v : DynProp)
  | keyframe (v : DynProp) (time : BitVec 64)
  | vec (ks : List (DynProp × BitVec 64))
  | baseline (b : Baseline)
  | exContract (h : Idx)
  | ballContract (h : Idx)
  | exStates (h : Idx)
  | ballStates (h : Idx)
  | stateId (d : DynId)
  | stateHandle (t : PrimType) (i : Idx)
  | contractData (cd : ContractData)
  | contractId (id : ContractId)

/-- One step into an object: the value of a state or keyframe (client/rust/src/contract/properties/states/mod.rs:103-107, client/rust/src/contract/properties/channels/channel.rs:94-98), an element of a
vector (crates/rsharp/rust/src/rvec.rs:25-29), contract data in a baseline (client/rust/src/baseline.rs:408-415), the id of contract data (client/rust/src/contract/mod.rs:142-146), the
states of a contract (client/contract_example/rust/src/lib.rs:69-73, demos/unity_states/rust/src/lib.rs:163-166), a state in a baseline
(client/rust/src/baseline.rs:448-456). -/
inductive PStep where
  | value
  | elem (i : Nat)
  | contract (h : Idx)
  | id
  | states
  | state (t : PrimType) (h : Idx)
deriving DecidableEq, Repr

/-- What is found there. (see `PStep`) (client/rust/src/baseline.rs:387-510) -/
def PStep.get : PStep → NObj → Option NObj
  | .value, .state v => some (.prim v)
  | .value, .keyframe v _ => some (.prim v)
  | .elem i, .vec ks => ks[i]?.map fun k => .keyframe k.1 k.2
  | .contract h, .baseline b => match b.contractData h with
    | .ok cd => some (.contractData cd)
    | _ => none
  | .id, .contractData cd => some (.contractId cd.id)
  | .states, .exContract h => some (.exStates h)
  | .states, .ballContract h => some (.ballStates h)
  | .state t h, .baseline b => match b.state (.prim t) h with
    | .ok v => some (.state (DynProp.ofTyped (.prim t) v))
    | _ => none
  | _, _ => none

/-- Replace what is found there; only states are written through a pointer to the inside (client/rust/src/contract/properties/states/mod.rs:109-114 on the
result of client/rust/src/baseline.rs:458-466). -/
def PStep.put : PStep → NObj → NObj → Option NObj
  | .state t h, .baseline b, .state v => match v.tryInto (.prim t) with
    | none => none
    | some x => match b.stateWrite (.prim t) h x with
      | (b', .ok ()) => some (.baseline b')
      | _ => none
  | _, _, _ => none

/-- Follow a path. (see `PStep`) (client/rust/src/baseline.rs:387-510) -/
def pathGet : List PStep → NObj → Option NObj
  | [], o => some o
  | s :: ss, o => match s.get o with
    | none => none
    | some x => pathGet ss x

/-- Replace what a path leads to. (see `PStep.put`) (client/rust/src/baseline.rs:387-510) -/
def pathPut : List PStep → NObj → NObj → Option NObj
  | [], _, n => some n
  | s :: ss, o, n => match s.get o with
    | none => none
    | some x => match pathPut ss x n with
      | none => none
      | some y => s.put o y

/-- The plain values given to a method. (parameters of the methods cited at `Api.method`, in particular client/cs/src/Baseline.cs:14,
crates/rsharp/codegen/rbox.cs.tpl:9, crates/rsharp/cs/src/RString.cs:11, client/codegen_wrapped/src/template_keyframe.rs:26-33, client/cs/src/RVec_Keyframe.cs:45, demos/unity_states/cs/src/BallStates.cs:17-94; the order in which
`unregister` visits the objects of the contract is arbitrary) -/
@[reducible] def Api.Data : Api → Type
  | .baselineNew => Bool
  | .primNew t => { x : t.Carrier // DynProp.ofTyped (.prim t) x ≠ .primitive (.string "") }
  | .keyframeNew _ => BitVec 64
  | .rvecGet => BitVec 32
  | .exField t => { n : String // (n, PropType.prim t) ∈ Example.states.names.zip Example.states.propTypes }
  | .ballField t => { n : String // (n, PropType.prim t) ∈ Ball.states.names.zip Ball.states.propTypes }
  | .ballUnregister => HashOrder
  | _ => Unit

/-- A plain value returned to C#. (client/cs/src/Baseline.cs:27-33, client/cs/src/Contract.cs:52-71, crates/rsharp/codegen/rbox.cs.tpl:20-22, crates/rsharp/cs/src/RString.cs:29-41, client/codegen_wrapped/keyframe.cs.tpl:16-19) -/
inductive Obs where
  | bool (b : Bool)
  | prim (v : DynProp)
  | time (t : BitVec 64)
  | name (s : String)
  | version (v : BitVec 16 × BitVec 16 × BitVec 16)
deriving DecidableEq, Repr

/-- What a native function returns (see `Ret`): a borrow is always a step into its first parameter. (client/rust/src/baseline.rs:387-510) -/
inductive RetV where
  | nothing
  | val (o : Obs)
  | box (o : NObj)
  | borrow (s : PStep)

/-- What a native function does: it panics, or it overwrites its first parameter (or not) and returns.  `stuck` is for
parameters of the wrong shape. (the `ffi_export` functions cited at `Api.method`) (client/rust/src/baseline.rs:387-510) -/
inductive Exec where
  | stuck
  | panic (m : String)
  | done (write : Option NObj) (ret : RetV)

/-- Go on with the result of a call into the library, or panic. (`unwrap`, as in client/rust/src/baseline.rs:448-456) -/
def Exec.unwrap {α : Type} (r : Outcome α) (k : α → Exec) : Exec :=
  match r with
  | .ok x => k x
  | .err m => .panic m
  | .panic m => .panic m

/-- C# converts a negative index to a huge one: `(ulong)index`. (client/cs/src/RVec_Keyframe.cs:51) -/
def ulongOfInt (i : BitVec 32) : Nat := (i.signExtend 64).toNat

/-- The native functions behind the methods; those of broken methods are never reached. (cited at `Api.method`) (client/rust/src/baseline.rs:387-510 and the functions cited at each case) -/
def exec : (a : Api) → a.Data → List NObj → Exec
  /- client/rust/src/baseline.rs:390-394; `(byte)(is_main ? 0 : 1)`, client/cs/src/Baseline.cs:15 -/
  | .baselineNew, main, [] => .done none (.box (.baseline (Baseline.new (if (main : Bool) = true then .main else .fork))))
  /- client/rust/src/baseline.rs:402-406; `== 0`, client/cs/src/Baseline.cs:31 -/
  | .baselineIsMain, _, [.baseline b] => .done none (.val (.bool (decide (b.kind = .main))))
  | .baselineContractData, _, [.baseline b, .prim v] => match v.tryInto (.prim .contractDataHandle) with
    | some h => .unwrap (b.cContractData h) fun _ => .done none (.borrow (.contract h))
    | none => .stuck
  | .baselineState t, _, [.baseline b, .stateHandle t' h] =>
    if t' = t then .unwrap (b.cState t h) fun _ => .done none (.borrow (.state t h)) else .stuck
  | .baselineStateMut t, _, [.baseline b, .stateHandle t' h] =>
    if t' = t then .unwrap (b.cState t h) fun _ => .done none (.borrow (.state t h)) else .stuck
  | .baselineBindState t, _, [.baseline b, .stateId d, .prim v] => match v.tryInto (.prim .objectHandle) with
    | some o => if d.ty = .prim t then .unwrap (b.cBindState d.id o) fun i => .done none (.box (.stateHandle t i)) else .stuck
    | none => .stuck
  | .contractDataId, _, [.contractData _] => .done none (.borrow .id)
  | .contractIdName, _, [.contractId id] => .done none (.val (.name id.name))
  | .contractIdVersion, _, [.contractId id] => .done none (.val (.version id.version))
  | .primNew t, x, [] => .done none (.box (.prim (DynProp.ofTyped (.prim t) x.val)))
  | .primValue _, _, [.prim v] => .done none (.val (.prim v))
  | .stateNew _, _, [.prim v] => .done none (.box (.state v))
  | .stateValue _, _, [.state _] => .done none (.borrow .value)
  | .stateSetValue _, _, [.state _, .prim v] => .done (some (.state v)) .nothing
  | .stateIdContract _, _, [.stateId d] => .done none (.box (.prim (.primitive (.contractDataHandle d.id.contract))))
  | .keyframeNew _, time, [.prim v] => .done none (.box (.keyframe v time))
  | .keyframeValue _, _, [.keyframe _ _] => .done none (.borrow .value)
  | .keyframeTime _, _, [.keyframe _ time] => .done none (.val (.time time))
  | .rvecNew, _, [] => .done none (.box (.vec []))
  | .rvecPush, _, [.vec ks, .keyframe v time] => .done (some (.vec (ks ++ [(v, time)]))) .nothing
  | .rvecGet, i, [.vec ks] =>
    if ulongOfInt i < ks.length then .done none (.borrow (.elem (ulongOfInt i))) else .panic "index out of bounds"
  | .exRegister, _, [.baseline b] => .unwrap (Example.register b).2 fun h =>
    .done (some (.baseline (Example.register b).1)) (.box (.exContract h))
  | .exHandle, _, [.exContract h] => .done none (.box (.prim (.primitive (.contractDataHandle h))))
  | .exStates, _, [.exContract _] => .done none (.borrow .states)
  | .exField _, n, [.exStates h] => match Example.states.field h n.val with
    | some d => .done none (.box (.stateId d))
    | none => .stuck
  | .ballRegister, _, [.baseline b] => .unwrap (Ball.register b).2 fun h =>
    .done (some (.baseline (Ball.register b).1)) (.box (.ballContract h))
  | .ballUnregister, ord, [.baseline b, .prim v] => match v.tryInto (.prim .contractDataHandle) with
    | some h => .unwrap (Ball.unregister b h ord).2 fun _ => .done (some (.baseline (Ball.unregister b h ord).1)) .nothing
    | none => .stuck
  | .ballHandle, _, [.ballContract h] => .done none (.box (.prim (.primitive (.contractDataHandle h))))
  | .ballStates, _, [.ballContract _] => .done none (.borrow .states)
  | .ballField _, n, [.ballStates h] => match Ball.states.field h n.val with
    | some d => .done none (.box (.stateId d))
    | none => .stuck
  | _, _, _ => .stuck

/-- A step of a C# program, with the plain values it passes. (see `Call`) (crates/rsharp/cs/src/RSharp.cs:91-145) -/
inductive VCall where
  | method (a : Api) (d : a.Data) (args : List Nat)
  | dispose (i : Nat)

/-- The step without the plain values. (see `Call`) (crates/rsharp/cs/src/RSharp.cs:91-145) -/
def VCall.erase : VCall → Call
  | .method a _ args => .method a args
  | .dispose i => .dispose i

/-- What C# sees of a step (see `Res`), with the plain value returned; `abort` is the end of the process. (crates/rsharp/cs/src/RSharp.cs:91-145) -/
inductive VRes where
  | ok (new : Option Nat) (obs : Option Obs)
  | exception
  | illTyped
  | fault (f : Fault)
  | abort (m : String)
  | stuck
deriving DecidableEq, Repr

/-- The steps after which the process is gone. (see `VRes`) (crates/rsharp/cs/src/RSharp.cs:91-145) -/
def VRes.ends : VRes → Bool
  | .fault _ | .abort _ | .stuck => true
  | _ => false

/-- The wrappers and the heap, the contents of every allocation, and for every wrapper where in the allocation its pointer
points. (`OpaqueWrapper<T>`, crates/rsharp/cs/src/RSharp.cs:91-145, and the memory behind `Ptr<T>`) -/
structure VWorld where
  w : World
  objs : List NObj
  paths : List (List PStep)

namespace VWorld

/-- The allocation that wrapper `i` points into. (`Inner.Value.p`, crates/rsharp/cs/src/RSharp.cs:103-107) -/
def allocOf (s : VWorld) (i : Nat) : Option Nat := match s.w.ws[i]? with
  | none => none
  | some x => x.w.inner.map Ptr.alloc

/-- What wrapper `i` points to. (`Inner.Value.p`, crates/rsharp/cs/src/RSharp.cs:103-107) -/
def deref (s : VWorld) (i : Nat) : Option NObj :=
  match s.allocOf i, s.paths[i]? with
  | some a, some path => match s.objs[a]? with
    | none => none
    | some o => pathGet path o
  | _, _ => none

/-- Overwrite what wrapper `i` points to. (a write through `&mut`, as in client/rust/src/contract/properties/states/mod.rs:109-114) -/
def assign (s : VWorld) (i : Nat) (n : NObj) : Option (List NObj) :=
  match s.allocOf i, s.paths[i]? with
  | some a, some path => match s.objs[a]? with
    | none => none
    | some o => match pathPut path o n with
      | none => none
      | some o' => some (s.objs.set a o')
  | _, _ => none

/-- The wrappers whose pointers a method passes, in the order of the native parameters. (the methods cited at `Api.method`) (crates/rsharp/cs/src/RSharp.cs:103-124) -/
def passedArgs (m : Method) (args : List Nat) : List (Option Nat) := m.pass.map fun p => args[p.idx]?

/-- The objects a method passes. (the methods cited at `Api.method`) (crates/rsharp/cs/src/RSharp.cs:103-124) -/
def derefs (s : VWorld) : List (Option Nat) → Option (List NObj)
  | [] => some []
  | none :: _ => none
  | some i :: is => match s.deref i, s.derefs is with
    | some o, some os => some (o :: os)
    | _, _ => none

/-- The contents after the native function wrote to its first parameter, or did not. (see `Exec`) (client/rust/src/baseline.rs:448-510) -/
def written (s : VWorld) (is : List (Option Nat)) : Option NObj → Option (List NObj)
  | none => some s.objs
  | some n => match is with
    | some i :: _ => s.assign i n
    | _ => none

/-- Where the pointer of a borrow from the first parameter points. (see `RetV`) (client/rust/src/baseline.rs:448-510) -/
def borrowPath (s : VWorld) (is : List (Option Nat)) (st : PStep) : List PStep :=
  match is with
  | some i :: _ => (s.paths[i]?).getD [] ++ [st]
  | _ => [st]

/-- A method call: the wrappers and the heap as in the heap model, the contents as the native function leaves them.
(the methods cited at `Api.method`) (crates/rsharp/cs/src/RSharp.cs:103-124 in the methods cited at `Api.method`) -/
def method (s : VWorld) (a : Api) (d : a.Data) (args : List Nat) : VWorld × VRes :=
  match s.w.call a.method args with
  | (w', .exception) => ({ s with w := w' }, .exception)
  | (w', .illTyped) => ({ s with w := w' }, .illTyped)
  | (w', .fault f) => ({ s with w := w' }, .fault f)
  | (w', .ok new) =>
    match s.derefs (passedArgs a.method args) with
    | none => (s, .stuck)
    | some os => match exec a d os with
      | .stuck => (s, .stuck)
      | .panic m => (s, .abort m)
      | .done wr ret => match s.written (passedArgs a.method args) wr with
        | none => (s, .stuck)
        | some objs => match ret with
          | .nothing => (⟨w', objs, s.paths⟩, .ok new none)
          | .val o => (⟨w', objs, s.paths⟩, .ok new (some o))
          | .box o => (⟨w', objs ++ [o], s.paths ++ [[]]⟩, .ok new none)
          | .borrow st => (⟨w', objs, s.paths ++ [s.borrowPath (passedArgs a.method args) st]⟩, .ok new none)

/-- One step. (a method call, or `Dispose`, crates/rsharp/cs/src/RSharp.cs:117-124) -/
def step (s : VWorld) : VCall → VWorld × VRes
  | .method a d args => s.method a d args
  | .dispose i => match s.w.dispose i with
    | (w', .exception) => ({ s with w := w' }, .exception)
    | (w', .illTyped) => ({ s with w := w' }, .illTyped)
    | (w', .fault f) => ({ s with w := w' }, .fault f)
    | (w', .ok new) => ({ s with w := w' }, .ok new none)

/-- A program: its results up to the end or to the death of the process. (method calls and `Dispose`, crates/rsharp/cs/src/RSharp.cs:117-124) -/
def run (s : VWorld) : List VCall → List VRes
  | [] => []
  | c :: cs => match s.step c with
    | (s', r) => if r.ends then [r] else r :: s'.run cs

/-- Before any call. (see `World.empty`) (crates/rsharp/cs/src/RSharp.cs:91-145, before any construction) -/
def empty : VWorld := ⟨World.empty, [], []⟩

end VWorld
end Verif.Ffi
