import Verif.Model.Wrapper
import Verif.Model.Types
/-!
# Native memory behind the C# API

The C# classes hold raw pointers to native objects.  This file models the native heap, the native functions by their
signatures (which pointers are borrowed, which are consumed, what comes back), and the C# methods by what they check and
what they pass.

Simplifications.  Plain values (numbers, `bool`, lengths) are left out of signatures.  A native panic ends the process
(`ffi_export` functions abort on unwind), so a run that panics is a prefix of a run of the model.  Aliasing rules beyond
"a consumed or exclusively borrowed object is not passed twice to one call" are not modelled.  Generated P/Invoke
declarations take the arguments in the order of the Rust function.  Argument expressions are evaluated left to right.
-/
namespace Verif.Ffi

/-- The native types that C# wraps; each has one wrapper class. (wrapper classes of crates/rsharp/cs/src/RSharp.cs:91-145; each cited below) -/
inductive NTy where
  /-- `RBox_T` (crates/rsharp/codegen/rbox.cs.tpl), `RString` (crates/rsharp/cs/src/RString.cs), `ObjectHandle` (client/cs/src/ObjectHandle.cs),
  `ContractDataHandle` (client/cs/src/Contract.cs:9-17) -/
  | prim (t : PrimType)
  /-- `State_T` (client/codegen_wrapped/state.cs.tpl) -/
  | state (t : PrimType)
  /-- `StateId_T` (client/codegen_wrapped/state_id.cs.tpl) -/
  | stateId (t : PrimType)
  /-- `StateHandle_T` (client/codegen_wrapped/state_handle.cs.tpl) -/
  | stateHandle (t : PrimType)
  /-- `Keyframe_T` (client/codegen_wrapped/keyframe.cs.tpl) -/
  | keyframe (t : PrimType)
  /-- `Baseline` (client/cs/src/Baseline.cs) -/
  | baseline
  /-- `ContractData`, `ContractId` (client/cs/src/Contract.cs:19-72) -/
  | contractData | contractId
  /-- `ExampleContract`, `ExampleStates` (client/contract_example/cs/src/ExampleContract.cs) -/
  | exContract | exStates
  /-- `BallContract`, `BallStates` (demos/unity_states/cs/src) -/
  | ballContract | ballStates
  /-- `RVec_Keyframe_U8` (client/cs/src/RVec_Keyframe.cs) -/
  | rvec
deriving DecidableEq, Repr

/-- A native pointer: the allocation it points into, the type of what it points at, whether it points to the allocation
itself or to something inside (then it is good only as long as the contents have not moved), and whether it may be
written through. (what `Ptr<T>` holds, crates/rsharp/cs/src/RSharp.cs:25-33, with ghost information) -/
structure Ptr where
  alloc : Nat
  ty : NTy
  interior : Bool
  writable : Bool
  ver : Nat
deriving DecidableEq, Repr

/-- A native allocation; `ver` counts how often its contents may have moved. (a `repr_c::Box`, as returned by the `ffi_export` functions; ghost) (client/rust/src/baseline.rs:387-510) -/
structure Alloc where
  ty : NTy
  live : Bool
  ver : Nat
deriving DecidableEq, Repr

/-- The native heap: all allocations ever made. (ghost; fed by the `ffi_export` functions cited at the methods below) (client/rust/src/baseline.rs:387-510) -/
abbrev Heap := List Alloc

/-- What is wrong with a native call. (ghost: the obligations of the `ffi_export` functions cited at the methods below) (client/rust/src/baseline.rs:387-510) -/
inductive Fault where
  /-- fewer or more pointers than the function takes -/
  | arity
  /-- a pointer to freed or moved memory -/
  | dangling
  /-- a pointer to something else than the function expects -/
  | wrongType
  /-- a `Box` made of a pointer into another object -/
  | notABox
  /-- `&mut` made of a shared reference -/
  | sharedWrite
  /-- an exclusive argument passed twice -/
  | aliased
deriving DecidableEq, Repr

/-- A pointer parameter of a native function: `&T`, `&mut T` (`moves`: the call may move or drop the contents), or
`repr_c::Box<T>`. (parameters of the `ffi_export` functions cited at the methods below) (client/rust/src/baseline.rs:387-510) -/
inductive Param where
  | ref (t : NTy)
  | refMut (t : NTy) (moves : Bool)
  | box (t : NTy)
deriving DecidableEq, Repr

/-- The type a parameter points at. (see `Param`) (client/rust/src/baseline.rs:387-510) -/
def Param.ty : Param → NTy
  | .ref t => t
  | .refMut t _ => t
  | .box t => t

/-- `&mut T` and `Box<T>` may not alias another argument (the Rust reference, "Behavior considered undefined"). (see `Param`) (client/rust/src/baseline.rs:387-510) -/
def Param.exclusive : Param → Bool
  | .ref _ => false
  | _ => true

/-- What a native function returns: nothing that matters here, a `repr_c::Box<T>`, or a reference into its `i`-th
parameter. (results of the `ffi_export` functions cited at the methods below) (client/rust/src/baseline.rs:387-510) -/
inductive Ret where
  | nothing
  | box (t : NTy)
  | borrow (i : Nat) (t : NTy) (writable : Bool)
deriving DecidableEq, Repr

/-- The pointer part of the signature of an `extern "C"` function. (the functions cited at the methods below) (client/rust/src/baseline.rs:387-510) -/
structure Sig where
  params : List Param
  ret : Ret
deriving DecidableEq, Repr

namespace Heap

/-- A pointer may be dereferenced: its allocation is live and, for a pointer to the inside, has not moved. (see `Param`) (crates/rsharp/cs/src/RSharp.cs:103-107, the obligation of `p`) -/
def valid (h : Heap) (p : Ptr) : Bool :=
  match h[p.alloc]? with
  | none => false
  | some a => a.live && (!p.interior || p.ver == a.ver)

/-- Whether a pointer can be passed for a parameter. (see `Param`) (client/rust/src/baseline.rs:387-510) -/
def checkParam (h : Heap) (q : Param) (p : Ptr) : Option Fault :=
  if !h.valid p then some .dangling
  else if p.ty ≠ q.ty then some .wrongType
  else match q with
    | .ref _ => none
    | .refMut _ _ => if p.writable then none else some .sharedWrite
    | .box _ => if p.interior then some .notABox else none

/-- Two arguments of one call do not clash. (see `Param`) (client/rust/src/baseline.rs:387-510) -/
def apart (a b : Param × Ptr) : Prop := (a.1.exclusive || b.1.exclusive) = true → a.2.alloc ≠ b.2.alloc
instance (a b : Param × Ptr) : Decidable (apart a b) := by unfold apart; infer_instance

/-- What a call does to an argument: a `Box` is freed, the contents of a `&mut` may move. (see `Param`) (client/rust/src/baseline.rs:387-510) -/
def applyParam (h : Heap) (x : Param × Ptr) : Heap :=
  match x.1 with
  | .ref _ => h
  | .refMut _ moves => if moves then h.modify x.2.alloc fun a => { a with ver := a.ver + 1 } else h
  | .box _ => h.modify x.2.alloc fun a => { a with live := false }

/-- The value returned. (see `Ret`) (client/rust/src/baseline.rs:387-510) -/
def applyRet (h : Heap) (ptrs : List Ptr) : Ret → Heap × Option Ptr
  | .nothing => (h, none)
  | .box t => (h ++ [⟨t, true, 0⟩], some ⟨h.length, t, false, true, 0⟩)
  | .borrow i t w => match ptrs[i]? with
    | none => (h, none)
    | some p => (h, some ⟨p.alloc, t, true, w, (h[p.alloc]?.map Alloc.ver).getD 0⟩)

/-- A native call. (a P/Invoke call as in client/cs/src/StateAccessors.cs; see `Param` and `Ret`) -/
def native (h : Heap) (s : Sig) (ptrs : List Ptr) : Except Fault (Heap × Option Ptr) :=
  if ptrs.length ≠ s.params.length then .error .arity
  else
    let xs := s.params.zip ptrs
    match xs.findSome? fun x => h.checkParam x.1 x.2 with
    | some f => .error f
    | none =>
      if xs.Pairwise apart then .ok ((xs.foldl applyParam h).applyRet ptrs s.ret)
      else .error .aliased

end Heap

/-! ## The C# side -/

/-- A wrapper of class `cls`. (`OpaqueWrapper<T>`, crates/rsharp/cs/src/RSharp.cs:91-145) -/
structure W where
  cls : NTy
  w : Wrapper Ptr
deriving DecidableEq, Repr

/-- All wrappers ever constructed, and the native heap. (`OpaqueWrapper<T>`, crates/rsharp/cs/src/RSharp.cs:91-145) -/
structure World where
  ws : List W
  heap : Heap
deriving DecidableEq, Repr

/-- How a method passes one of its wrapper arguments: `x.Inner.Value.p`, `x.StealInner().p`, or the data pointer of a
vector, `x.Inner.Value.ptr`. (crates/rsharp/cs/src/RSharp.cs:103-107, 136-141) -/
inductive Pass where
  | inner (i : Nat)
  | steal (i : Nat)
  | data (i : Nat)
deriving DecidableEq, Repr

/-- Which argument is passed. (see `Pass`) (crates/rsharp/cs/src/RSharp.cs:103-124) -/
def Pass.idx : Pass → Nat
  | .inner i => i
  | .steal i => i
  | .data i => i

/-- A C# method: classes of the wrapper arguments (`this` among them), arguments that must not be `SharedRef`, arguments
that must be `Owned` (else it throws before anything else), what it passes to which native function, and how the
result is wrapped. (the methods cited at `Meth.spec` below) (client/cs/src/Baseline.cs:1-53 and the classes cited at `Api.method`) -/
structure Method where
  args : List NTy
  notShared : List Nat := []
  owned : List Nat := []
  pass : List Pass
  sig : Sig
  ret : Option (NTy × Ownership) := none
deriving DecidableEq, Repr

/-- The methods of the C# API that take or return native pointers. (cited at each below) (client/cs/src/Baseline.cs:1-53 and the classes cited at `Api.method`) -/
inductive Api where
  | baselineNew | baselineIsMain | baselineContractData
  | baselineState (t : PrimType) | baselineStateMut (t : PrimType) | baselineBindState (t : PrimType)
  | contractDataId | contractIdName | contractIdVersion
  | primNew (t : PrimType) | primValue (t : PrimType)
  | stateNew (t : PrimType) | stateValue (t : PrimType) | stateSetValue (t : PrimType)
  | stateIdContract (t : PrimType)
  | keyframeNew (t : PrimType) | keyframeValue (t : PrimType) | keyframeTime (t : PrimType)
  | rvecNew | rvecPush | rvecGet | rvecSet
  | exRegister | exHandle | exStates | exObjectCreate | exObjectRemove | exField (t : PrimType)
  | ballRegister | ballUnregister | ballHandle | ballStates | ballObjectCreate | ballObjectRemove
  | ballField (t : PrimType)
deriving DecidableEq, Repr

/-- See `NTy.prim`. (client/cs/src/ObjectHandle.cs:9-17) -/
abbrev objectHandle : NTy := .prim .objectHandle
/-- See `NTy.prim`. (client/cs/src/Contract.cs:9-17) -/
abbrev contractDataHandle : NTy := .prim .contractDataHandle

/-- The methods, with the native functions they call. (files cited at each case) (client/cs/src/Baseline.cs:1-53, and the file at each case) -/
def Api.method : Api → Method
  /- client/cs/src/Baseline.cs:14-18, client/rust/src/baseline.rs:390-394 -/
  | .baselineNew => ⟨[], [], [], [], ⟨[], .box .baseline⟩, some (.baseline, .owned)⟩
  /- client/cs/src/Baseline.cs:27-33, client/rust/src/baseline.rs:402-406 -/
  | .baselineIsMain => ⟨[.baseline], [], [], [.inner 0], ⟨[.ref .baseline], .nothing⟩, none⟩
  /- client/cs/src/Baseline.cs:37-50, client/rust/src/baseline.rs:408-415 -/
  | .baselineContractData => ⟨[.baseline, contractDataHandle], [], [], [.inner 0, .inner 1],
      ⟨[.ref .baseline, .ref contractDataHandle], .borrow 0 .contractData false⟩, some (.contractData, .sharedRef)⟩
  /- client/cs/src/StateAccessors.cs (`State`), client/rust/src/baseline.rs:448-456 -/
  | .baselineState t => ⟨[.baseline, .stateHandle t], [], [], [.inner 0, .inner 1],
      ⟨[.ref .baseline, .ref (.stateHandle t)], .borrow 0 (.state t) false⟩, some (.state t, .sharedRef)⟩
  /- client/cs/src/StateAccessors.cs (`StateMut`), client/rust/src/baseline.rs:458-466 -/
  | .baselineStateMut t => ⟨[.baseline, .stateHandle t], [0], [], [.inner 0, .inner 1],
      ⟨[.refMut .baseline false, .ref (.stateHandle t)], .borrow 0 (.state t) true⟩, some (.state t, .mutRef)⟩
  /- client/cs/src/StateBindings.cs, client/rust/src/baseline.rs:488-497 -/
  | .baselineBindState t => ⟨[.baseline, .stateId t, objectHandle], [], [], [.inner 0, .inner 1, .inner 2],
      ⟨[.ref .baseline, .ref (.stateId t), .ref objectHandle], .box (.stateHandle t)⟩, some (.stateHandle t, .owned)⟩
  /- client/cs/src/Contract.cs:28-35, client/rust/src/contract/mod.rs:142-146 -/
  | .contractDataId => ⟨[.contractData], [], [], [.inner 0], ⟨[.ref .contractData], .borrow 0 .contractId false⟩,
      some (.contractId, .sharedRef)⟩
  /- client/cs/src/Contract.cs:52-62, client/rust/src/contract/mod.rs:160-164; the span returned points to a `'static` string -/
  | .contractIdName => ⟨[.contractId], [], [], [.inner 0], ⟨[.ref .contractId], .nothing⟩, none⟩
  /- client/cs/src/Contract.cs:64-71 -/
  | .contractIdVersion => ⟨[.contractId], [], [], [.inner 0], ⟨[.ref .contractId], .nothing⟩, none⟩
  /- crates/rsharp/codegen/rbox.cs.tpl:9-10, crates/rsharp/rust/src/rbox.rs:12-16; crates/rsharp/cs/src/RString.cs:11-27, crates/rsharp/rust/src/string.rs:31-40 -/
  | .primNew t => ⟨[], [], [], [], ⟨[], .box (.prim t)⟩, some (.prim t, .owned)⟩
  /- crates/rsharp/codegen/rbox.cs.tpl:20-22; crates/rsharp/cs/src/RString.cs:29-41, crates/rsharp/rust/src/string.rs:19-23 -/
  | .primValue t => ⟨[.prim t], [], [], [.inner 0], ⟨[.ref (.prim t)], .nothing⟩, none⟩
  /- client/codegen_wrapped/opaque_template.cs.tpl:33-39 with client/codegen_wrapped/src/template_state.rs:30-36; client/rust/src/contract/properties/states/mod.rs:90-95 -/
  | .stateNew t => ⟨[.prim t], [], [], [.steal 0], ⟨[.box (.prim t)], .box (.state t)⟩, some (.state t, .owned)⟩
  /- client/codegen_wrapped/state.cs.tpl:3-13; client/rust/src/contract/properties/states/mod.rs:103-107 -/
  | .stateValue t => ⟨[.state t], [], [], [.inner 0], ⟨[.ref (.state t)], .borrow 0 (.prim t) false⟩,
      some (.prim t, .sharedRef)⟩
  /- client/codegen_wrapped/state.cs.tpl:15-21; client/rust/src/contract/properties/states/mod.rs:109-114 -/
  | .stateSetValue t => ⟨[.state t, .prim t], [], [], [.inner 0, .steal 1],
      ⟨[.refMut (.state t) false, .box (.prim t)], .nothing⟩, none⟩
  /- client/codegen_wrapped/state_id.cs.tpl; client/rust/src/contract/properties/states/id.rs:76-80 -/
  | .stateIdContract t => ⟨[.stateId t], [], [], [.inner 0], ⟨[.ref (.stateId t)], .box contractDataHandle⟩,
      some (contractDataHandle, .owned)⟩
  /- client/codegen_wrapped/src/template_keyframe.rs:26-33; client/rust/src/contract/properties/channels/channel.rs:81-86 -/
  | .keyframeNew t => ⟨[.prim t], [], [], [.steal 0], ⟨[.box (.prim t)], .box (.keyframe t)⟩, some (.keyframe t, .owned)⟩
  /- client/codegen_wrapped/keyframe.cs.tpl:1-14; client/rust/src/contract/properties/channels/channel.rs:94-98 -/
  | .keyframeValue t => ⟨[.keyframe t], [], [], [.inner 0], ⟨[.ref (.keyframe t)], .borrow 0 (.prim t) false⟩,
      some (.prim t, .sharedRef)⟩
  /- client/codegen_wrapped/keyframe.cs.tpl:16-19; client/rust/src/contract/properties/channels/channel.rs:100-104 -/
  | .keyframeTime t => ⟨[.keyframe t], [], [], [.inner 0], ⟨[.ref (.keyframe t)], .nothing⟩, none⟩
  /- client/cs/src/RVec_Keyframe.cs:21, crates/rsharp/cs/src/RVec.cs:14-25; crates/rsharp/rust/src/rvec.rs:13-17 -/
  | .rvecNew => ⟨[], [], [], [], ⟨[], .box .rvec⟩, some (.rvec, .owned)⟩
  /- client/cs/src/RVec_Keyframe.cs:29-43; crates/rsharp/rust/src/rvec.rs:5-10.  Pushing may reallocate. -/
  | .rvecPush => ⟨[.rvec, .keyframe .u8], [], [], [.inner 0, .steal 1],
      ⟨[.refMut .rvec true, .box (.keyframe .u8)], .nothing⟩, none⟩
  /- client/cs/src/RVec_Keyframe.cs:47-53; crates/rsharp/rust/src/rvec.rs:25-29 -/
  | .rvecGet => ⟨[.rvec], [], [], [.inner 0], ⟨[.ref .rvec], .borrow 0 (.keyframe .u8) false⟩,
      some (.keyframe .u8, .sharedRef)⟩
  /- client/cs/src/RVec_Keyframe.cs:55-69 (passes the data pointer); crates/rsharp/rust/src/rvec.rs:31-35 (wants the vector).  The code empties `value` before
  it reads `this.Inner`. -/
  | .rvecSet => ⟨[.rvec, .keyframe .u8], [0], [1], [.data 0, .steal 1],
      ⟨[.refMut .rvec false, .box (.keyframe .u8)], .nothing⟩, none⟩
  /- client/contract_example/cs/src/ExampleContract.cs:23-36; client/contract_example/rust/src/lib.rs:117-126 -/
  | .exRegister => ⟨[.baseline], [0], [], [.inner 0], ⟨[.refMut .baseline true], .box .exContract⟩,
      some (.exContract, .owned)⟩
  /- client/contract_example/cs/src/ExampleContract.cs:38-49; client/contract_example/rust/src/lib.rs:63-67 -/
  | .exHandle => ⟨[.exContract], [], [], [.inner 0], ⟨[.ref .exContract], .box contractDataHandle⟩,
      some (contractDataHandle, .owned)⟩
  /- client/contract_example/cs/src/ExampleContract.cs:51-62; client/contract_example/rust/src/lib.rs:69-73 -/
  | .exStates => ⟨[.exContract], [], [], [.inner 0], ⟨[.ref .exContract], .borrow 0 .exStates false⟩,
      some (.exStates, .sharedRef)⟩
  /- client/contract_example/cs/src/ExampleContract.cs:64-76 (three pointers); client/contract_example/rust/src/lib.rs:75-104 (five) -/
  | .exObjectCreate => ⟨[.exContract, .baseline, .prim .string], [1], [2], [.inner 0, .inner 1, .steal 2],
      ⟨[.ref .exContract, .refMut .baseline true, .box (.prim .string), .box objectHandle, .box contractDataHandle],
        .box objectHandle⟩, some (objectHandle, .owned)⟩
  /- client/contract_example/cs/src/ExampleContract.cs:78-85 (does not empty `obj`); client/contract_example/rust/src/lib.rs:106-115 (takes the box) -/
  | .exObjectRemove => ⟨[.baseline, objectHandle], [0], [], [.inner 0, .inner 1],
      ⟨[.refMut .baseline true, .box objectHandle], .nothing⟩, none⟩
  /- client/contract_example/cs/src/ExampleContract.cs:99-160; client/contract_example/rust/src/states.rs:33-85 -/
  | .exField t => ⟨[.exStates], [], [], [.inner 0], ⟨[.ref .exStates], .box (.stateId t)⟩, some (.stateId t, .owned)⟩
  /- demos/unity_states/cs/src/BallContract.cs:11-19; demos/unity_states/rust/src/lib.rs:138-141 -/
  | .ballRegister => ⟨[.baseline], [0], [], [.inner 0], ⟨[.refMut .baseline true], .box .ballContract⟩,
      some (.ballContract, .owned)⟩
  /- demos/unity_states/cs/src/BallContract.cs:21-28; demos/unity_states/rust/src/lib.rs:143-151.  The second argument is the temporary `this.Handle`: a call of `Unregister`
  is `ballHandle` followed by this. -/
  | .ballUnregister => ⟨[.baseline, contractDataHandle], [0], [], [.inner 0, .steal 1],
      ⟨[.refMut .baseline true, .box contractDataHandle], .nothing⟩, none⟩
  /- demos/unity_states/cs/src/BallContract.cs:35-42; demos/unity_states/rust/src/lib.rs:158-161 -/
  | .ballHandle => ⟨[.ballContract], [], [], [.inner 0], ⟨[.ref .ballContract], .box contractDataHandle⟩,
      some (contractDataHandle, .owned)⟩
  /- demos/unity_states/cs/src/BallContract.cs:44-51; demos/unity_states/rust/src/lib.rs:163-166 -/
  | .ballStates => ⟨[.ballContract], [], [], [.inner 0], ⟨[.ref .ballContract], .borrow 0 .ballStates false⟩,
      some (.ballStates, .sharedRef)⟩
  /- demos/unity_states/cs/src/BallContract.cs:53-80 (passes the stolen `this.Handle`); demos/unity_states/rust/src/lib.rs:168-211 (wants `&BallContract`).  As for
  `ballUnregister`, the second argument is the temporary. -/
  | .ballObjectCreate => ⟨[.baseline, contractDataHandle], [0], [], [.inner 0, .steal 1],
      ⟨[.refMut .baseline true, .ref .ballContract], .box objectHandle⟩, some (objectHandle, .owned)⟩
  /- demos/unity_states/cs/src/BallContract.cs:82-90 (takes a `ContractDataHandle`); demos/unity_states/rust/src/lib.rs:213-216 (wants an `ObjectHandle`) -/
  | .ballObjectRemove => ⟨[.baseline, contractDataHandle], [0], [], [.inner 0, .steal 1],
      ⟨[.refMut .baseline true, .box objectHandle], .nothing⟩, none⟩
  /- demos/unity_states/cs/src/BallStates.cs:17-94; demos/unity_states/rust/src/lib.rs:83-132 -/
  | .ballField t => ⟨[.ballStates], [], [], [.inner 0], ⟨[.ref .ballStates], .box (.stateId t)⟩,
      some (.stateId t, .owned)⟩

/-- The result of a call, seen from C#: a new wrapper or none, an exception, a call that does not compile, or a native
call that has undefined behaviour. (crates/rsharp/cs/src/RSharp.cs:91-145) -/
inductive Res where
  | ok (new : Option Nat)
  | exception
  | illTyped
  | fault (f : Fault)
deriving DecidableEq, Repr

namespace World

/-- Evaluation of one pointer argument; `none` is an exception of `Nullable.Value`.  The data pointer of a vector points
at its first element (client/codegen_wrapped/state.cs.tpl, client/cs/src/RVec_Keyframe.cs:67). -/
def evalPass (ws : List W) (args : List Nat) (p : Pass) : List W × Option Ptr :=
  match args[p.idx]? with
  | none => (ws, none)
  | some i => match ws[i]? with
    | none => (ws, none)
    | some x => match p with
      | .inner _ => (ws, x.w.inner)
      | .steal _ => match x.w.stealInner with
        | (w', .returned q) => (ws.set i { x with w := w' }, some q)
        | _ => (ws, none)
      | .data _ => (ws, x.w.inner.map fun q => ⟨q.alloc, .keyframe .u8, true, true, q.ver⟩)

/-- Evaluation of the arguments, left to right. (crates/rsharp/cs/src/RSharp.cs:103-107, 136-141) -/
def evalPasses (ws : List W) (args : List Nat) : List Pass → List W × Option (List Ptr)
  | [] => (ws, some [])
  | p :: ps => match evalPass ws args p with
    | (ws', none) => (ws', none)
    | (ws', some q) => match evalPasses ws' args ps with
      | (ws'', none) => (ws'', none)
      | (ws'', some qs) => (ws'', some (q :: qs))

/-- The classes of the arguments are as declared (checked by the C# compiler). (static types of the methods cited above) (crates/rsharp/cs/src/RSharp.cs:91-145) -/
def typed (ws : List W) (args : List Nat) (cls : List NTy) : Bool :=
  args.map (fun i => ws[i]?.map W.cls) == cls.map some

/-- Whether the ownership checks of a method pass. (as in client/cs/src/StateAccessors.cs and client/codegen_wrapped/state.cs.tpl) -/
def guards (ws : List W) (args : List Nat) (m : Method) : Bool :=
  m.notShared.all (fun k => ((args[k]?.bind fun i => ws[i]?).map fun x => decide (x.w.own ≠ .sharedRef)) == some true) &&
  m.owned.all fun k => ((args[k]?.bind fun i => ws[i]?).map fun x => decide (x.w.own = .owned)) == some true

/-- A method call on the wrappers numbered `args`. (the methods cited above) (crates/rsharp/cs/src/RSharp.cs:103-124 in the methods cited above) -/
def call (w : World) (m : Method) (args : List Nat) : World × Res :=
  if !typed w.ws args m.args then (w, .illTyped)
  else if !guards w.ws args m then (w, .exception)
  else match evalPasses w.ws args m.pass with
    | (ws', none) => (⟨ws', w.heap⟩, .exception)
    | (ws', some ptrs) => match w.heap.native m.sig ptrs with
      | .error f => (⟨ws', w.heap⟩, .fault f)
      | .ok (h', r) => match m.ret, r with
        | some (c, o), some p => (⟨ws' ++ [⟨c, Wrapper.new p o⟩], h'⟩, .ok (some ws'.length))
        | _, _ => (⟨ws', h'⟩, .ok none)

/-- `Dispose`, explicit or by the finalizer (crates/rsharp/cs/src/RSharp.cs:117-129).  Every class calls the native `drop` function of its
type, except the vector, whose drop is commented out (client/cs/src/RVec_Keyframe.cs:23-27). -/
def dispose (w : World) (i : Nat) : World × Res :=
  match w.ws[i]? with
  | none => (w, .illTyped)
  | some x => match x.w.dispose with
    | (w', .dropped p) =>
      if x.cls = .rvec then (⟨w.ws.set i { x with w := w' }, w.heap⟩, .ok none)
      else match w.heap.native ⟨[.box x.cls], .nothing⟩ [p] with
        | .error f => (⟨w.ws.set i { x with w := w' }, w.heap⟩, .fault f)
        | .ok (h', _) => (⟨w.ws.set i { x with w := w' }, h'⟩, .ok none)
    | (w', _) => (⟨w.ws.set i { x with w := w' }, w.heap⟩, .ok none)

end World

/-- A step of a C# program.  Every wrapper ever constructed has a number, in order of construction. (a method call, or `Dispose`, crates/rsharp/cs/src/RSharp.cs:117-124) -/
inductive Call where
  | method (a : Api) (args : List Nat)
  | dispose (i : Nat)
deriving DecidableEq, Repr

/-- One step. (a method call, or `Dispose`, crates/rsharp/cs/src/RSharp.cs:117-124) -/
def World.step (w : World) : Call → World × Res
  | .method a args => w.call a.method args
  | .dispose i => w.dispose i

/-- A program: its steps with their results, and the world afterwards.  It ends at a fault. (method calls and `Dispose`, crates/rsharp/cs/src/RSharp.cs:117-124) -/
def World.run (w : World) : List Call → World × List Res
  | [] => (w, [])
  | c :: cs => match w.step c with
    | (w', .fault f) => (w', [.fault f])
    | (w', r) => let (w'', rs) := w'.run cs; (w'', r :: rs)

/-- Before any call. (nothing constructed yet: crates/rsharp/cs/src/RSharp.cs:111-115) -/
def World.empty : World := ⟨[], []⟩

end Verif.Ffi
