import Verif.Model.Baseline
/-!
# Programs that treat handles as opaque

A program holds contract instances and handles, in numbered variables, and can do with them what the public API of a
baseline allows: pass them to calls, compare them, store them in states and channels and get them back from there.  What it sees is
a list of `Seen`, in which there are no handles, only numbers of variables.  It cannot print a handle or make one up.  A panic ends
the program.

`iter_objects` is represented by the number of its items only: the order of the objects is the order of the slots.
-/
namespace Verif.Spec
open Verif

/-- What a variable holds. -/
inductive Held where
  /-- a contract instance -/
  | inst (C : ContractTy) (h : Idx)
  | con (h : Idx)
  | obj (o : Idx)
  | state (t : PropType) (i : Idx)
  | channel (t : PropType) (i : Idx)

abbrev Env := List Held

/-- A primitive value as the program writes it: the number of a variable in the place of a handle. -/
@[reducible] def PrimSym : PrimType → Type
  | .u8 => BitVec 8 | .u16 => BitVec 16 | .u32 => BitVec 32 | .u64 => BitVec 64
  | .i8 => BitVec 8 | .i16 => BitVec 16 | .i32 => BitVec 32 | .i64 => BitVec 64
  | .bool => Bool | .f32 => BitVec 32 | .f64 => BitVec 64 | .string => String
  | .objectHandle => Nat | .contractDataHandle => Nat

/-- A property value as the program writes it. -/
@[reducible] def Sym : PropType → Type
  | .vec p => List (PrimSym p)
  | .prim p => PrimSym p

/-- A channel as the program writes it: values and times. -/
@[reducible] def ChanSym (t : PropType) : Type := List (Sym t × BitVec 64)

/-- The value itself; `none` if a variable does not hold a handle of that kind. -/
def evalPrim (env : Env) : (p : PrimType) → PrimSym p → Option p.Carrier
  | .objectHandle, k => match env[k]? with | some (.obj o) => some o | _ => none
  | .contractDataHandle, k => match env[k]? with | some (.con h) => some h | _ => none
  | .u8, v => some v | .u16, v => some v | .u32, v => some v | .u64, v => some v
  | .i8, v => some v | .i16, v => some v | .i32, v => some v | .i64, v => some v
  | .bool, v => some v | .f32, v => some v | .f64, v => some v | .string, v => some v

/-- The values of a list, if all of them have one. -/
def evalList {α β : Type} (f : α → Option β) : List α → Option (List β)
  | [] => some []
  | x :: xs => match f x, evalList f xs with
    | some y, some ys => some (y :: ys)
    | _, _ => none

def evalVal (env : Env) : (t : PropType) → Sym t → Option t.Carrier
  | .prim p, v => evalPrim env p v
  | .vec p, v => evalList (evalPrim env p) v

def evalKey (env : Env) (t : PropType) (k : Sym t × BitVec 64) : Option (Keyframe t.Carrier) :=
  (evalVal env t k.1).map fun v => ⟨v, k.2⟩

def evalChan (env : Env) (t : PropType) (c : ChanSym t) : Option t.Chan := evalList (evalKey env t) c

def evalProp (env : Env) (s : (t : PropType) × Sym t) : Option DynProp := (evalVal env s.1 s.2).map (DynProp.ofTyped s.1)

def evalDynChan (env : Env) (s : (t : PropType) × ChanSym t) : Option DynChannel :=
  (evalChan env s.1 s.2).map fun c => ⟨s.1, c⟩

/-- Receive a primitive value: a handle goes into a new variable. -/
def receivePrim : (p : PrimType) → p.Carrier → Env → PrimSym p × Env
  | .objectHandle, o, env => (env.length, env ++ [.obj o])
  | .contractDataHandle, h, env => (env.length, env ++ [.con h])
  | .u8, v, env => (v, env) | .u16, v, env => (v, env) | .u32, v, env => (v, env) | .u64, v, env => (v, env)
  | .i8, v, env => (v, env) | .i16, v, env => (v, env) | .i32, v, env => (v, env) | .i64, v, env => (v, env)
  | .bool, v, env => (v, env) | .f32, v, env => (v, env) | .f64, v, env => (v, env) | .string, v, env => (v, env)

def receiveList {α β : Type} (f : α → Env → β × Env) : List α → Env → List β × Env
  | [], env => ([], env)
  | x :: xs, env => let (y, env1) := f x env; let (ys, env2) := receiveList f xs env1; (y :: ys, env2)

/-- Receive a value. -/
def receiveVal : (t : PropType) → t.Carrier → Env → Sym t × Env
  | .prim p, v, env => receivePrim p v env
  | .vec p, v, env => receiveList (receivePrim p) v env

/-- Receive the keyframes of a channel. -/
def receiveChan (t : PropType) (c : t.Chan) (env : Env) : ChanSym t × Env :=
  receiveList (fun k env => let (v, env1) := receiveVal t k.value env; ((v, k.time), env1)) c env

/-- What the program sees of one call.  Messages are those of the model: of a panicking `expect` the first part only, without the text of
the error inside. -/
inductive Seen where
  /-- the program has no such variable, or of another type: it does not compile -/
  | stuck
  /-- the call returned (what it returned is in the variables), or not -/
  | result (r : Outcome Unit)
  | value (t : PropType) (v : Sym t)
  | channel (t : PropType) (v : ChanSym t)
  | warp (w : TimeWarp)
  | contract (id : ContractId) (objects : Nat)
  | flag (x : Bool)
  | count (n : Nat)
  | kind (k : Kind)

def Seen.isPanic : Seen → Bool
  | .result r => r.isPanic
  | _ => false

/-- The calls.  Numbers are variables, except the field number in `bindState` and `bindChannel`. -/
inductive Instr where
  | register (C : ContractTy)
  /-- `unregister_contract::<C>(handle)` -/
  | unregister (C : ContractTy) (con : Nat)
  /-- the handle of an instance -/
  | handle (inst : Nat)
  | create (inst : Nat) (states : List ((t : PropType) × Sym t)) (channels : List ((t : PropType) × ChanSym t))
  /-- `object_remove::<C>(object)` -/
  | remove (C : ContractTy) (obj : Nat)
  | bindState (inst field obj : Nat)
  | bindChannel (inst field obj : Nat)
  | readState (state : Nat)
  | writeState (state : Nat) (v : (t : PropType) × Sym t)
  | readChannel (channel : Nat)
  | writeChannel (channel : Nat) (v : (t : PropType) × ChanSym t)
  | warp (obj : Nat)
  | setWarp (obj : Nat) (w : TimeWarp)
  /-- the contract handle of an object -/
  | contractOf (obj : Nat)
  /-- the id of a contract and the number of its objects -/
  | describe (con : Nat)
  /-- is the object in the object set of the contract? -/
  | lists (con obj : Nat)
  /-- the number of items of `iter_objects` -/
  | countObjects
  | kind
  /-- compare two handles -/
  | same (x y : Nat)
  /-- forget all variables but these -/
  | keep (xs : List Nat)

/-- `==` of handles of the same type; `none` if the types differ. -/
def Held.same : Held → Held → Option Bool
  | .con h, .con h' => some (decide (h = h'))
  | .obj o, .obj o' => some (decide (o = o'))
  | .state t i, .state t' i' => if t = t' then some (decide (i = i')) else none
  | .channel t i, .channel t' i' => if t = t' then some (decide (i = i')) else none
  | _, _ => none

/-- Turn the result of a call that returns `α` into what is seen, adding to the variables what was returned. -/
def returned {α : Type} (r : Outcome α) (f : α → Held) (env : Env) : Seen × Env :=
  match r with
  | .ok a => (.result (.ok ()), env ++ [f a])
  | .err m => (.result (.err m), env)
  | .panic m => (.result (.panic m), env)

/-- One call.  `ord` is the hash order it meets, if it goes over the object set of a contract. -/
def Instr.step (ord : HashOrder) (env : Env) (b : Baseline) : Instr → Seen × Env × Baseline
  | .register C =>
    let (b', r) := b.registerContract C
    let (s, env') := returned r (Held.inst C) env
    (s, env', b')
  | .unregister C k => match env[k]? with
    | some (.con h) => let (b', r) := b.unregisterContract C h ord; (.result r, env, b')
    | _ => (.stuck, env, b)
  | .handle k => match env[k]? with
    | some (.inst _ h) => (.result (.ok ()), env ++ [.con h], b)
    | _ => (.stuck, env, b)
  | .create k ss cs => match env[k]?, evalList (evalProp env) ss, evalList (evalDynChan env) cs with
    | some (.inst C h), some ss, some cs =>
      let (b', r) := b.objectCreate C h ss cs
      let (s, env') := returned r Held.obj env
      (s, env', b')
    | _, _, _ => (.stuck, env, b)
  | .remove C k => match env[k]? with
    | some (.obj o) => let (b', r) := b.objectRemove C o; (.result r, env, b')
    | _ => (.stuck, env, b)
  | .bindState k n ko => match env[k]?, env[ko]? with
    | some (.inst C h), some (.obj o) => match C.stateId h n with
      | some d => let (s, env') := returned (b.bindState d.id o) (Held.state d.ty) env; (s, env', b)
      | none => (.stuck, env, b)
    | _, _ => (.stuck, env, b)
  | .bindChannel k n ko => match env[k]?, env[ko]? with
    | some (.inst C h), some (.obj o) => match C.chanId h n with
      | some d => let (s, env') := returned (b.bindChannel d.id o) (Held.channel d.ty) env; (s, env', b)
      | none => (.stuck, env, b)
    | _, _ => (.stuck, env, b)
  | .readState k => match env[k]? with
    | some (.state t i) => match b.state t i with
      | .ok v => let (x, env') := receiveVal t v env; (.value t x, env', b)
      | .err m => (.result (.err m), env, b)
      | .panic m => (.result (.panic m), env, b)
    | _ => (.stuck, env, b)
  | .writeState k x => match env[k]?, evalVal env x.1 x.2 with
    | some (.state t i), some v =>
      if h : x.1 = t then let (b', r) := b.stateWrite t i (h ▸ v); (.result r, env, b')
      else (.stuck, env, b)
    | _, _ => (.stuck, env, b)
  | .readChannel k => match env[k]? with
    | some (.channel t i) => match b.channel t i with
      | .ok c => let (x, env') := receiveChan t c env; (.channel t x, env', b)
      | .err m => (.result (.err m), env, b)
      | .panic m => (.result (.panic m), env, b)
    | _ => (.stuck, env, b)
  | .writeChannel k x => match env[k]?, evalChan env x.1 x.2 with
    | some (.channel t i), some c =>
      if h : x.1 = t then let (b', r) := b.channelWrite t i (h ▸ c); (.result r, env, b')
      else (.stuck, env, b)
    | _, _ => (.stuck, env, b)
  | .warp k => match env[k]? with
    | some (.obj o) => match b.object o with
      | .ok ob => (.warp ob.warp, env, b)
      | .err m => (.result (.err m), env, b)
      | .panic m => (.result (.panic m), env, b)
    | _ => (.stuck, env, b)
  | .setWarp k w => match env[k]? with
    | some (.obj o) => let (b', r) := b.setWarp o w; (.result r, env, b')
    | _ => (.stuck, env, b)
  | .contractOf k => match env[k]? with
    | some (.obj o) =>
      let (s, env') := returned (b.object o) (fun ob => Held.con ob.contract) env; (s, env', b)
    | _ => (.stuck, env, b)
  | .describe k => match env[k]? with
    | some (.con h) => match b.contractData h with
      | .ok cd => (.contract cd.id cd.objects.length, env, b)
      | .err m => (.result (.err m), env, b)
      | .panic m => (.result (.panic m), env, b)
    | _ => (.stuck, env, b)
  | .lists k ko => match env[k]?, env[ko]? with
    | some (.con h), some (.obj o) => match b.contractData h with
      | .ok cd => (.flag (decide (o ∈ cd.objects)), env, b)
      | .err m => (.result (.err m), env, b)
      | .panic m => (.result (.panic m), env, b)
    | _, _ => (.stuck, env, b)
  | .countObjects => (.count b.iterObjects.length, env, b)
  | .kind => (.kind b.kind, env, b)
  | .same x y => match env[x]?, env[y]? with
    | some p, some q => match p.same q with
      | some r => (.flag r, env, b)
      | none => (.stuck, env, b)
    | _, _ => (.stuck, env, b)
  | .keep xs => (.result (.ok ()), xs.filterMap fun k => env[k]?, b)

/-- Run a program; the `k`-th call meets the hash order `ords k`.  What is seen, and (unless it panicked) the variables and
the baseline at the end. -/
def runProg : List Instr → (Nat → HashOrder) → Env → Baseline → List Seen × Option (Env × Baseline)
  | [], _, env, b => ([], some (env, b))
  | i :: is, ords, env, b =>
    let (s, env', b') := i.step (ords 0) env b
    if s.isPanic then ([s], none)
    else
      let (ss, fin) := runProg is (fun k => ords (k + 1)) env' b'
      (s :: ss, fin)

/-- No program can tell the two apart, whatever hash orders it meets on either side. -/
def Indistinguishable (env : Env) (b : Baseline) (env' : Env) (b' : Baseline) : Prop :=
  ∀ (is : List Instr) (ords ords' : Nat → HashOrder), (runProg is ords env b).1 = (runProg is ords' env' b').1

end Verif.Spec
