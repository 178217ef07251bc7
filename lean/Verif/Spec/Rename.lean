import Mathlib.Logic.Equiv.Defs
import Verif.Model.Baseline
/-!
# Renaming object handles

Handles are meant to be opaque names.  `BOp.replay σ ord` is the same call with every object handle in it (its argument, and those
inside the values it stores) replaced by its image under `σ`, and with another hash order; `BOp.replayOut σ` is the result with
the handle of a new object replaced likewise.  `Renamed σ b b'`: every reader of `b'` returns what it returns on `b`, with handles
replaced.
-/
namespace Verif.Spec
open Verif

/-- Replace an object handle in a primitive value. -/
def renPrim (σ : Idx → Idx) : (p : PrimType) → p.Carrier → p.Carrier
  | .objectHandle, v => σ v
  | .contractDataHandle, v => v
  | .u8, v => v | .u16, v => v | .u32, v => v | .u64, v => v
  | .i8, v => v | .i16, v => v | .i32, v => v | .i64, v => v
  | .bool, v => v | .f32, v => v | .f64, v => v | .string, v => v

/-- Replace the object handles in a value. -/
def renVal (σ : Idx → Idx) : (t : PropType) → t.Carrier → t.Carrier
  | .prim p, v => renPrim σ p v
  | .vec p, v => v.map (renPrim σ p)

/-- Replace the object handles in the keyframes of a channel. -/
def renChan (σ : Idx → Idx) (t : PropType) (c : t.Chan) : t.Chan :=
  c.map fun k => ⟨renVal σ t k.value, k.time⟩

/-- Replace the object handles in a dynamic value. -/
def renDyn (σ : Idx → Idx) : DynProp → DynProp
  | .primitive (.objectHandle v) => .primitive (.objectHandle (σ v))
  | .vec (.objectHandle v) => .vec (.objectHandle (v.map σ))
  | .primitive p => .primitive p
  | .vec v => .vec v

/-- Replace the handles in the object set of a contract. -/
def renData (σ : Idx → Idx) (cd : ContractData) : ContractData := ⟨cd.id, cd.objects.map σ⟩

/-- The same call with other object handles and another hash order. -/
def replay (σ : Idx → Idx) (ord : HashOrder) : BOp → BOp
  | .register C => .register C
  | .unregister C h _ => .unregister C h ord
  | .create C h ss cs => .create C h (ss.map (renDyn σ)) (cs.map fun c => ⟨c.1, renChan σ c.1 c.2⟩)
  | .remove C o => .remove C (σ o)
  | .writeState t h v => .writeState t h (renVal σ t v)
  | .writeChannel t h v => .writeChannel t h (renChan σ t v)
  | .setWarp o w => .setWarp (σ o) w

/-- The same result with other object handles. -/
def replayOut (σ : Idx → Idx) (e : Event) : BOut :=
  match e.1 with
  | .create _ _ _ _ => e.2.map (Option.map σ)
  | _ => e.2

/-- The same calls; the `k`-th traversal of a hash set goes by `ords k`. -/
def replayAll (σ : Idx → Idx) (ords : Nat → HashOrder) : List BOp → List BOp
  | [] => []
  | op :: ops => replay σ (ords 0) op :: replayAll σ (fun k => ords (k + 1)) ops

/-- All readers agree up to the names of objects. -/
structure Renamed (σ : Idx → Idx) (b b' : Baseline) : Prop where
  kind : b'.kind = b.kind
  contractData : ∀ h : Idx, b'.contractData h = (b.contractData h).map (renData σ)
  object : ∀ o : Idx, b'.object (σ o) = b.object o
  iterObjects : (b'.iterObjects).Perm (b.iterObjects.map fun e => (σ e.1, e.2))
  state : ∀ (t : PropType) (h : Idx), b'.state t h = (b.state t h).map (renVal σ t)
  channel : ∀ (t : PropType) (h : Idx), b'.channel t h = (b.channel t h).map (renChan σ t)
  bindState : ∀ (id : PropId) (o : Idx), b'.bindState id (σ o) = b.bindState id o
  bindChannel : ∀ (id : PropId) (o : Idx), b'.bindChannel id (σ o) = b.bindChannel id o

/-- A call that is not an `unregister_contract` panicking over two or more listed objects. -/
def Calm (b : Baseline) : BOp → Prop
  | .unregister C h ord => (b.unregisterContract C h ord).2.isPanic = true →
      ∀ cd : ContractData, b.contractData h = .ok cd → cd.objects.length ≤ 1
  | _ => True

/-- No call of the run is an `unregister_contract` panicking over two or more listed objects. -/
def CalmRun (b : Baseline) : List BOp → Prop
  | [] => True
  | op :: ops => Calm b op ∧ CalmRun (b.step op).1 ops

end Verif.Spec
