import Verif.Spec.Program
/-!
# Specification of independent calls

Two calls of a program that change the baseline are independent if neither uses what the other changes.  Whoever exchanges them has the
variables they return exchanged too.
-/
namespace Verif.Spec
open Verif

/-- Both variables hold the same state handle. -/
def sameState (env : Env) (x y : Nat) : Prop := ∃ t i, env[x]? = some (.state t i) ∧ env[y]? = some (.state t i)

/-- Both variables hold the same channel handle. -/
def sameChannel (env : Env) (x y : Nat) : Prop := ∃ t i, env[x]? = some (.channel t i) ∧ env[y]? = some (.channel t i)

/-- Both variables hold the same object handle. -/
def sameObject (env : Env) (x y : Nat) : Prop := ∃ o, env[x]? = some (.obj o) ∧ env[y]? = some (.obj o)

/-- A call that adds to the baseline, overwrites a part of it or removes an object. -/
def Instr.updates : Instr → Prop
  | .register _ | .create .. | .writeState .. | .writeChannel .. | .setWarp .. | .remove .. => True
  | _ => False

/-- A call that overwrites a part of the baseline. -/
def Instr.overwrites : Instr → Prop
  | .writeState .. | .writeChannel .. | .setWarp .. => True
  | _ => False

/-- They register the same contract, or overwrite or remove the same thing. -/
def Collide (env : Env) : Instr → Instr → Prop
  | .register C, .register D => C.id = D.id
  | .writeState x _, .writeState y _ => sameState env x y
  | .writeChannel x _, .writeChannel y _ => sameChannel env x y
  | .setWarp x _, .setWarp y _ => sameObject env x y
  | .setWarp x _, .remove _ y => sameObject env x y
  | .remove _ x, .setWarp y _ => sameObject env x y
  | .remove _ x, .remove _ y => sameObject env x y
  | _, _ => False

/-- The variables from number `n` on (at most two) in the other order. -/
def exchange (n : Nat) (env : Env) : Env := env.take n ++ (env.drop n).reverse

end Verif.Spec
