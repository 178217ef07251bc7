import Verif.Spec.Program
/-!
# Specification: the contracts that a program can save
-/
namespace Verif.Spec
open Verif

/-- The contract instance in variable `k`, if there is one. -/
def instanceAt (env : Env) (k : Nat) : Option (ContractTy × Idx) :=
  match env[k]? with
  | some (.inst C h) => some (C, h)
  | _ => none

/-- The contract instances in the variables `ks`, with their handles. -/
def instancesAt (env : Env) (ks : List Nat) : List (ContractTy × Idx) := ks.filterMap (instanceAt env)

end Verif.Spec
