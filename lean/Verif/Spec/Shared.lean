import Verif.Spec.Program
/-!
# Programs that share a baseline

Several programs, each with its own variables, make their calls on one baseline, in an order that a scheduler chooses.  A program whose
call panics has ended; the others go on with the baseline as the panic left it.
-/
namespace Verif.Spec
open Verif

/-- Let the programs make their calls in this order; the `k`-th call meets the hash order `ords k`.  `env p` are the variables of program
`p`, `none` if it has ended.  Who sees what, in order. -/
def runShared {ι : Type} [DecidableEq ι] : List (ι × Instr) → (Nat → HashOrder) → (ι → Option Env) → Baseline → List (ι × Seen)
  | [], _, _, _ => []
  | (p, i) :: is, ords, env, b =>
    match env p with
    | none => runShared is (fun k => ords (k + 1)) env b
    | some e =>
      let (s, e', b') := i.step (ords 0) e b
      (p, s) :: runShared is (fun k => ords (k + 1)) (fun q => if q = p then (if s.isPanic then none else some e') else env q) b'

/-- The items of one program. -/
def ofProg {ι α : Type} [DecidableEq ι] (p : ι) (l : List (ι × α)) : List α := l.filterMap fun x => if x.1 = p then some x.2 else none

end Verif.Spec
