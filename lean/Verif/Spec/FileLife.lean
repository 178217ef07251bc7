import Verif.Spec.Transparent
import Verif.Spec.Bytes
/-!
# Specification of a life with restarts from files
-/
namespace Verif.Spec
open Verif Verif.Fb

/-- What the program `is`, with variables `env` and baseline `b`, sees in a life in which, any number of times, it is stopped, its baseline is saved to
a file, of which any beginning reaches the disk, and it goes on with what is read from there, provided reading is no error.  Writer (`c`) and reader (`d`)
make their choices independently. -/
inductive FileLife : Env → Baseline → List Instr → List Seen → Prop
  | last (env : Env) (b : Baseline) (is : List Instr) (ords : Nat → HashOrder) : FileLife env b is (runProg is ords env b).1
  | restart (env : Env) (b : Baseline) (is : List Instr) (ords : Nat → HashOrder) (ss : List Seen) (env1 : Env) (b1 : Baseline)
      (kind : Kind) (evs : List Event) (cs : List (ContractTy × Idx)) (c d : Cycle) (bytes file : Bytes) (cs' : List (ContractTy × Idx)) (b1' : Baseline)
      (φ ψ : Idx → Idx) (env1' : Env) (is' : List Instr) (ss' : List Seen) :
      runProg is ords env b = (ss, some (env1, b1)) → Savable kind evs b1 cs → Whole b1 cs → c.Fits cs →
      c.save b1 = .ok bytes → bytes.length < 2 ^ 31 → CutTo bytes file → d.types.Perm (cs.map Prod.fst) → d.kind = b1.kind →
      d.load file = .ok (cs', b1') → SameContents b1 cs b1' cs' φ ψ → List.Forall₂ (StandsFor b1 cs b1' φ ψ) env1 env1' →
      FileLife env1' b1' is' ss' → FileLife env b (is ++ is') (ss ++ ss')

end Verif.Spec
