import Verif.Props.Genuine
import Verif.Proofs.FbAccess
/-!
# C134: reading a file never looks outside of it
-/
namespace Verif.Props
open Verif Verif.Spec Verif.Fb

/-- **C134.** Take any bytes at all, below 2 GiB.  Either opening them is an error, or every unchecked read that the accessors can make on them,
directly or through any chain of offsets in them, is inside of them and every string in them is UTF-8; and then what the accessors find is what is restored. -/
theorem C134_reads_inside (bytes : Bytes) (hl : bytes.length < 2 ^ 31) :
    (∀ d : Cycle, d.load bytes = .err "Error while verifying flatbuffer") ∨
    ∃ buf, Access.everything bytes = some buf ∧ ∀ d : Cycle, d.load bytes = restore buf d.kind d.types d.sched d.ord d.hord := by
  cases h : root bytes with
  | none => exact Or.inl fun d => restoreBytes_none h ..
  | some buf => exact Or.inr ⟨buf, Access.everything_safe hl h, fun d => restoreBytes_some h ..⟩

/-- **C134.** In particular whenever something is restored. -/
theorem C134_restored_reads_inside {bytes : Bytes} (hl : bytes.length < 2 ^ 31) {d : Cycle} {x : List (ContractTy × Idx) × Baseline}
    (h : d.load bytes = .ok x) : (Access.everything bytes).isSome = true := by
  rcases C134_reads_inside bytes hl with h1 | ⟨buf, h1, _⟩
  · rw [h1 d] at h; cases h
  · rw [h1]; rfl

/-! The second case happens: on the file of the tag the accessors find the tables.  The check is needed: on the first half of that file, on a file whose root offset is
too large, and on a string that is no UTF-8 the accessors would go wrong; opening these is an error. -/

example : (Access.everything tagFile).isSome = true ∧ ((asking [tagC]).load tagFile).isOk = true := by decide +kernel
example : Access.everything (tagFile.take 40) = none ∧ Access.everything (tagFile.set 1 200) = none := by decide +kernel
example : root (tagFile.take 40) = none ∧ root (tagFile.set 1 200) = none := by decide +kernel
/-- The first letter of the last text of the file. -/
example : Access.everything (tagFile.set (tagFile.length - 5) 255) = none ∧ root (tagFile.set (tagFile.length - 5) 255) = none := by decide +kernel

end Verif.Props
