import Verif.Spec.BorrowRules
import Verif.Model.Gc
/-!
# The rule for programs that leave their wrappers to the garbage collector
-/
namespace Verif.Ffi

/-- The calls of a program. -/
def calls : List Instr → List Call
  | [] => []
  | .call c :: p => c :: calls p
  | .keepAlive _ :: p => calls p

/-- The native function only borrows this parameter. -/
def Param.borrows : Param → Bool
  | .box _ => false
  | _ => true

/-- Whenever a call borrows from an object, the wrapper that owns the object is used again after the call. -/
def KeepsAlive : List B → List Instr → Prop
  | _, [] => True
  | bs, .keepAlive _ :: p => KeepsAlive bs p
  | bs, .call (.dispose i) :: p => KeepsAlive (bs.modify i fun b => { b with full := false }) p
  | bs, .call (.method a args) :: p =>
      (∀ x ∈ a.method.sig.params.zip args, x.1.borrows = true → mentioned p (rootOf bs x.2)) ∧
      KeepsAlive (after bs a.method.sig args) p

/-- No schedule of the collector makes any call or finalizer misuse native memory. -/
def GcSafe (p : List Instr) : Prop := ∀ rs : List Res, GcRun World.empty p rs → ∀ f : Fault, Res.fault f ∉ rs

end Verif.Ffi
