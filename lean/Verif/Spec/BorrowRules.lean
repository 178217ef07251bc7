import Verif.Model.FfiHeap
/-!
# The rules a C# program has to follow

A checker for programs against the C# API in the manner of the Rust borrow checker.  It looks only at the wrappers (class,
ownership, whether emptied, what they borrow from) and at the signatures of the native functions; it knows nothing of
pointers, allocations or what the methods pass.
-/
namespace Verif.Ffi

/-- What the checker knows of a wrapper: class, ownership, not yet disposed or given away, the wrapper whose object it
points into (itself for an owner), how often the contents of that object had moved when it was borrowed, and, for an
owner, how often the contents of its object have moved by now. -/
structure B where
  cls : NTy
  own : Ownership
  full : Bool
  root : Nat
  stamp : Nat
  moved : Nat
deriving DecidableEq, Repr

/-- A wrapper can be used: it has not been emptied, and a borrowed wrapper only as long as the owner has not been emptied
and its contents have not moved. -/
def usable (bs : List B) (i : Nat) : Prop :=
  ∃ b r, bs[i]? = some b ∧ bs[b.root]? = some r ∧ b.full = true ∧ r.full = true ∧ (b.own = .owned ∨ b.stamp = r.moved)

/-- The wrapper fits the parameter: only owners are given away, no shared borrow is written through. -/
def fits (b : B) : Param → Prop
  | .ref t => b.cls = t
  | .refMut t _ => b.cls = t ∧ b.own ≠ .sharedRef
  | .box t => b.cls = t ∧ b.own = .owned

/-- The object behind a wrapper. -/
def rootOf (bs : List B) (i : Nat) : Nat := (bs[i]?.map B.root).getD i

/-- What passing wrapper number `x.2` for parameter `x.1` does. -/
def passed (bs : List B) (x : Param × Nat) : List B :=
  match x.1 with
  | .ref _ => bs
  | .refMut _ moves => if moves then bs.modify (rootOf bs x.2) fun b => { b with moved := b.moved + 1 } else bs
  | .box _ => bs.modify x.2 fun b => { b with full := false }

/-- What the result of a native function adds. -/
def returned (bs : List B) (args : List Nat) : Ret → List B
  | .nothing => bs
  | .box t => bs ++ [⟨t, .owned, true, bs.length, 0, 0⟩]
  | .borrow i t w => match args[i]? with
    | none => bs
    | some a => bs ++ [⟨t, if w then .mutRef else .sharedRef, true, rootOf bs a,
        (bs[rootOf bs a]?.map B.moved).getD 0, 0⟩]

/-- The rules for a call of a method whose wrapper arguments go, in order, to the parameters of a native function with
signature `s`: every argument usable and fitting; an argument given away or borrowed for writing shares its object with
no other. -/
def allowed (bs : List B) (s : Sig) (args : List Nat) : Prop :=
  args.length = s.params.length ∧
  (∀ x ∈ s.params.zip args, usable bs x.2 ∧ ∃ b, bs[x.2]? = some b ∧ fits b x.1) ∧
  (s.params.zip args).Pairwise fun x y => (x.1.exclusive || y.1.exclusive) = true → rootOf bs x.2 ≠ rootOf bs y.2

/-- What the checker knows after the call. -/
def after (bs : List B) (s : Sig) (args : List Nat) : List B :=
  returned ((s.params.zip args).foldl passed bs) args s.ret

/-- The methods that misuse the native function they call. -/
def Api.broken : Api → Bool
  | .rvecSet | .exObjectCreate | .exObjectRemove | .ballObjectCreate | .ballObjectRemove => true
  | _ => false

/-- Programs that follow the rules. -/
inductive Disciplined : List B → List Call → List B → Prop
  | nil (bs : List B) : Disciplined bs [] bs
  | method (bs : List B) (a : Api) (args : List Nat) (cs : List Call) (bs' : List B) :
      a.broken = false → allowed bs a.method.sig args →
      Disciplined (after bs a.method.sig args) cs bs' → Disciplined bs (.method a args :: cs) bs'
  | dispose (bs : List B) (i : Nat) (cs : List Call) (bs' : List B) :
      i < bs.length →
      Disciplined (bs.modify i fun b => { b with full := false }) cs bs' → Disciplined bs (.dispose i :: cs) bs'

end Verif.Ffi
