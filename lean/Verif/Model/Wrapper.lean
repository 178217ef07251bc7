/-!
# The C# wrappers around native objects

Models crates/rsharp/cs/src/RSharp.cs:35-89 (`SharedWrapper`) and 91-145 (`OpaqueWrapper`); the two classes have the
same code, `P` stands for the wrapped value (`T` or `Ptr<T>`).  A world is the list of all wrappers ever constructed.
Calls are atomic: the classes do no locking and the model covers sequential use (a finalizer runs only when nothing
else refers to the wrapper).
-/
namespace Verif

/-- `OwnershipSemantics` (crates/rsharp/cs/src/RSharp.cs:17-22). -/
inductive Ownership where
  | owned | sharedRef | mutRef
deriving DecidableEq, Repr

/-- The fields of a wrapper (crates/rsharp/cs/src/RSharp.cs:93-95). -/
structure Wrapper (P : Type) where
  inner : Option P
  own : Ownership
deriving DecidableEq, Repr

/-- What can be called on a wrapper. (crates/rsharp/cs/src/RSharp.cs:91-145) -/
inductive WCall (P : Type) where
  | dispose
  | finalize
  | steal
  | setInner (v : Option P)
deriving DecidableEq, Repr

/-- What a call does, seen from outside. (crates/rsharp/cs/src/RSharp.cs:91-145) -/
inductive WRes (P : Type) where
  /-- `NativeDrop` was called with this pointer -/
  | dropped (p : P)
  /-- nothing happened to a native object -/
  | nothing
  /-- the pointer was returned -/
  | returned (p : P)
  /-- `InvalidOperationException` from `Nullable.Value` -/
  | exception
deriving DecidableEq, Repr

namespace Wrapper
variable {P : Type}

/-- The constructor (crates/rsharp/cs/src/RSharp.cs:111-115). -/
def new (inner : P) (own : Ownership) : Wrapper P := ⟨some inner, own⟩

/-- `Dispose` (crates/rsharp/cs/src/RSharp.cs:117-124). -/
def dispose (w : Wrapper P) : Wrapper P × WRes P :=
  let r : WRes P := match w.own, w.inner with
    | .owned, some p => .dropped p
    | _, _ => .nothing
  ({ w with inner := none }, r)

/-- `StealInner` (crates/rsharp/cs/src/RSharp.cs:136-141). -/
def stealInner (w : Wrapper P) : Wrapper P × WRes P :=
  match w.inner with
  | none => (w, .exception)
  | some p => ({ w with inner := none }, .returned p)

/-- A call on a wrapper; the finalizer calls `Dispose` (crates/rsharp/cs/src/RSharp.cs:126-129), `Inner` has a public setter
(crates/rsharp/cs/src/RSharp.cs:103-107). -/
def call (w : Wrapper P) : WCall P → Wrapper P × WRes P
  | .dispose => w.dispose
  | .finalize => w.dispose
  | .steal => w.stealInner
  | .setInner v => ({ w with inner := v }, .nothing)

end Wrapper

/-- Something that happens in a program using wrappers: a construction, giving wrapper number `i`, or a call. (crates/rsharp/cs/src/RSharp.cs:91-145) -/
inductive WEvent (P : Type) where
  | construct (p : P) (own : Ownership) (i : Nat)
  | call (i : Nat) (c : WCall P) (r : WRes P)
deriving DecidableEq, Repr

/-- The wrappers after a sequence of events with their results. (crates/rsharp/cs/src/RSharp.cs:91-145) -/
inductive WHist {P : Type} : List (WEvent P) → List (Wrapper P) → Prop
  | nil : WHist [] []
  | construct (evs : List (WEvent P)) (ws : List (Wrapper P)) (p : P) (own : Ownership) :
      WHist evs ws → WHist (evs ++ [.construct p own ws.length]) (ws ++ [Wrapper.new p own])
  | call (evs : List (WEvent P)) (ws : List (Wrapper P)) (i : Nat) (w : Wrapper P) (c : WCall P) :
      WHist evs ws → ws[i]? = some w → WHist (evs ++ [.call i c (w.call c).2]) (ws.set i (w.call c).1)

end Verif
