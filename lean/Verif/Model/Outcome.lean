/-!
# Outcomes of modelled Rust calls

`Result<T>` is `ok`/`err`; a Rust panic (`expect`, `unwrap`, `assert!`, `todo!`, `unreachable!`)
is the explicit third outcome.  Error values are message tags, because the code only produces
`eyre!` strings and no caller inspects them.
-/
namespace Verif

/-- Outcome of a Rust call that may return `Err` or panic.  (No single source location: models
`eyre::Result` plus unwinding, as used by every function in client/rust/src/baseline.rs.) -/
inductive Outcome (α : Type) where
  | ok (a : α)
  | err (msg : String)
  | panic (msg : String)
deriving DecidableEq, Repr

namespace Outcome

/-- The call returned normally with a value. (client/rust/src/baseline.rs:66-260, the `Result`s) -/
def isOk {α} : Outcome α → Bool
  | ok _ => true
  | _ => false

/-- The call returned `Err`. (client/rust/src/baseline.rs:66-260, the `Result`s) -/
def isErr {α} : Outcome α → Bool
  | err _ => true
  | _ => false

/-- The call panicked. (for example client/rust/src/baseline.rs:89-91, an `expect`) -/
def isPanic {α} : Outcome α → Bool
  | panic _ => true
  | _ => false

/-- Rust's `?` / sequencing: stop at the first error or panic. (for example client/rust/src/baseline.rs:193-227) -/
def bind {α β} (x : Outcome α) (f : α → Outcome β) : Outcome β :=
  match x with
  | ok a => f a
  | err m => err m
  | panic m => panic m

/-- Apply a function to the success value. (for example client/rust/src/baseline.rs:229-235) -/
def map {α β} (f : α → β) (x : Outcome α) : Outcome β :=
  x.bind fun a => ok (f a)

end Outcome
end Verif
