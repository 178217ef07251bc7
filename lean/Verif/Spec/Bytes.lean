import Verif.Spec.SaveRestore
import Verif.Model.SerBytes
import Verif.Model.FbRead
/-!
# Specification of saving to bytes and restoring from bytes

`Cycle` describes a save followed by a restore; here the two halves are apart, with a file in between.
-/
namespace Verif.Spec
open Verif Verif.Fb

/-- Save contracts of `b`: the bytes of the file, with the file identifier `ident`
(client/serialize/rust/tests/round_trip.rs:66-83). -/
def Cycle.saveAs (c : Cycle) (ident : Bytes) (b : Baseline) : Outcome Bytes :=
  match (SerB.new b).serializeAll c.calls with
  | (_, .err m) => .err m
  | (_, .panic m) => .panic m
  | (s, .ok ()) => s.finishWith ident c.ordC c.ordO

/-- Save contracts of `b` (client/serialize/rust/tests/round_trip.rs:66-83). -/
def Cycle.save (c : Cycle) (b : Baseline) : Outcome Bytes :=
  match (SerB.new b).serializeAll c.calls with
  | (_, .err m) => .err m
  | (_, .panic m) => .panic m
  | (s, .ok ()) => s.finish c.ordC c.ordO

/-- Restore the contracts from a file (client/serialize/rust/tests/round_trip.rs:85-106). -/
def Cycle.load (c : Cycle) (bytes : Bytes) : Outcome (List (ContractTy × Idx) × Baseline) :=
  restoreBytes bytes c.kind c.types c.sched c.ord c.hord

/-- A file ends up on disk only in part: any beginning of it. -/
def CutTo (bytes part : Bytes) : Prop := ∃ rest, bytes = part ++ rest

/-- The contracts `parts` are some of the contracts `cs`, with types of the same ids and states (the channels may differ). -/
def SomeOf (parts cs : List (ContractTy × Idx)) : Prop :=
  (parts.map Prod.snd).Nodup ∧ ∀ (T : ContractTy) (h : Idx), (T, h) ∈ parts → ∃ C, (C, h) ∈ cs ∧ T.id = C.id ∧ T.states = C.states

/-- How many bytes of text one state of an object holds: those of its string, if it is one. -/
def stateText (b : Baseline) (o : Idx) (d : DynId) : Nat :=
  match b.bindState d.id o with
  | .ok h =>
    match b.state d.ty h with
    | .ok v =>
      match DynProp.ofTyped d.ty v with
      | .primitive (.string s) => s.utf8ByteSize
      | _ => 0
    | _ => 0
  | _ => 0

/-- How many bytes of text the saved contracts have: their names, the names of their states, and their strings. -/
def textBytes (b : Baseline) (cs : List (ContractTy × Idx)) : Nat :=
  (cs.map fun e => e.1.id.name.utf8ByteSize + (e.1.states.map fun f => f.name.utf8ByteSize).sum +
    ((objectsOf b e.2).map fun o => ((e.1.stateIds e.2).map fun d => stateText b o d).sum).sum).sum

/-- How many states the contracts declare. -/
def fieldCount (cs : List (ContractTy × Idx)) : Nat := (cs.map fun e => e.1.states.length).sum

end Verif.Spec
