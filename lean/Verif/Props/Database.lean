import Verif.Proofs.Database
import Verif.Props.Baseline
/-!
# C77: a baseline is a database of maps

`Spec/Database.lean` describes the public calls as reads and updates of plain maps.  Every history of a
baseline is a run of that database with the same answers, and every reader answers from it.
-/
namespace Verif.Props
open Verif Verif.Spec

/-- **C77.** For every sequence of calls on a fresh baseline, with whatever results they had, the
database specification, started empty, can give exactly the same results in the same order, and in the
state it reaches every reader of the baseline - contract data, objects, states, channels, iteration and
both bindings - answers what the database holds. -/
theorem C77_refines_database {kind : Kind} {evs : List Event} {b : Baseline} (hist : History kind evs b) :
    ∃ db, DB.Run DB.empty evs db ∧ Answers b db := by
  obtain ⟨db, h1, h2⟩ := trace_sim (new_binv kind) (new_sim kind) hist
  exact ⟨db, h1, h2.answers⟩

/-- The refinement also holds from any point on: whatever happened before, the rest of the history is
a run of the database from a state that answers for the baseline at that point. -/
theorem C77_refines_from_any_point {kind : Kind} {evs evs' : List Event} {b b' : Baseline}
    (hist : History kind evs b) (rest : Trace b evs' b') :
    ∃ db db', DB.Run DB.empty evs db ∧ Answers b db ∧ DB.Run db evs' db' ∧ Answers b' db' := by
  obtain ⟨db, h1, h2⟩ := trace_sim (new_binv kind) (new_sim kind) hist
  obtain ⟨db', h3, h4⟩ := trace_sim (history_binv hist) h2 rest
  exact ⟨db, db', h1, h2.answers, h3, h4.answers⟩

/-- The result of a call up to the handle and the message. -/
def outKind : BOut → Nat
  | .ok (some _) => 0
  | .ok none => 1
  | .err _ => 2
  | .panic _ => 3

/-- The specification leaves open only the choice of fresh handles, the texts of messages and, after a
panic, which object went: whether a call succeeds, fails or panics is determined. -/
theorem C77_database_decides {db db1 db2 : DB} {op : BOp} {o1 o2 : BOut}
    (h1 : DB.Step db op o1 db1) (h2 : DB.Step db op o2 db2) : outKind o1 = outKind o2 := by
  cases h1 <;> cases h2 <;> first
    | rfl
    | contradiction
    | simp_all

/-- A history that exercises every kind of call, with errors and a panic. -/
def dbOps : List BOp :=
  demoBOps ++ [.writeState (.prim .u16) ⟨1, 0⟩ 9#16, .setWarp h0 TimeWarp.default, .remove demoC h1,
    .register emptyC, .unregister demoC h0 .id, .remove demoC h1, .unregister emptyC h1 .id,
    .create emptyC h1 [] []]

example : ((Baseline.new .main).runOps dbOps).1.map (fun e => outKind e.2) =
    [0, 0, 0, 0, 0, 1, 1, 2, 2, 3, 2, 1, 2] := by decide +kernel

example : ∃ db, DB.Run DB.empty ((Baseline.new .main).runOps dbOps).1 db ∧
    Answers ((Baseline.new .main).runOps dbOps).2 db := C77_refines_database (runOps_trace _ _)

end Verif.Props
