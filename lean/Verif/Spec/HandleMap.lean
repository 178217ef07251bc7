import Verif.Model.Arena
/-!
# Specification of an arena: a finite map that hands out fresh keys

This is the whole specification: a partial map from handles to values, plus the set of handles
handed out so far.  It knows nothing about slots, generations or free lists.
-/
namespace Verif.Spec

/-- Abstract arena: what each handle maps to, and every handle issued so far. -/
structure HMap (α : Type) where
  find : Idx → Option α
  issued : List Idx

/-- The empty map. -/
def HMap.empty {α} : HMap α := ⟨fun _ => none, []⟩

/-- The map after setting `i` to `r`. -/
def HMap.put {α} (m : HMap α) (i : Idx) (r : Option α) : Idx → Option α :=
  fun j => if j = i then r else m.find j

/-- `Step m op out m'`: the specification allows call `op` on `m` to answer `out` and become `m'`. -/
inductive Step {α : Type} : HMap α → ArenaOp α → ArenaOut α → HMap α → Prop
  /-- an insert answers with a handle that was never issued before, and maps it to the value -/
  | insert (m : HMap α) (v : α) (i : Idx) (fresh : i ∉ m.issued) :
      Step m (.insert v) (.handle i) ⟨m.put i (some v), i :: m.issued⟩
  /-- a remove answers with what the handle mapped to and unmaps it -/
  | remove (m : HMap α) (i : Idx) :
      Step m (.remove i) (.value (m.find i)) ⟨m.put i none, m.issued⟩
  /-- a write through a handle succeeds iff the handle is mapped, and then replaces the value -/
  | overwrite (m : HMap α) (i : Idx) (v old : α) (h : m.find i = some old) :
      Step m (.overwrite i v) (.wrote true) ⟨m.put i (some v), m.issued⟩
  | overwriteDead (m : HMap α) (i : Idx) (v : α) (h : m.find i = none) :
      Step m (.overwrite i v) (.wrote false) m
  /-- reserving capacity is invisible -/
  | reserve (m : HMap α) (n : Nat) : Step m (.reserve n) .unit m

/-- The specification allows the whole sequence of calls to answer `outs` and end in `m'`. -/
inductive Steps {α : Type} : HMap α → List (ArenaOp α) → List (ArenaOut α) → HMap α → Prop
  | nil (m) : Steps m [] [] m
  | cons {m op o m' ops os m''} : Step m op o m' → Steps m' ops os m'' →
      Steps m (op :: ops) (o :: os) m''

end Verif.Spec
