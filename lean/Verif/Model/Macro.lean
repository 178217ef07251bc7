import Verif.Model.Outcome
import Verif.Model.Contract
/-!
# The attribute macros `#[states]` and `#[channels]`

Models client/contract_macro/src/lib.rs:29-170 (`template_impl!`; both macros are instances of it).  Tokens are
modelled by what they denote: a type is the property type it names, an identifier is a string, and the generated impl
blocks are the values their functions return.  Spans, visibility, attributes and the checks rustc does on the generated
code (distinct field names, types implementing the property trait) are not modelled.
-/
namespace Verif

/-- `syn::Fields` (client/contract_macro/src/lib.rs:57-65). -/
inductive MFields where
  | named (fs : List (String × PropType))
  | unnamed (ts : List PropType)
  | unit
deriving DecidableEq, Repr

/-- `syn::Data` (client/contract_macro/src/lib.rs:37-52). -/
inductive MData where
  | struct_ (fs : MFields)
  | enum_
  | union_
deriving DecidableEq, Repr

/-- What the macro generates (client/contract_macro/src/lib.rs:94-168). -/
structure Expansion where
  /-- the rewritten struct: field names with the inner type of their `StateId<_>` (client/contract_macro/src/lib.rs:87-91, 163) -/
  fields : List (String × PropType)
  /-- getters: method name, field it reads, inner type of the returned id (client/contract_macro/src/lib.rs:94-100) -/
  getters : List (String × String × PropType)
  /-- initializers in `new`: field name and literal index (client/contract_macro/src/lib.rs:103-105) -/
  inits : List (String × Nat)
  /-- `type_ids()` (client/contract_macro/src/lib.rs:108-112); the type stands for its `TypeId` -/
  typeIds : List PropType
  /-- `enumerate_types()` (client/contract_macro/src/lib.rs:115-119) -/
  propTypes : List PropType
  /-- `field_names()` (client/contract_macro/src/lib.rs:122-126) -/
  names : List String
deriving DecidableEq, Repr

/-- The reserved identifiers (client/contract_macro/src/lib.rs:33-35). -/
def reservedNames : List String := ["type_ids", "enumerate_types", "field_names"]

/-- The loop over the fields (client/contract_macro/src/lib.rs:77-126), from field number `i` on, extending what was generated so far. -/
def expandFields (i : Nat) (acc : Expansion) : List (String × PropType) → Outcome Expansion
  | [] => .ok acc
  | (name, ty) :: rest =>
    if reservedNames.contains name then .err "this field identifier is reserved"
    else
      expandFields (i + 1)
        ⟨acc.fields ++ [(name, ty)], acc.getters ++ [(name, name, ty)], acc.inits ++ [(name, i)],
          acc.typeIds ++ [ty], acc.propTypes ++ [ty], acc.names ++ [name]⟩ rest

/-- The macro (client/contract_macro/src/lib.rs:31-167). -/
def expandProps : MData → Outcome Expansion
  | .enum_ => .err "Only structs are supported"
  | .union_ => .err "Only structs are supported"
  | .struct_ .unit => .err "Only named structs are supported"
  | .struct_ (.unnamed _) => .err "Only named structs are supported"
  | .struct_ (.named fs) => expandFields 0 ⟨[], [], [], [], [], []⟩ fs

namespace Expansion

/-- The generated `new(id)` (client/contract_macro/src/lib.rs:131-137): every field of the struct gets the id its initializer builds, at the type
the field declares.  `none`: a field without initializer (rustc would reject it). -/
def construct (e : Expansion) (h : Idx) : List (String × Option DynId) :=
  e.fields.map fun f => (f.1, (e.inits.find? fun p => p.1 = f.1).map fun p => ⟨f.2, ⟨p.2, h⟩⟩)

/-- Calling the generated getter `name` on the result of `new(id)` (client/contract_macro/src/lib.rs:94-100). -/
def get (e : Expansion) (h : Idx) (name : String) : Option DynId :=
  match e.getters.find? fun g => g.1 = name with
  | none => none
  | some g => ((e.construct h).find? fun f => f.1 = g.2.1).bind Prod.snd

end Expansion
end Verif
