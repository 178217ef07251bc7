/-!
# The `#[substitute(value)]` attribute macro

Models crates/rsharp/rust/macro/src/substitute.rs:7-71 over parsed items.  The traversal is that of
`syn::visit_mut` (version 1): the default visitor visits the attributes and the children of a node; the tokens inside a
macro invocation are opaque to it; macros in the place of an item, a statement in braces, a type or a pattern are not
expressions and are never looked at.
-/
namespace Verif

/-- Syntax as the visitor sees it.  The token stream of an attribute is its text (`TokenStream::to_string`). (crates/rsharp/rust/macro/src/substitute.rs:40-74) -/
inductive Syn where
  /-- A macro invocation in the place of an expression (`syn::ExprMacro`): attributes, last segment of the path, and the
  rest of it (other path segments, delimiter and tokens), which the visitor does not look into. -/
  | mac (attrs : List (List Char)) (name : List Char) (body : List Char)
  /-- Any other node (items, other expressions, statements, patterns, types, macros that are not expressions): what the
  visitor does not change (`tag`), attributes, children in order. -/
  | node (tag : Nat) (attrs : List (List Char)) (kids : List Syn)

/-- `substitute`, as a macro name (crates/rsharp/rust/macro/src/substitute.rs:22). -/
def substituteName : List Char := "substitute".toList

/-- `str::split(pattern)` (crates/rsharp/rust/macro/src/substitute.rs:44) for a non-empty pattern: the pieces between successive non-overlapping
occurrences, found from the left.  `skip` characters are still to be passed over. -/
def splitOnPat (pat : List Char) : Nat → List Char → List (List Char)
  | 0, [] => [[]]
  | _ + 1, [] => [[]]
  | skip + 1, _ :: s => splitOnPat pat skip s
  | 0, c :: s =>
    if pat.isPrefixOf (c :: s) then [] :: splitOnPat pat (pat.length - 1) s
    else match splitOnPat pat 0 s with
      | [] => [[c]]
      | piece :: pieces => (c :: piece) :: pieces

/-- `[&str]::join` (crates/rsharp/rust/macro/src/substitute.rs:46). -/
def joinWith (sep : List Char) : List (List Char) → List Char
  | [] => []
  | [s] => s
  | s :: t :: r => s ++ sep ++ joinWith sep (t :: r)

/-- The two spellings searched for (crates/rsharp/rust/macro/src/substitute.rs:56). -/
def tightPat : List Char := "substitute! ()".toList
/-- See `tightPat`. (crates/rsharp/rust/macro/src/substitute.rs:32, 37) -/
def loosePat : List Char := "substitute ! ()".toList

/-- `try_pattern` (crates/rsharp/rust/macro/src/substitute.rs:43-54) up to parsing: the new text, or `none` when the pattern does not occur. -/
def tryPattern (value s pat : List Char) : Option (List Char) :=
  if (splitOnPat pat 0 s).length > 1 then some (joinWith value (splitOnPat pat 0 s)) else none

/-- `visit_attribute_mut` (crates/rsharp/rust/macro/src/substitute.rs:40-59) on the text of one attribute; `value` is the text of the substituted
tokens.  `relex` is `TokenStream::from_str` followed by printing; `none` is its failure, on which the macro panics
(crates/rsharp/rust/macro/src/substitute.rs:47-48).  Result `none`: panic. -/
def substAttr (relex : List Char → Option (List Char)) (value s : List Char) : Option (List Char) :=
  match tryPattern value s tightPat with
  | some t => relex t
  | none =>
    match tryPattern value s loosePat with
    | some t => relex t
    | none => some s

/-- How an expansion ends. (crates/rsharp/rust/macro/src/substitute.rs:62-74) -/
inductive Rewrite (α : Type) where
  | done (a : α)
  /-- The expansion panics (a compile error). -/
  | panic
  /-- Not finished within the given recursion depth. -/
  | deeper
  deriving DecidableEq

/-- All attributes of a node in order. (`visit_attribute_mut`, crates/rsharp/rust/macro/src/substitute.rs:40-59, for each) -/
def substAttrs (relex : List Char → Option (List Char)) (value : List Char) :
    List (List Char) → Option (List (List Char))
  | [] => some []
  | a :: as =>
    match substAttr relex value a with
    | none => none
    | some a' => (substAttrs relex value as).map (a' :: ·)

mutual

/-- `visit_expr_mut` (crates/rsharp/rust/macro/src/substitute.rs:17-38) for macro expressions, the default visitor for every other node; `n` bounds
the recursion depth of the real code, which has no bound (`deeper` for every `n` is a stack overflow).  `v` is the parsed
value, `value` its text. -/
def visitSyn (relex : List Char → Option (List Char)) (v : Syn) (value : List Char) : Nat → Syn → Rewrite Syn
  | 0, _ => .deeper
  | n + 1, .mac attrs name body =>
    if name = substituteName then
      if attrs.isEmpty then visitInside relex v value n v
      else .done (.mac attrs name body)
    else visitInside relex v value n (.mac attrs name body)
  | n + 1, .node tag attrs kids => visitInside relex v value n (.node tag attrs kids)

/-- `syn::visit_mut::visit_expr_mut(self, node)` and its siblings for other kinds of nodes: the parts of a node, not the
node itself. (called at crates/rsharp/rust/macro/src/substitute.rs:32, 37 and 72) -/
def visitInside (relex : List Char → Option (List Char)) (v : Syn) (value : List Char) : Nat → Syn → Rewrite Syn
  | 0, _ => .deeper
  | _ + 1, .mac attrs name body =>
    match substAttrs relex value attrs with
    | none => .panic
    | some attrs => .done (.mac attrs name body)
  | n + 1, .node tag attrs kids =>
    match substAttrs relex value attrs with
    | none => .panic
    | some attrs =>
      match visitKids relex v value n kids with
      | .done kids => .done (.node tag attrs kids)
      | .panic => .panic
      | .deeper => .deeper

/-- The children of a node, in order. (the default visitor called at crates/rsharp/rust/macro/src/substitute.rs:32, 37 and 72) -/
def visitKids (relex : List Char → Option (List Char)) (v : Syn) (value : List Char) : Nat → List Syn →
    Rewrite (List Syn)
  | 0, _ => .deeper
  | _ + 1, [] => .done []
  | n + 1, k :: ks =>
    match visitSyn relex v value n k with
    | .panic => .panic
    | .deeper => .deeper
    | .done k =>
      match visitKids relex v value n ks with
      | .done ks => .done (k :: ks)
      | .panic => .panic
      | .deeper => .deeper

end

/-- `substitute(attr, item)` (crates/rsharp/rust/macro/src/substitute.rs:62-74) for a non-empty attribute that parses as an expression; the item is
visited from the inside. -/
def expandSubstitute (relex : List Char → Option (List Char)) (v : Syn) (value : List Char) (n : Nat) (item : Syn) :
    Rewrite Syn :=
  visitInside relex v value n item

end Verif
