/-!
# Name mangling

Models crates/rsharp/rust/macro/src/remangle.rs:6-28.  Strings are lists of characters; `ws` says which characters
`str::trim` removes (Unicode `White_Space`), everything here works for any such predicate.
-/
namespace Verif

/-- `m.split("::")` (crates/rsharp/rust/macro/src/remangle.rs:8): the pieces between successive, non-overlapping occurrences from the left. -/
def splitColons : List Char → List (List Char)
  | [] => [[]]
  | ':' :: ':' :: rest => [] :: splitColons rest
  | c :: rest =>
    match splitColons rest with
    | [] => [[c]]
    | piece :: pieces => (c :: piece) :: pieces

/-- `str::trim` (crates/rsharp/rust/macro/src/remangle.rs:12). -/
def trimWs (ws : Char → Bool) (s : List Char) : List Char :=
  (((s.dropWhile ws).reverse).dropWhile ws).reverse

/-- The loop of `mangle_path` (crates/rsharp/rust/macro/src/remangle.rs:8-14), appending to `result`. -/
def manglePieces (ws : Char → Bool) (result : List Char) : List (List Char) → List Char
  | [] => result
  | piece :: pieces =>
    if piece.isEmpty then manglePieces ws result pieces
    else manglePieces ws (result ++ trimWs ws piece ++ ['_', '_']) pieces

/-- `mangle_path` (crates/rsharp/rust/macro/src/remangle.rs:6-16). -/
def manglePath (ws : Char → Bool) (m : List Char) : List Char := manglePieces ws [] (splitColons m)

/-- The mangled identifier (crates/rsharp/rust/macro/src/remangle.rs:22-25): the mangled path followed by the identifier. -/
def mangleIdent (ws : Char → Bool) (path ident : List Char) : List Char := manglePath ws path ++ ident

end Verif
