import Verif.Model.Outcome
/-!
# Strings crossing the native boundary

Models crates/rsharp/rust/src/string.rs:20-50 (`String__value`, `String__copy_utf8`, `String__copy_utf16`) and
crates/rsharp/cs/src/RString.cs:8-41 (constructor from a managed string and `Value`).

A managed (C#) string is the list of its UTF-16 code units, a native string the list of its bytes; units and bytes are
numbers.  `std::string::String::from_utf8`/`from_utf16` and .NET's `UTF8Encoding` are modelled by their documented
algorithms (the table of well-formed byte sequences; surrogate pairs; replacement of lone surrogates by U+FFFD).
Allocation and freeing of the box are in `Model/Wrapper`.
-/
namespace Verif

/-- The second byte allowed after a three-byte lead (std `from_utf8`, called at crates/rsharp/rust/src/string.rs:35; Unicode table 3-7). -/
def okSecond3 (b0 b1 : Nat) : Bool :=
  if b0 = 0xE0 then 0xA0 ≤ b1 && b1 ≤ 0xBF
  else if b0 = 0xED then 0x80 ≤ b1 && b1 ≤ 0x9F
  else 0x80 ≤ b1 && b1 ≤ 0xBF

/-- The second byte allowed after a four-byte lead (std `from_utf8`, called at crates/rsharp/rust/src/string.rs:35; Unicode table 3-7). -/
def okSecond4 (b0 b1 : Nat) : Bool :=
  if b0 = 0xF0 then 0x90 ≤ b1 && b1 ≤ 0xBF
  else if b0 = 0xF4 then 0x80 ≤ b1 && b1 ≤ 0x8F
  else 0x80 ≤ b1 && b1 ≤ 0xBF

/-- A continuation byte. (part of `from_utf8`, called at crates/rsharp/rust/src/string.rs:34) -/
def okCont (b : Nat) : Bool := 0x80 ≤ b && b ≤ 0xBF

/-- `std::string::String::from_utf8` (crates/rsharp/rust/src/string.rs:35), giving the scalar values; `none` is the error. -/
def decodeUtf8 : List Nat → Option (List Nat)
  | [] => some []
  | b0 :: r0 =>
    if b0 < 0x80 then (decodeUtf8 r0).map (b0 :: ·)
    else match r0 with
      | [] => none
      | b1 :: r1 =>
        if 0xC2 ≤ b0 ∧ b0 ≤ 0xDF then
          if okCont b1 then (decodeUtf8 r1).map (((b0 - 0xC0) * 64 + (b1 - 0x80)) :: ·) else none
        else match r1 with
          | [] => none
          | b2 :: r2 =>
            if 0xE0 ≤ b0 ∧ b0 ≤ 0xEF then
              if okSecond3 b0 b1 && okCont b2 then
                (decodeUtf8 r2).map (((b0 - 0xE0) * 4096 + (b1 - 0x80) * 64 + (b2 - 0x80)) :: ·)
              else none
            else match r2 with
              | [] => none
              | b3 :: r3 =>
                if 0xF0 ≤ b0 ∧ b0 ≤ 0xF4 then
                  if okSecond4 b0 b1 && okCont b2 && okCont b3 then
                    (decodeUtf8 r3).map
                      (((b0 - 0xF0) * 262144 + (b1 - 0x80) * 4096 + (b2 - 0x80) * 64 + (b3 - 0x80)) :: ·)
                  else none
                else none

/-- Is a high (leading) surrogate. (part of `from_utf16`, called at crates/rsharp/rust/src/string.rs:45) -/
def isHigh (u : Nat) : Bool := 0xD800 ≤ u && u ≤ 0xDBFF
/-- Is a low (trailing) surrogate. (part of `from_utf16`, called at crates/rsharp/rust/src/string.rs:45) -/
def isLow (u : Nat) : Bool := 0xDC00 ≤ u && u ≤ 0xDFFF

/-- The scalar value of a surrogate pair (std `char::decode_utf16`). (crates/rsharp/rust/src/string.rs:42-50) -/
def pairValue (u v : Nat) : Nat := 0x10000 + (u - 0xD800) * 1024 + (v - 0xDC00)

/-- Splitting UTF-16 units into scalar values; `none` stands for a unit that is a lone surrogate
(std `char::decode_utf16`, used by `from_utf16`; .NET `Encoder`). (crates/rsharp/rust/src/string.rs:42-50) -/
def splitUtf16 : List Nat → List (Option Nat)
  | [] => []
  | u :: r =>
    if isHigh u then
      match r with
      | [] => [none]
      | v :: r' =>
        if isLow v then some (pairValue u v) :: splitUtf16 r'
        else none :: splitUtf16 (v :: r')
    else if isLow u then none :: splitUtf16 r
    else some u :: splitUtf16 r

/-- All values, or nothing if one is missing. (part of `from_utf16`, called at crates/rsharp/rust/src/string.rs:45) -/
def allSome : List (Option Nat) → Option (List Nat)
  | [] => some []
  | none :: _ => none
  | some c :: r => (allSome r).map (c :: ·)

/-- `std::string::String::from_utf16` (crates/rsharp/rust/src/string.rs:46), giving the scalar values; `none` is the error. -/
def decodeUtf16 (us : List Nat) : Option (List Nat) := allSome (splitUtf16 us)

/-- UTF-8 bytes of one scalar value (std `char::encode_utf8`, .NET `UTF8Encoding`). (crates/rsharp/rust/src/string.rs:31-39) -/
def utf8Bytes (c : Nat) : List Nat :=
  if c < 0x80 then [c]
  else if c < 0x800 then [0xC0 + c / 64, 0x80 + c % 64]
  else if c < 0x10000 then [0xE0 + c / 4096, 0x80 + c / 64 % 64, 0x80 + c % 64]
  else [0xF0 + c / 262144, 0x80 + c / 4096 % 64, 0x80 + c / 64 % 64, 0x80 + c % 64]

/-- UTF-16 units of one scalar value. (crates/rsharp/rust/src/string.rs:42-50) -/
def utf16Units (c : Nat) : List Nat :=
  if c < 0x10000 then [c] else [0xD800 + (c - 0x10000) / 1024, 0xDC00 + (c - 0x10000) % 1024]

/-- `UTF8Encoding.GetBytes` (crates/rsharp/cs/src/RString.cs:15-16) with the default replacement fallback. -/
def getBytes (s : List Nat) : List Nat := (splitUtf16 s).flatMap fun c => utf8Bytes (c.getD 0xFFFD)

/-- `UTF8Encoding.GetString` (crates/rsharp/cs/src/RString.cs:36-40) on well-formed bytes; `none` if the bytes are not well-formed (where .NET
substitutes U+FFFD; this never happens to the bytes of a native string). -/
def getString (bytes : List Nat) : Option (List Nat) := (decodeUtf8 bytes).map fun cs => cs.flatMap utf16Units

/-- `rsharp::string::String` (crates/rsharp/rust/src/string.rs:13-15), by its bytes. -/
structure NativeString where
  bytes : List Nat
deriving DecidableEq, Repr

/-- `String__copy_utf8` (crates/rsharp/rust/src/string.rs:31-39). -/
def copyUtf8 (bytes : List Nat) : Outcome NativeString :=
  match decodeUtf8 bytes with
  | none => .panic "Invalid utf8!"
  | some _ => .ok ⟨bytes⟩

/-- `String__copy_utf16` (crates/rsharp/rust/src/string.rs:42-50): the decoded characters, stored as UTF-8. -/
def copyUtf16 (units : List Nat) : Outcome NativeString :=
  match decodeUtf16 units with
  | none => .panic "Invalid utf16"
  | some cs => .ok ⟨cs.flatMap utf8Bytes⟩

/-- `String__value` (crates/rsharp/rust/src/string.rs:20-22). -/
def stringValue (s : NativeString) : List Nat := s.bytes

/-- `new RString(managedString)` (crates/rsharp/cs/src/RString.cs:11-26): `&bytes[0]` throws on an empty array. -/
def rstringNew (s : List Nat) : Outcome NativeString :=
  let bytes := getBytes s
  if bytes.isEmpty then .err "IndexOutOfRangeException" else copyUtf8 bytes

/-- `RString.Value` (crates/rsharp/cs/src/RString.cs:28-41). -/
def rstringValue (s : NativeString) : Option (List Nat) := getString (stringValue s)

end Verif
