import Verif.Model.Channel
import Verif.Model.Contract
import Verif.Model.Time
import Verif.Model.Serializer
/-!
# The two build profiles

Cargo.toml:19-22 defines the release profile and leaves `overflow-checks` at its default: a debug build panics when an integer
operation overflows, a release build wraps.  Here are the functions of the code base that do unchecked integer arithmetic on
unbounded inputs, once for each profile: `IntTweenable::ease`, `nth` of the field iterators, `Serializer::serialize`, and
`Ticks * TimeScale` (which never overflows).  `usize` has 64 bits.  The other modules model the debug profile;
`Verif.Props.C92_debug_is_the_model` proves that they agree with this one.

Not here: `self.pos += 1`, `len() - 1` after a push and `len() - self.pos`, which cannot overflow (positions and lengths of
vectors are below 2^63); the float arithmetic, which does not panic; `Ticks` addition and subtraction, which saturate.
-/
namespace Verif

/-- The build profile. (Cargo.toml:19-22) -/
inductive Profile where
  | debug | release
deriving DecidableEq, Repr

/-- `usize` on a 64-bit target. (client/rust/src/contract/properties/mod.rs:38-40) -/
def IntTy.usize : IntTy := ⟨0, 18446744073709551615⟩
/-- `u16`. (client/serialize/rust/src/serializer/mod.rs:56) -/
def IntTy.u16 : IntTy := ⟨0, 65535⟩
/-- `i64`. (client/rust/src/time/mod.rs:57-58) -/
def IntTy.i64 : IntTy := ⟨-9223372036854775808, 9223372036854775807⟩

/-- Two's complement wrapping into the type. (release arithmetic, e.g. client/rust/src/contract/properties/channels/misc.rs:28) -/
def IntTy.wrap (T : IntTy) (x : Int) : Int := T.lo + (x - T.lo) % (T.hi - T.lo + 1)

/-- The result of an integer operation whose exact value is `x`. (e.g. client/rust/src/contract/properties/channels/misc.rs:28) -/
def Profile.arith (p : Profile) (T : IntTy) (x : Int) (msg : String) : Outcome Int :=
  if T.Has x then .ok x
  else match p with
    | .debug => .panic msg
    | .release => .ok (T.wrap x)

/-- `IntTweenable::ease` (client/rust/src/contract/properties/channels/misc.rs:27-32) in a profile. -/
def intEaseP (p : Profile) (R : F32Round) (T : IntTy) (start target : ℤ) (time : ℚ) : Outcome ℤ :=
  (p.arith T (target - start) "attempt to subtract with overflow").bind fun d =>
    let scaled := asU32 (R.rnd (R.rnd time * R.rnd (d : ℚ)))
    if ¬ T.Has scaled then .panic "called `Option::unwrap()` on a `None` value"
    else p.arith T (start + scaled) "attempt to add with overflow"

/-- `nth` (client/rust/src/contract/properties/mod.rs:38-52) in a profile. -/
def PropIter.nthP (p : Profile) (it : PropIter) (n : Nat) : NthOut × PropIter :=
  match p.arith .usize ((it.pos : Int) + n) "attempt to add with overflow" with
  | .ok newPos =>
    if newPos ≥ it.types.length then (.val none, { it with pos := it.types.length })
    else
      match it.types[it.pos]? with
      | none => (.panic, it)
      | some t =>
        let it' := { it with pos := it.pos + 1 }
        (.val (some (DynId.new it.contract it'.pos t)), it')
  | .err _ => (.panic, it)
  | .panic _ => (.panic, it)

/-- `Mul<TimeScale> for Ticks` (client/rust/src/time/mod.rs:53-62) in a profile: the product is taken in i64. -/
def Ticks.mulP (p : Profile) (a : Ticks) (s : TimeScale) : Outcome Ticks :=
  (p.arith .i64 (a.toInt * s.toInt) "attempt to multiply with overflow").map fun v =>
    ((BitVec.ofInt 64 v).sshiftRight 10).truncate 32

/-- `Serializer::serialize` (client/serialize/rust/src/serializer/mod.rs:47-152) in a profile. -/
def Ser.serializeP (p : Profile) (s : Ser) (C : ContractTy) (h : Idx) (ord : HashOrder) : Ser × Outcome Unit :=
  match s.base.contractData h with
  | .err m => (s, .err m)
  | .panic m => (s, .panic m)
  | .ok cd =>
    match Ser.contractTable C with
    | .err m => (s, .err m)
    | .panic m => (s, .panic m)
    | .ok tbl =>
      let s1 := { s with contracts := s.contracts ++ [tbl],
                         hContracts := s.hContracts.insert h s.contracts.length }
      -- `self.contracts.len() as u16 - 1` (client/serialize/rust/src/serializer/mod.rs:56)
      match p.arith .u16 (((s1.contracts.length % 65536 : Nat) : Int) - 1) "attempt to subtract with overflow" with
      | .ok k => s1.pushObjects C h (BitVec.ofInt 16 k) (ord.order cd.objects)
      | .err m => (s1, .err m)
      | .panic m => (s1, .panic m)

/-- One serializer, several contracts (the usage shown in client/serialize/rust/tests/round_trip.rs), in a profile. -/
def Ser.serializeAllP (p : Profile) (s : Ser) : List (ContractTy × Idx × HashOrder) → Ser × Outcome Unit
  | [] => (s, .ok ())
  | (C, h, ord) :: rest =>
    match s.serializeP p C h ord with
    | (s1, .ok ()) => serializeAllP p s1 rest
    | (s1, .err m) => (s1, .err m)
    | (s1, .panic m) => (s1, .panic m)

end Verif
