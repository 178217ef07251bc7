/-!
# Time: ticks, scales and warps

Models client/rust/src/time/mod.rs.  `i32` is `BitVec 32` read as a signed number.
The float accessors are in `Model/TimeFloat`.
-/
namespace Verif

/-- `i32::MIN`, `i32::MAX`. (client/rust/src/time/mod.rs:37-62) -/
def i32Min : Int := -2147483648
/-- See `i32Min`. (client/rust/src/time/mod.rs:37-62) -/
def i32Max : Int := 2147483647

/-- Saturation to the `i32` range. (client/rust/src/time/mod.rs:37-62) -/
def clamp32 (x : Int) : Int := if x < i32Min then i32Min else if i32Max < x then i32Max else x

/-- `Ticks` (client/rust/src/time/mod.rs:5-7): an `i32`. -/
abbrev Ticks := BitVec 32
/-- `TimeScale` (client/rust/src/time/mod.rs:82-85): an `i32` numerator over 1024. -/
abbrev TimeScale := BitVec 32

namespace Ticks

/-- `Ticks::ticks_per_second` (client/rust/src/time/mod.rs:10-12). -/
def ticksPerSecond : Int := 1000

/-- `Ticks::new` (client/rust/src/time/mod.rs:14-16). -/
def new (millis : BitVec 32) : Ticks := millis

/-- `Ticks::as_millis` (client/rust/src/time/mod.rs:18-20), read as an integer. -/
def asMillis (t : Ticks) : Int := t.toInt

/-- `Ticks::as_secs` (client/rust/src/time/mod.rs:28-30): arithmetic shift right by 10. -/
def asSecs (t : Ticks) : BitVec 32 := t.sshiftRight 10

/-- `Add for Ticks` (client/rust/src/time/mod.rs:37-43): `i32::saturating_add`. -/
def add (a b : Ticks) : Ticks := BitVec.ofInt 32 (clamp32 (a.toInt + b.toInt))

/-- `Sub for Ticks` (client/rust/src/time/mod.rs:45-51): `i32::saturating_sub`. -/
def sub (a b : Ticks) : Ticks := BitVec.ofInt 32 (clamp32 (a.toInt - b.toInt))

/-- `Mul<TimeScale> for Ticks` (client/rust/src/time/mod.rs:53-62): widen to i64, multiply, arithmetic shift right by
`denominator_as_log2() = 10`, truncate to i32 (`as i32` keeps the low 32 bits). -/
def mul (a : Ticks) (s : TimeScale) : Ticks :=
  (((a.signExtend 64) * (s.signExtend 64)).sshiftRight 10).truncate 32

end Ticks

namespace TimeScale

/-- `TimeScale::denominator_as_log2` (client/rust/src/time/mod.rs:94-96). -/
def denominatorAsLog2 : Nat := 10

/-- `TimeScale::denominator` (client/rust/src/time/mod.rs:97-99). -/
def denominator : BitVec 16 := 1#16 <<< denominatorAsLog2

/-- `Default for TimeScale` (client/rust/src/time/mod.rs:108-112). -/
def default : TimeScale := denominator.zeroExtend 32

end TimeScale

/-- `ChannelTime` (client/rust/src/time/mod.rs:114-126) and `RealmTime` (127-139) are newtypes of `Ticks`. -/
abbrev ChannelTime := Ticks

/-- `TimeWarp` (client/rust/src/time/mod.rs:143-151). -/
structure TimeWarp where
  offset : Ticks
  scale : TimeScale
deriving DecidableEq, Repr

/-- `Default for TimeWarp` (derived, client/rust/src/time/mod.rs:143): offset 0, scale default. -/
def TimeWarp.default : TimeWarp := ⟨0#32, TimeScale.default⟩

/-- `TimeWarp::apply` (client/rust/src/time/mod.rs:155-158); `ChannelTime::warp` (122-124) calls it. -/
def TimeWarp.apply (w : TimeWarp) (parent : ChannelTime) : ChannelTime :=
  Ticks.mul (Ticks.sub parent w.offset) w.scale

end Verif
