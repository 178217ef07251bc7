/-!
# Colour packing in the Unity demo

Models the expression in demos/unity_states/unity/Assets/Scripts/BallStateDataSourceUnity.cs:122-129, from the four 16-bit
channels on (the scaling of Unity's float colour to 16 bits is not modelled).

C# semantics used: the operands of `<<` are promoted to `int` and only the low five bits of the count are used (C# specification,
shift operators); a conversion of a non-constant `int` to `ulong` in the default unchecked context sign-extends.
-/
namespace Verif

/-- `x << n` on `int` (C# specification: the count is `n & 0x1F`). (demos/unity_states/unity/Assets/Scripts/BallStateDataSourceUnity.cs:129) -/
def csShl (x : BitVec 32) (n : Nat) : BitVec 32 := x <<< (n % 32)

/-- Promotion of `ushort` to `int`. (demos/unity_states/unity/Assets/Scripts/BallStateDataSourceUnity.cs:129) -/
def csInt (x : BitVec 16) : BitVec 32 := x.zeroExtend 32

/-- `(ulong)x` for an `int`, unchecked. (demos/unity_states/unity/Assets/Scripts/BallStateDataSourceUnity.cs:129) -/
def csUlong (x : BitVec 32) : BitVec 64 := x.signExtend 64

/-- `(ulong)((r << 48) | (g << 32) | (b << 16) | a)` (demos/unity_states/unity/Assets/Scripts/BallStateDataSourceUnity.cs:129). -/
def unityColor (r g b a : BitVec 16) : BitVec 64 :=
  csUlong (csShl (csInt r) 48 ||| csShl (csInt g) 32 ||| csShl (csInt b) 16 ||| csInt a)

end Verif
