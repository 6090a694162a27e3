/-! The literal 64-bit two's complement expressions of /repo/src/utils/color_utils.rs, as independent
reference for the arithmetic definitions in `Verif/Model/ColorUtils.lean`. -/

namespace Mcu.Spec

/-- color_utils.rs 38-40: `255 << 24 | (red & 255) << 16 | (green & 255) << 8 | blue & 255` -/
def packI64 (red green blue : BitVec 64) : BitVec 64 :=
  (255#64 <<< 24) ||| ((red &&& 255#64) <<< 16) ||| ((green &&& 255#64) <<< 8) ||| (blue &&& 255#64)

/-- color_utils.rs 50-67: `argb >> n & 255`; `>>` on `i64` is the arithmetic shift. -/
def channelI64 (argb : BitVec 64) (n : Nat) : BitVec 64 := argb.sshiftRight n &&& 255#64

end Mcu.Spec
