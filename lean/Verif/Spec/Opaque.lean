/-! What an opaque 32-bit colour is. -/

namespace Mcu.Spec

/-- Alpha 255, eight bits each of red, green and blue, nothing above: `0xFF000000..0xFFFFFFFF`. -/
def Opaque32 (argb : Int) : Prop := 0xFF000000 ≤ argb ∧ argb ≤ 0xFFFFFFFF

end Mcu.Spec
