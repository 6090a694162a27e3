import Verif.Spec.LibmCam

/-! A further assumption on the platform's math library, used only by theorems that name it. -/

namespace Mcu

/-- `exp` of a number between 0 and 10 is at least 1. -/
def Libm.ExpGe (L : Libm) : Prop := ∀ x : Dbl, x.Fin → 0 ≤ x.val → x.val ≤ 10 → 1 ≤ (L.exp x).val

end Mcu
