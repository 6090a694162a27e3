import Verif.Model.MathUtils

/-! Model of /repo/src/dynamiccolor/src/contrast_curve.rs. -/

namespace Mcu

/-- contrast_curve.rs 9-14 -/
structure ContrastCurve (F : Type) where
  low : F
  normal : F
  medium : F
  high : F

namespace ContrastCurve

open MathUtils

variable {F : Type} [Fl F]

/-- contrast_curve.rs 36-48 -/
def get (self : ContrastCurve F) (contrastLevel : F) : F :=
  if contrastLevel ≤ -1.0 then self.low
  else if contrastLevel < 0.0 then lerp self.low self.normal ((contrastLevel - (-1.0)) / 1.0)
  else if contrastLevel < 0.5 then lerp self.normal self.medium ((contrastLevel - 0.0) / 0.5)
  else if contrastLevel < 1.0 then lerp self.medium self.high ((contrastLevel - 0.5) / 0.5)
  else self.high

end ContrastCurve
end Mcu
