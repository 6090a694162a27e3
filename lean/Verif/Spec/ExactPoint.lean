import Verif.Lemmas.F64
import Verif.Spec.KMeans

/-! Specification: the exact values of a point given in binary64, and the cost of representing an image by such points. -/

namespace Mcu.Spec

open Mcu.Ieee QuantizerWsmeans

/-- The exact values of the coordinates. -/
noncomputable def exactPoint {L : Libm} (v : Vec3 (F64 L)) : Vec3 ℝ := ⟨Dbl.val v.x0, Dbl.val v.x1, Dbl.val v.x2⟩

/-- All three coordinates are finite. -/
def FinitePoint {L : Libm} (v : Vec3 (F64 L)) : Prop := Dbl.Fin v.x0 ∧ Dbl.Fin v.x1 ∧ Dbl.Fin v.x2

/-- The exact cost of representing every pixel of an image, at its L*a*b* coordinates in binary64, by a point in binary64: the sum of
the squared distances. -/
noncomputable def imageCost64 {L : Libm} (pixels : List Int) (centreOf : Int → Vec3 (F64 L)) : ℝ :=
  (pixels.map fun p => sqDist (exactPoint (ColorUtils.labFromArgb p : Vec3 (F64 L))) (exactPoint (centreOf p))).sum

end Mcu.Spec
