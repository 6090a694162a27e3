import Verif.Model.QuantizerWsmeans
import Verif.FlReal

/-! Specification: squared distances, cost of a clustering, mean of colours in L*a*b*. -/

namespace Mcu.Spec

open Mcu.ColorUtils

/-- The squared distance of two points. -/
noncomputable def sqDist (a b : Vec3 ℝ) : ℝ := (a.x0 - b.x0) ^ 2 + (a.x1 - b.x1) ^ 2 + (a.x2 - b.x2) ^ 2

/-- The cost of a clustering: every colour of the image, given by its point and the number of its pixels, contributes for
each pixel the squared distance to the centre of the cluster it is in. -/
noncomputable def clusterCost (centres : List (Vec3 ℝ)) (points : List (Vec3 ℝ)) (counts : List Int) (clusterOf : List Nat) : ℝ :=
  (((points.zip counts).zip clusterOf).map fun ((p, n), i) => (n : ℝ) * sqDist p (centres.getD i ⟨0, 0, 0⟩)).sum

/-- The cost of representing every pixel of an image by a point of L*a*b*: the sum of the squared distances. -/
noncomputable def imageCost (pixels : List Int) (centreOf : Int → Vec3 ℝ) : ℝ :=
  (pixels.map fun p => sqDist (labFromArgb p) (centreOf p)).sum

/-- The mean in L*a*b* of a list of colours. -/
noncomputable def meanLab (colors : List Int) : Vec3 ℝ :=
  ⟨(colors.map fun c => (labFromArgb c : Vec3 ℝ).x0).sum / colors.length,
    (colors.map fun c => (labFromArgb c : Vec3 ℝ).x1).sum / colors.length,
    (colors.map fun c => (labFromArgb c : Vec3 ℝ).x2).sum / colors.length⟩

/-- The opaque 8-bit colour of that mean. -/
noncomputable def labMeanColor (colors : List Int) : Int :=
  argbFromLab (meanLab colors).x0 (meanLab colors).x1 (meanLab colors).x2

end Mcu.Spec
