import Verif.FlReal

/-! The luminance of a linear RGB colour, and the cube of displayable ones. -/

namespace Mcu.Spec

/-- Y of a linear sRGB colour, both in 0..100. -/
noncomputable def luminance (v : Vec3 ℝ) : ℝ := 0.2126 * v.x0 + 0.7152 * v.x1 + 0.0722 * v.x2

/-- All three components in 0..100, up to `ε`. -/
def InCube (ε : ℝ) (v : Vec3 ℝ) : Prop :=
  (-ε ≤ v.x0 ∧ v.x0 ≤ 100 + ε) ∧ (-ε ≤ v.x1 ∧ v.x1 ≤ 100 + ε) ∧ (-ε ≤ v.x2 ∧ v.x2 ≤ 100 + ε)

end Mcu.Spec
