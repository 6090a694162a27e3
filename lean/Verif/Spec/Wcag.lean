import Mathlib.Analysis.SpecialFunctions.Pow.Real

/-! Contrast as defined by the Web Content Accessibility Guidelines (WCAG 2.1), written down without reference to the code. -/

namespace Mcu.Spec

/-- The linear light of an sRGB channel from 0 to 255, in 0..1. -/
noncomputable def linearLight (channel : Int) : ℝ :=
  let v := (channel : ℝ) / 255
  if v ≤ 0.04045 then v / 12.92 else ((v + 0.055) / 1.055) ^ (2.4 : ℝ)

/-- The relative luminance of a colour 0xAARRGGBB. -/
noncomputable def relativeLuminance (argb : Int) : ℝ :=
  0.2126 * linearLight (argb / 2 ^ 16 % 256) + 0.7152 * linearLight (argb / 2 ^ 8 % 256) +
    0.0722 * linearLight (argb % 256)

/-- The contrast ratio of two colours. -/
noncomputable def wcagContrast (a b : Int) : ℝ :=
  (max (relativeLuminance a) (relativeLuminance b) + 0.05) / (min (relativeLuminance a) (relativeLuminance b) + 0.05)

end Mcu.Spec
