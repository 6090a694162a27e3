import Verif.Model.Schemes
import Verif.FlReal
import Verif.Props.Palettes

/-! Vocabulary for the scheme properties. -/

namespace Mcu.SchemeSpec

/-- `x` is the angle in [0, 360) that `h` turned by `off` degrees reaches. -/
def Turned (x h off : ℝ) : Prop := 0 ≤ x ∧ x < 360 ∧ ∃ k : ℤ, x = h + off + 360 * k

/-- The palette's hue is `h` turned by `off` degrees, its chroma is `chroma`, and whatever has been read
from it before, the colour of an integer tone is the colour of that hue, chroma and tone. -/
def HasColors (p : TonalPalette ℝ) (h off chroma : ℝ) : Prop :=
  Turned p.hue h off ∧ p.chroma = chroma ∧
  ∀ (ops : List Props.PaletteOp) (t : Int),
    ((Props.afterReads p ops).get t).1 = (Hct.fromHct p.hue chroma (Fl.ofInt t)).toInt

/-- The five palettes of a scheme turn the hue `h` by the given degrees and have the given chroma. -/
structure Documented (s : DynamicScheme ℝ) (h : ℝ) (pOff pChroma sOff sChroma tOff tChroma nOff nChroma nvOff
    nvChroma : ℝ) : Prop where
  primary : HasColors s.primaryPalette h pOff pChroma
  secondary : HasColors s.secondaryPalette h sOff sChroma
  tertiary : HasColors s.tertiaryPalette h tOff tChroma
  neutral : HasColors s.neutralPalette h nOff nChroma
  neutralVariant : HasColors s.neutralVariantPalette h nvOff nvChroma

/-- The scheme records what it was built from and has the fixed error palette. -/
structure Records (s : DynamicScheme ℝ) (argb : Int) (v : Variant) (dark : Bool) (contrast : ℝ) : Prop where
  source : s.sourceColorArgb = argb
  hct : s.sourceColorHct = Hct.fromInt argb
  variant : s.variant = v
  isDark : s.isDark = dark
  level : s.contrastLevel = contrast
  error : HasColors s.errorPalette 25 0 84

/-- Rotations documented for the vibrant variant: between two hues, the rotation of the secondary and of the
tertiary hue. -/
def vibrantTable : List (ℝ × ℝ × ℝ × ℝ) :=
  [(0, 41, 18, 35), (41, 61, 15, 30), (61, 101, 10, 20), (101, 131, 12, 25), (131, 181, 15, 30),
   (181, 251, 18, 35), (251, 301, 15, 30), (301, 360, 12, 25)]

/-- The same for the expressive variant. -/
def expressiveTable : List (ℝ × ℝ × ℝ × ℝ) :=
  [(0, 21, 45, 120), (21, 51, 95, 120), (51, 121, 45, 20), (121, 151, 20, 45), (151, 191, 45, 20),
   (191, 271, 90, 15), (271, 321, 45, 20), (321, 360, 45, 120)]

end Mcu.SchemeSpec
