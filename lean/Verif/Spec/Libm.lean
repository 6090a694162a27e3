import Verif.F64
import Mathlib.Analysis.SpecialFunctions.Trigonometric.Basic

/-! Assumptions on the platform's math library beyond `Libm.PowOk`.  Each is used only by theorems that name it.  All hold
for a library whose results are within a thousand units in the last place and that follows the special cases of the C
standard (Annex F) for `pow`. -/

namespace Mcu

/-- `pow` of a base between 0 and 2·10⁻⁶ to an exponent between 2.3 and 3 is finite, not negative and at most 10⁻¹³ (the exact
result is at most 8·10⁻¹⁴), and 0 for the base 0.  `pow` of NaN to an exponent that is not 0 is NaN, `pow` of infinity to a
positive exponent is infinity. -/
structure Libm.PowTail (L : Libm) : Prop where
  small : ∀ x y : Dbl, x.Fin → y.Fin → 0 ≤ x.val → x.val ≤ 2 / 10 ^ 6 → 2.3 ≤ y.val → y.val ≤ 3 →
    (L.powf x y).Fin ∧ 0 ≤ (L.powf x y).val ∧ (L.powf x y).val ≤ 1 / 10 ^ 13 ∧ (x.val = 0 → (L.powf x y).val = 0)
  nan : ∀ y : Dbl, y.Fin → y.val ≠ 0 → L.powf Dbl.nan y = Dbl.nan
  inf : ∀ y : Dbl, y.Fin → 0 < y.val → L.powf (Dbl.inf false) y = Dbl.inf false

/-- `sin` and `cos` of angles between 0 and 10 are finite with an error of at most 10⁻¹². -/
def Libm.TrigOk (L : Libm) : Prop := ∀ x : Dbl, x.Fin → 0 ≤ x.val → x.val ≤ 10 →
  (L.cos x).Fin ∧ |(L.cos x).val - Real.cos x.val| ≤ 1 / 10 ^ 12 ∧ (L.sin x).Fin ∧ |(L.sin x).val - Real.sin x.val| ≤ 1 / 10 ^ 12

/-- `exp` of arguments between -10 and 0 is finite with an error of at most 10⁻¹². -/
def Libm.ExpOk (L : Libm) : Prop := ∀ x : Dbl, x.Fin → -10 ≤ x.val → x.val ≤ 0 →
  (L.exp x).Fin ∧ |(L.exp x).val - Real.exp x.val| ≤ 1 / 10 ^ 12

end Mcu
