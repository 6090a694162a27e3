import Verif.Spec.LibmRange
import Mathlib.Analysis.SpecialFunctions.Log.Basic

/-! Further assumptions on the platform's math library.  Used only by theorems that name them. -/

namespace Mcu

/-- `pow` of 0 to a positive exponent is 0 (Annex F of the C standard); `ln` of numbers from 1 to 10⁶ has a relative error of at
most 10⁻¹³. -/
structure Libm.CamOk (L : Libm) : Prop where
  zero : ∀ x y : Dbl, x.Fin → y.Fin → x.val = 0 → 0 < y.val → (L.powf x y).Fin ∧ (L.powf x y).val = 0
  ln : ∀ x : Dbl, x.Fin → 1 ≤ x.val → x.val ≤ 10 ^ 6 → (L.ln x).Fin ∧ |(L.ln x).val - Real.log x.val| ≤ 1 / 10 ^ 13 * Real.log x.val

/-- `atan2` of two zeros is a zero or ±π, as the C standard has it (here only: is 0 or not close to 0). -/
def Libm.AtanZero (L : Libm) : Prop := ∀ y x : Dbl, y.Fin → x.Fin → y.val = 0 → x.val = 0 → (L.atan2 y x).val = 0 ∨ 3 ≤ |(L.atan2 y x).val|

/-- `exp` of arguments between 0 and 10 is finite with a relative error of at most 10⁻¹⁴. -/
def Libm.ExpUp (L : Libm) : Prop := ∀ x : Dbl, x.Fin → 0 ≤ x.val → x.val ≤ 10 → (L.exp x).Fin ∧ |(L.exp x).val - Real.exp x.val| ≤ 1 / 10 ^ 14 * Real.exp x.val

/-- `pow` of a base between 10⁻²⁰ and 10⁻⁶ to an exponent between 0.1 and 1 is positive (the exact result is at least 10⁻²⁰). -/
def Libm.PowPos (L : Libm) : Prop := ∀ x y : Dbl, x.Fin → y.Fin → 1 / 10 ^ 20 ≤ x.val → x.val ≤ 1 / 10 ^ 6 → 0.1 ≤ y.val → y.val ≤ 1 → 0 < (L.powf x y).val

/-- `exp` of 0, of negative numbers and of minus infinity is finite and between 0 and 1. -/
def Libm.ExpLow (L : Libm) : Prop := ∀ x : Dbl, (x.Fin ∧ x.val ≤ 0) ∨ x = Dbl.inf true → (L.exp x).Fin ∧ 0 ≤ (L.exp x).val ∧ (L.exp x).val ≤ 1

end Mcu
