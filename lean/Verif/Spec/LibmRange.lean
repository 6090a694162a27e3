import Verif.Spec.Libm
import Mathlib.Analysis.SpecialFunctions.Complex.Arg

/-! Further assumptions on the platform's math library, on the range of results only.  Each is used only by theorems that
name it. -/

namespace Mcu

/-- `pow` of a base between 0 and 10⁻⁶ to an exponent between 0.1 and 3 is finite and between 0 and 1 (the exact result is at
most 0.26). -/
def Libm.PowDark (L : Libm) : Prop := ∀ x y : Dbl, x.Fin → y.Fin → 0 ≤ x.val → x.val ≤ 1 / 10 ^ 6 → 0.1 ≤ y.val →
  y.val ≤ 3 → (L.powf x y).Fin ∧ 0 ≤ (L.powf x y).val ∧ (L.powf x y).val ≤ 1

/-- `atan2` of finite numbers is finite and between -3.1416 and 3.1416. -/
def Libm.AtanRange (L : Libm) : Prop := ∀ y x : Dbl, y.Fin → x.Fin → (L.atan2 y x).Fin ∧ |(L.atan2 y x).val| ≤ 3.1416

/-- All assumptions on the math library together. -/
structure Libm.Sound (L : Libm) : Prop where
  pow : L.PowOk
  tail : L.PowTail
  dark : L.PowDark
  trig : L.TrigOk
  exp : L.ExpOk
  atan : L.AtanRange

/-- Accuracy of the functions used for temperatures: `atan2` of finite numbers that are not both 0 is, up to whole turns, within
10⁻¹² of the angle; `pow` of a base between 0 and 10⁻⁶ to an exponent between 1 and 1.1 is not negative and at most 10⁻⁵ (the
exact result is at most 10⁻⁶). -/
structure Libm.TempOk (L : Libm) : Prop where
  atan : ∀ y x : Dbl, y.Fin → x.Fin → ¬ (x.val = 0 ∧ y.val = 0) →
    ∃ k : ℤ, |(L.atan2 y x).val - (Complex.arg ⟨x.val, y.val⟩ + k * (2 * Real.pi))| ≤ 1 / 10 ^ 12
  faint : ∀ x y : Dbl, x.Fin → y.Fin → 0 ≤ x.val → x.val ≤ 1 / 10 ^ 6 → 1 ≤ y.val → y.val ≤ 1.1 →
    0 ≤ (L.powf x y).val ∧ (L.powf x y).val ≤ 1 / 10 ^ 5

end Mcu
