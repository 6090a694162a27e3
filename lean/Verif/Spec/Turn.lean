import Mathlib.Analysis.SpecialFunctions.Trigonometric.Basic
import Mathlib.Algebra.Order.Floor.Ring

/-! Turning on the circle, independent of the code. -/

namespace Mcu.Spec

/-- How far one turns upwards from the angle `a` (in radians) before meeting the angle `b`: the number in [0, 2π)
that differs from `b - a` by a multiple of 2π. -/
noncomputable def turn (a b : ℝ) : ℝ := 2 * Real.pi * Int.fract ((b - a) / (2 * Real.pi))

/-- Turning upwards from `a`, the angle `x` is met before `b`; the whole circle if `a` and `b` are the same direction. -/
def OnArc (a x b : ℝ) : Prop := turn a x < turn a b ∨ turn a b = 0

end Mcu.Spec
