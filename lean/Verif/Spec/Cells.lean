import Mathlib.Algebra.BigOperators.Group.Finset.Basic
import Mathlib.Order.Interval.Finset.Basic
import Mathlib.Data.Int.Interval

/-! Specification vocabulary for the Wu quantizer: sums over boxes of histogram cells. -/

namespace Mcu.Spec

open Finset

/-- The sum of `h` over the cells of the box `(r0, r1] × (g0, g1] × (b0, b1]`. -/
def cellSum {α : Type} [AddCommMonoid α] (h : ℤ → ℤ → ℤ → α) (r0 r1 g0 g1 b0 b1 : ℤ) : α :=
  ∑ r ∈ Ioc r0 r1, ∑ g ∈ Ioc g0 g1, ∑ b ∈ Ioc b0 b1, h r g b

end Mcu.Spec
