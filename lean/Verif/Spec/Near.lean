import Verif.Model.ColorUtils
import Mathlib.Algebra.Order.Ring.Int
import Mathlib.Algebra.Order.Group.Unbundled.Abs

/-! Specification: colours that are nearly the same. -/

namespace Mcu.Spec

open Mcu.ColorUtils

/-- The red, green and blue channels of the two colours differ by one at most. -/
def ChannelsNear (c d : Int) : Prop :=
  |redFromArgb c - redFromArgb d| ≤ 1 ∧ |greenFromArgb c - greenFromArgb d| ≤ 1 ∧ |blueFromArgb c - blueFromArgb d| ≤ 1

end Mcu.Spec
