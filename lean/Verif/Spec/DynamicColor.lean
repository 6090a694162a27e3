import Verif.Model.DynamicColor
import Verif.FlReal

/-! What it means for the tones of two dynamic colours to keep the distance declared by a tone delta pair. -/

namespace Mcu.Spec

/-- Colour A has tone `a` and colour B has tone `b`.  "Nearer" and "farther" are meant from the surface, which
is dark in a dark scheme and light in a light scheme. -/
def Apart (polarity : TonePolarity) (dark : Bool) (delta a b : ℝ) : Prop :=
  match polarity, dark with
  | .darker, _ => a + delta ≤ b
  | .lighter, _ => b + delta ≤ a
  | .nearer, true => a + delta ≤ b
  | .nearer, false => b + delta ≤ a
  | .farther, true => b + delta ≤ a
  | .farther, false => a + delta ≤ b

/-- The tones that no text can be drawn on well. -/
def Awkward (t : ℝ) : Prop := 50 ≤ t ∧ t < 60

/-- In the scheme, two dynamic colours declare the same tone delta pair, of themselves; they are drawn on the same
background and have different names. -/
structure Paired {ι F : Type} (env : ι → DynamicColor ι F) (s : DynamicScheme F) (p : ToneDeltaPair ι F) : Prop where
  declaredA : ((env p.roleA).toneDeltaPair.map fun f => f s) = some p
  declaredB : ((env p.roleB).toneDeltaPair.map fun f => f s) = some p
  background : ((env p.roleA).background.map fun f => f s) = ((env p.roleB).background.map fun f => f s)
  names : (env p.roleA).name ≠ (env p.roleB).name

end Mcu.Spec
