import Verif.Model.TemperatureCache
import Verif.FlReal
import Mathlib.Analysis.SpecialFunctions.Complex.Arg

/-! Vocabulary for the temperature properties: the queries one can put to a temperature cache, and what
the documentation says the temperature of a colour is. -/

namespace Mcu.TemperatureSpec

open TemperatureCache

/-- The queries a user can put to a temperature cache. -/
inductive Query (F : Type) where
  | warmest
  | coldest
  | complement
  | analogous (count divisions : Option Int)
  | relativeTemperature (hct : Hct F)
  | inputRelativeTemperature
  | hctsByTemp
  | tempsByHct
  | hctsByHue

/-- What a query answers. -/
inductive Answer (F : Type) where
  | color (h : Hct F)
  | colors (l : List (Hct F))
  | number (x : F)
  | table (m : List (Int × F))

/-- Putting a query to a cache. -/
def ask {F : Type} [Fl F] : Query F → M F (Answer F)
  | .warmest => .color <$> getWarmest
  | .coldest => .color <$> getColdest
  | .complement => .color <$> getComplement
  | .analogous c d => .colors <$> analogous c d
  | .relativeTemperature h => .number <$> relativeTemperature h
  | .inputRelativeTemperature => .number <$> getInputRelativeTemperature
  | .hctsByTemp => .colors <$> getHctsByTemp
  | .tempsByHct => .table <$> getTempsByHct
  | .hctsByHue => .colors <$> getHctsByHue

/-- The answer of a query put to a newly made cache; `none` is a panic. -/
def onFresh {F : Type} [Fl F] {α : Type} (input : Hct F) (m : M F α) : Option α :=
  (m (new input)).map Prod.fst

/-- The cache after a sequence of queries, if none of them panics. -/
def after {F : Type} [Fl F] : List (Query F) → TemperatureCache F → Option (TemperatureCache F)
  | [], c => some c
  | q :: qs, c => (ask q c).bind fun r => after qs r.2

open ColorUtils

/-- The documented temperature of a colour: with `(L, a, b)` its CIELAB coordinates, chroma
`C = √(a² + b²)` and hue angle `h = arg (a + bi)`, it is `0.02 · C^1.07 · cos (h - 50°) - 0.5`. -/
noncomputable def temperature (argb : Int) : ℝ :=
  let lab : Vec3 ℝ := labFromArgb argb
  2/100 * (Real.sqrt (lab.x1 ^ 2 + lab.x2 ^ 2)) ^ (107/100 : ℝ)
    * Real.cos (Complex.arg ⟨lab.x1, lab.x2⟩ - 50 * Real.pi / 180) - 1/2

/-- The colours the cache compares: the input and the colours with the input's chroma and tone at the
360 whole-degree hues. -/
def Considered (input h : Hct ℝ) : Prop :=
  h = input ∨ ∃ i : Nat, i < 360 ∧ h = Hct.fromHct (i : ℝ) input.getChroma input.getTone

end Mcu.TemperatureSpec
