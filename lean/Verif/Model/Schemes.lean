import Verif.Model.DynamicScheme
import Verif.Model.Dislike
import Verif.Model.TemperatureCache

/-! Model of /repo/src/scheme/scheme_*.rs.  Each Rust struct only wraps the `DynamicScheme` it builds;
the model builds the `DynamicScheme`.  `none` is a panic. -/

namespace Mcu.Schemes

open MathUtils

variable {F : Type} [Fl F]

/-- scheme_content.rs 22-47; `analogous` and `last().unwrap()` may panic. -/
def content (sourceColorHct : Hct F) (isDark : Bool) (contrastLevel : F) :
    Option (DynamicScheme F) := do
  let binding ← (TemperatureCache.analogous (some 3) (some 6)).run' (TemperatureCache.new sourceColorHct)
  let temp ← binding.getLast?
  some (DynamicScheme.new sourceColorHct.toInt .content (some contrastLevel) isDark
    (TonalPalette.of sourceColorHct.getHue sourceColorHct.getChroma)
    (TonalPalette.of sourceColorHct.getHue
      (Fl.fmax (sourceColorHct.getChroma - 32.0) (sourceColorHct.getChroma * 0.5)))
    (TonalPalette.fromHct (Dislike.fixIfDisliked temp))
    (TonalPalette.of sourceColorHct.getHue (sourceColorHct.getChroma / 8.0))
    (TonalPalette.of sourceColorHct.getHue (sourceColorHct.getChroma / 8.0 + 4.0)))

/-- scheme_fidelity.rs 21-42; `get_complement` may panic. -/
def fidelity (sourceColorHct : Hct F) (isDark : Bool) (contrastLevel : F) :
    Option (DynamicScheme F) := do
  let hueOfSourceColor := sourceColorHct.getHue
  let chromaOfSourceColor := sourceColorHct.getChroma
  let complement ← TemperatureCache.getComplement.run' (TemperatureCache.new sourceColorHct)
  some (DynamicScheme.new sourceColorHct.toInt .fidelity (some contrastLevel) isDark
    (TonalPalette.of hueOfSourceColor chromaOfSourceColor)
    (TonalPalette.of hueOfSourceColor (Fl.fmax (chromaOfSourceColor - 32.0) (chromaOfSourceColor * 0.5)))
    (TonalPalette.fromHct (Dislike.fixIfDisliked complement))
    (TonalPalette.of hueOfSourceColor (chromaOfSourceColor / 8.0))
    (TonalPalette.of hueOfSourceColor (chromaOfSourceColor / 8.0 + 4.0)))

/-- scheme_expressive.rs 15 -/
def expressiveHues : List F := [0.0, 21.0, 51.0, 121.0, 151.0, 191.0, 271.0, 321.0, 360.0]
/-- scheme_expressive.rs 19 -/
def expressiveSecondaryRotations : List F := [45.0, 95.0, 45.0, 20.0, 45.0, 90.0, 45.0, 45.0, 45.0]
/-- scheme_expressive.rs 23 -/
def expressiveTertiaryRotations : List F := [120.0, 120.0, 20.0, 45.0, 20.0, 15.0, 20.0, 120.0, 120.0]

/-- scheme_expressive.rs 25-56 -/
def expressive (sourceColorHct : Hct F) (isDark : Bool) (contrastLevel : F) :
    Option (DynamicScheme F) := do
  let secondary ←
    DynamicScheme.getRotatedHue sourceColorHct expressiveHues expressiveSecondaryRotations
  let tertiary ←
    DynamicScheme.getRotatedHue sourceColorHct expressiveHues expressiveTertiaryRotations
  some (DynamicScheme.new sourceColorHct.toInt .expressive (some contrastLevel) isDark
    (TonalPalette.of (sanitizeDegreesDouble (sourceColorHct.getHue + 240.0)) 40.0)
    (TonalPalette.of secondary 24.0)
    (TonalPalette.of tertiary 32.0)
    (TonalPalette.of (sourceColorHct.getHue + 15.0) 8.0)
    (TonalPalette.of (sourceColorHct.getHue + 15.0) 12.0))

/-- scheme_fruit_salad.rs 13-33 -/
def fruitSalad (sourceColorHct : Hct F) (isDark : Bool) (contrastLevel : F) : DynamicScheme F :=
  DynamicScheme.new sourceColorHct.toInt .fruitSalad (some contrastLevel) isDark
    (TonalPalette.of (sanitizeDegreesDouble (sourceColorHct.getHue - 50.0)) 48.0)
    (TonalPalette.of (sanitizeDegreesDouble (sourceColorHct.getHue - 50.0)) 36.0)
    (TonalPalette.of sourceColorHct.getHue 36.0)
    (TonalPalette.of sourceColorHct.getHue 10.0)
    (TonalPalette.of sourceColorHct.getHue 16.0)

/-- scheme_monochrome.rs 12-26 -/
def monochrome (sourceColorHct : Hct F) (isDark : Bool) (contrastLevel : F) : DynamicScheme F :=
  DynamicScheme.new sourceColorHct.toInt .monochrome (some contrastLevel) isDark
    (TonalPalette.of sourceColorHct.getHue 0.0)
    (TonalPalette.of sourceColorHct.getHue 0.0)
    (TonalPalette.of sourceColorHct.getHue 0.0)
    (TonalPalette.of sourceColorHct.getHue 0.0)
    (TonalPalette.of sourceColorHct.getHue 0.0)

/-- scheme_neutral.rs 12-26 -/
def neutral (sourceColorHct : Hct F) (isDark : Bool) (contrastLevel : F) : DynamicScheme F :=
  DynamicScheme.new sourceColorHct.toInt .neutral (some contrastLevel) isDark
    (TonalPalette.of sourceColorHct.getHue 12.0)
    (TonalPalette.of sourceColorHct.getHue 8.0)
    (TonalPalette.of sourceColorHct.getHue 16.0)
    (TonalPalette.of sourceColorHct.getHue 2.0)
    (TonalPalette.of sourceColorHct.getHue 2.0)

/-- scheme_rainbow.rs 13-30 -/
def rainbow (sourceColorHct : Hct F) (isDark : Bool) (contrastLevel : F) : DynamicScheme F :=
  DynamicScheme.new sourceColorHct.toInt .rainbow (some contrastLevel) isDark
    (TonalPalette.of sourceColorHct.getHue 48.0)
    (TonalPalette.of sourceColorHct.getHue 16.0)
    (TonalPalette.of (sanitizeDegreesDouble (sourceColorHct.getHue + 60.0)) 24.0)
    (TonalPalette.of sourceColorHct.getHue 0.0)
    (TonalPalette.of sourceColorHct.getHue 0.0)

/-- scheme_tonal_spot.rs 15-32 -/
def tonalSpot (sourceColorHct : Hct F) (isDark : Bool) (contrastLevel : F) : DynamicScheme F :=
  DynamicScheme.new sourceColorHct.toInt .tonalSpot (some contrastLevel) isDark
    (TonalPalette.of sourceColorHct.getHue 36.0)
    (TonalPalette.of sourceColorHct.getHue 16.0)
    (TonalPalette.of (sanitizeDegreesDouble (sourceColorHct.getHue + 60.0)) 24.0)
    (TonalPalette.of sourceColorHct.getHue 6.0)
    (TonalPalette.of sourceColorHct.getHue 8.0)

/-- scheme_vibrant.rs 15 -/
def vibrantHues : List F := [0.0, 41.0, 61.0, 101.0, 131.0, 181.0, 251.0, 301.0, 360.0]
/-- scheme_vibrant.rs 19 -/
def vibrantSecondaryRotations : List F := [18.0, 15.0, 10.0, 12.0, 15.0, 18.0, 15.0, 12.0, 12.0]
/-- scheme_vibrant.rs 23 -/
def vibrantTertiaryRotations : List F := [35.0, 30.0, 20.0, 25.0, 30.0, 35.0, 30.0, 25.0, 25.0]

/-- scheme_vibrant.rs 25-53 -/
def vibrant (sourceColorHct : Hct F) (isDark : Bool) (contrastLevel : F) :
    Option (DynamicScheme F) := do
  let secondary ← DynamicScheme.getRotatedHue sourceColorHct vibrantHues vibrantSecondaryRotations
  let tertiary ← DynamicScheme.getRotatedHue sourceColorHct vibrantHues vibrantTertiaryRotations
  some (DynamicScheme.new sourceColorHct.toInt .vibrant (some contrastLevel) isDark
    (TonalPalette.of sourceColorHct.getHue 200.0)
    (TonalPalette.of secondary 24.0)
    (TonalPalette.of tertiary 32.0)
    (TonalPalette.of sourceColorHct.getHue 10.0)
    (TonalPalette.of sourceColorHct.getHue 12.0))

end Mcu.Schemes
