import Verif.Model.TonalPalette

/-! Model of /repo/src/dynamiccolor/dynamic_scheme.rs (without the role getters, see
Model/Material.lean) and variant.rs. -/

namespace Mcu

/-- variant.rs 5-38; `Eq` and `Hash` (lines 40-50) compare the discriminant. -/
inductive Variant
  | monochrome | neutral | tonalSpot | vibrant | expressive | content | fidelity | rainbow | fruitSalad
deriving DecidableEq, Repr

/-- dynamic_scheme.rs 14-56 -/
structure DynamicScheme (F : Type) where
  sourceColorArgb : Int
  sourceColorHct : Hct F
  variant : Variant
  isDark : Bool
  contrastLevel : F
  primaryPalette : TonalPalette F
  secondaryPalette : TonalPalette F
  tertiaryPalette : TonalPalette F
  neutralPalette : TonalPalette F
  neutralVariantPalette : TonalPalette F
  errorPalette : TonalPalette F

namespace DynamicScheme

open MathUtils

variable {F : Type} [Fl F]

/-- dynamic_scheme.rs 57-71 -/
def eq (self other : DynamicScheme F) : Bool :=
  self.sourceColorArgb == other.sourceColorArgb
  && self.sourceColorHct.eq other.sourceColorHct
  && decide (self.variant = other.variant)
  && self.isDark == other.isDark
  && self.contrastLevel == other.contrastLevel
  && self.primaryPalette.eq other.primaryPalette
  && self.secondaryPalette.eq other.secondaryPalette
  && self.tertiaryPalette.eq other.tertiaryPalette
  && self.neutralPalette.eq other.neutralPalette
  && self.neutralVariantPalette.eq other.neutralVariantPalette
  && self.errorPalette.eq other.errorPalette

/-- What one call feeds to a hasher: an integer, a variant, a boolean or the bytes of a double. -/
inductive HashWord (F : Type)
  | int (n : Int)
  | variant (v : Variant)
  | bool (b : Bool)
  | double (x : F)

/-- The words of a palette's hash as words of the scheme's hash. -/
def paletteWords (p : TonalPalette F) : List (HashWord F) :=
  p.hashInput.map fun
    | .inl x => .double x
    | .inr n => .int n

/-- dynamic_scheme.rs 73-87: what is fed to the hasher. -/
def hashInput (self : DynamicScheme F) : List (HashWord F) :=
  [.int self.sourceColorArgb, .int self.sourceColorHct.hashInput, .variant self.variant,
   .bool self.isDark, .double self.contrastLevel]
  ++ paletteWords self.primaryPalette ++ paletteWords self.secondaryPalette
  ++ paletteWords self.tertiaryPalette ++ paletteWords self.neutralPalette
  ++ paletteWords self.neutralVariantPalette ++ paletteWords self.errorPalette

/-- dynamic_scheme.rs 90-114 -/
def new (sourceColorArgb : Int) (variant : Variant) (contrastLevel : Option F) (isDark : Bool)
    (primaryPalette secondaryPalette tertiaryPalette neutralPalette neutralVariantPalette :
      TonalPalette F) : DynamicScheme F :=
  { sourceColorArgb
    sourceColorHct := Hct.fromInt sourceColorArgb
    variant
    isDark
    contrastLevel := contrastLevel.getD 0.0
    primaryPalette
    secondaryPalette
    tertiaryPalette
    neutralPalette
    neutralVariantPalette
    errorPalette := TonalPalette.of 25.0 84.0 }

/-- The loop of dynamic_scheme.rs 122-134 on the remaining breakpoints and rotations. -/
def rotateLoop (sourceHue : F) : List F → List F → F
  | thisHue :: nextHue :: hues, rotation :: rotations =>
    if thisHue < sourceHue ∧ sourceHue < nextHue then
      sanitizeDegreesDouble (sourceHue + rotation)
    else rotateLoop sourceHue (nextHue :: hues) rotations
  | _, _ => sourceHue

/-- dynamic_scheme.rs 116-135; `none` is the panic of the assertion on line 118.  (The source colour
only contributes its hue.) -/
def getRotatedHue (sourceColor : Hct F) (hues rotations : List F) : Option F :=
  let sourceHue := sourceColor.getHue
  if hues.length = rotations.length then
    match rotations with
    | [rotation] => some (sanitizeDegreesDouble (sourceColor.getHue + rotation))
    | _ => some (rotateLoop sourceHue hues rotations)
  else none

end DynamicScheme
end Mcu
