import Verif.Model.DynamicColor
import Verif.Model.Dislike

/-! Model of /repo/src/dynamiccolor/material_dynamic_colors.rs. -/

namespace Mcu.Material

variable {F : Type} [Fl F]

/-- The dynamic colours of `MaterialDynamicColors`, one constructor per public function of
material_dynamic_colors.rs 31-977 without argument. -/
inductive Role
  | primaryPaletteKeyColor | secondaryPaletteKeyColor | tertiaryPaletteKeyColor
  | neutralPaletteKeyColor | neutralVariantPaletteKeyColor | background
  | onBackground | surface | surfaceDim
  | surfaceBright | surfaceContainerLowest | surfaceContainerLow
  | surfaceContainer | surfaceContainerHigh | surfaceContainerHighest
  | onSurface | surfaceVariant | onSurfaceVariant
  | inverseSurface | inverseOnSurface | outline
  | outlineVariant | shadow | scrim
  | surfaceTint | primary | onPrimary
  | primaryContainer | onPrimaryContainer | inversePrimary
  | secondary | onSecondary | secondaryContainer
  | onSecondaryContainer | tertiary | onTertiary
  | tertiaryContainer | onTertiaryContainer | error
  | onError | errorContainer | onErrorContainer
  | primaryFixed | primaryFixedDim | onPrimaryFixed
  | onPrimaryFixedVariant | secondaryFixed | secondaryFixedDim
  | onSecondaryFixed | onSecondaryFixedVariant | tertiaryFixed
  | tertiaryFixedDim | onTertiaryFixed | onTertiaryFixedVariant
deriving DecidableEq, Repr

/-- `ContrastCurve::new`, contrast_curve.rs 22-29 -/
def curve (low normal medium high : F) : ContrastCurve F := { low, normal, medium, high }

/-- material_dynamic_colors.rs 13-15 -/
def isFidelity (scheme : DynamicScheme F) : Bool :=
  decide (scheme.variant = .fidelity) || decide (scheme.variant = .content)

/-- material_dynamic_colors.rs 16-18 -/
def isMonochrome (scheme : DynamicScheme F) : Bool := decide (scheme.variant = .monochrome)

/-- material_dynamic_colors.rs 23-29 -/
def highestSurface (s : DynamicScheme F) : Role := if s.isDark then .surfaceBright else .surfaceDim

/-- The `while` of material_dynamic_colors.rs 988-1005 with at most `fuel` evaluations of its condition;
`none` if it has not ended by then. -/
def chromaLoop (hue chroma : F) (byDecreasingTone : Bool) :
    Nat → F → F → Hct F → Option F
  | 0, _, _, _ => none
  | fuel + 1, answer, chromaPeak, closestToChroma =>
    if closestToChroma.getChroma < chroma then
      let answer := answer + (if byDecreasingTone then -1.0 else 1.0)
      let potentialSolution := Hct.fromHct hue chroma answer
      if chromaPeak > potentialSolution.getChroma then some answer
      else if Fl.abs (potentialSolution.getChroma - chroma) < 0.4 then some answer
      else
        let potentialDelta := Fl.abs (potentialSolution.getChroma - chroma)
        let currentDelta := Fl.abs (closestToChroma.getChroma - chroma)
        let chromaPeak := Fl.fmax chromaPeak potentialSolution.getChroma
        chromaLoop hue chroma byDecreasingTone fuel answer chromaPeak
          (if potentialDelta < currentDelta then potentialSolution else closestToChroma)
    else some answer

/-- material_dynamic_colors.rs 978-1008; `none`: the loop does not end within `fuel` rounds. -/
def findDesiredChromaByTone (fuel : Nat) (hue chroma tone : F) (byDecreasingTone : Bool) :
    Option F :=
  let closestToChroma := Hct.fromHct hue chroma tone
  if closestToChroma.getChroma < chroma then
    chromaLoop hue chroma byDecreasingTone fuel tone closestToChroma.getChroma closestToChroma
  else some tone

/-- material_dynamic_colors.rs 31-42 -/
def primaryPaletteKeyColor : DynamicColor Role F where
  name := "primary_palette_key_color"
  palette := fun s => s.primaryPalette
  tone := fun s _ => some s.primaryPalette.keyColor.getTone

/-- material_dynamic_colors.rs 44-55 -/
def secondaryPaletteKeyColor : DynamicColor Role F where
  name := "secondary_palette_key_color"
  palette := fun s => s.secondaryPalette
  tone := fun s _ => some s.secondaryPalette.keyColor.getTone

/-- material_dynamic_colors.rs 57-68 -/
def tertiaryPaletteKeyColor : DynamicColor Role F where
  name := "tertiary_palette_key_color"
  palette := fun s => s.tertiaryPalette
  tone := fun s _ => some s.tertiaryPalette.keyColor.getTone

/-- material_dynamic_colors.rs 70-81 -/
def neutralPaletteKeyColor : DynamicColor Role F where
  name := "neutral_palette_key_color"
  palette := fun s => s.neutralPalette
  tone := fun s _ => some s.neutralPalette.keyColor.getTone

/-- material_dynamic_colors.rs 83-94 -/
def neutralVariantPaletteKeyColor : DynamicColor Role F where
  name := "neutral_variant_palette_key_color"
  palette := fun s => s.neutralVariantPalette
  tone := fun s _ => some s.neutralVariantPalette.keyColor.getTone

/-- material_dynamic_colors.rs 96-107 -/
def background : DynamicColor Role F where
  name := "background"
  palette := fun s => s.neutralPalette
  tone := fun s _ => some (if s.isDark then 6.0 else 98.0)
  isBackground := true

/-- material_dynamic_colors.rs 109-120 -/
def onBackground : DynamicColor Role F where
  name := "on_background"
  palette := fun s => s.neutralPalette
  tone := fun s _ => some (if s.isDark then 90.0 else 10.0)
  background := some (fun _ => .background)
  contrastCurve := some (curve 3.0 3.0 4.5 7.0)

/-- material_dynamic_colors.rs 122-133 -/
def surface : DynamicColor Role F where
  name := "surface"
  palette := fun s => s.neutralPalette
  tone := fun s _ => some (if s.isDark then 6.0 else 98.0)
  isBackground := true

/-- material_dynamic_colors.rs 135-152 -/
def surfaceDim : DynamicColor Role F where
  name := "surface_dim"
  palette := fun s => s.neutralPalette
  tone := fun s _ => some (if s.isDark then 6.0 else (curve 87.0 87.0 80.0 75.0).get s.contrastLevel)
  isBackground := true

/-- material_dynamic_colors.rs 154-171 -/
def surfaceBright : DynamicColor Role F where
  name := "surface_bright"
  palette := fun s => s.neutralPalette
  tone := fun s _ => some (if s.isDark then (curve 24.0 24.0 29.0 34.0).get s.contrastLevel else 98.0)
  isBackground := true

/-- material_dynamic_colors.rs 173-190 -/
def surfaceContainerLowest : DynamicColor Role F where
  name := "surface_container_lowest"
  palette := fun s => s.neutralPalette
  tone := fun s _ => some (if s.isDark then (curve 4.0 4.0 2.0 0.0).get s.contrastLevel else 100.0)
  isBackground := true

/-- material_dynamic_colors.rs 192-209 -/
def surfaceContainerLow : DynamicColor Role F where
  name := "surface_container_low"
  palette := fun s => s.neutralPalette
  tone := fun s _ => some (if s.isDark then (curve 10.0 10.0 11.0 12.0).get s.contrastLevel else (curve 96.0 96.0 96.0 95.0).get s.contrastLevel)
  isBackground := true

/-- material_dynamic_colors.rs 211-228 -/
def surfaceContainer : DynamicColor Role F where
  name := "surface_container"
  palette := fun s => s.neutralPalette
  tone := fun s _ => some (if s.isDark then (curve 12.0 12.0 16.0 20.0).get s.contrastLevel else (curve 94.0 94.0 92.0 90.0).get s.contrastLevel)
  isBackground := true

/-- material_dynamic_colors.rs 230-247 -/
def surfaceContainerHigh : DynamicColor Role F where
  name := "surface_container_high"
  palette := fun s => s.neutralPalette
  tone := fun s _ => some (if s.isDark then (curve 17.0 17.0 21.0 25.0).get s.contrastLevel else (curve 92.0 92.0 88.0 85.0).get s.contrastLevel)
  isBackground := true

/-- material_dynamic_colors.rs 249-266 -/
def surfaceContainerHighest : DynamicColor Role F where
  name := "surface_container_highest"
  palette := fun s => s.neutralPalette
  tone := fun s _ => some (if s.isDark then (curve 22.0 22.0 26.0 30.0).get s.contrastLevel else (curve 90.0 90.0 84.0 80.0).get s.contrastLevel)
  isBackground := true

/-- material_dynamic_colors.rs 268-279 -/
def onSurface : DynamicColor Role F where
  name := "on_surface"
  palette := fun s => s.neutralPalette
  tone := fun s _ => some (if s.isDark then 90.0 else 10.0)
  background := some highestSurface
  contrastCurve := some (curve 4.5 7.0 11.0 21.0)

/-- material_dynamic_colors.rs 281-292 -/
def surfaceVariant : DynamicColor Role F where
  name := "surface_variant"
  palette := fun s => s.neutralVariantPalette
  tone := fun s _ => some (if s.isDark then 30.0 else 90.0)
  isBackground := true

/-- material_dynamic_colors.rs 294-305 -/
def onSurfaceVariant : DynamicColor Role F where
  name := "on_surface_variant"
  palette := fun s => s.neutralVariantPalette
  tone := fun s _ => some (if s.isDark then 80.0 else 30.0)
  background := some highestSurface
  contrastCurve := some (curve 3.0 4.5 7.0 11.0)

/-- material_dynamic_colors.rs 307-318 -/
def inverseSurface : DynamicColor Role F where
  name := "inverse_surface"
  palette := fun s => s.neutralPalette
  tone := fun s _ => some (if s.isDark then 90.0 else 20.0)

/-- material_dynamic_colors.rs 320-331 -/
def inverseOnSurface : DynamicColor Role F where
  name := "inverse_on_surface"
  palette := fun s => s.neutralPalette
  tone := fun s _ => some (if s.isDark then 20.0 else 95.0)
  background := some (fun _ => .inverseSurface)
  contrastCurve := some (curve 4.5 7.0 11.0 21.0)

/-- material_dynamic_colors.rs 333-344 -/
def outline : DynamicColor Role F where
  name := "outline"
  palette := fun s => s.neutralVariantPalette
  tone := fun s _ => some (if s.isDark then 60.0 else 50.0)
  background := some highestSurface
  contrastCurve := some (curve 1.5 3.0 4.5 7.0)

/-- material_dynamic_colors.rs 346-357 -/
def outlineVariant : DynamicColor Role F where
  name := "outline_variant"
  palette := fun s => s.neutralVariantPalette
  tone := fun s _ => some (if s.isDark then 30.0 else 80.0)
  background := some highestSurface
  contrastCurve := some (curve 1.0 1.0 3.0 4.5)

/-- material_dynamic_colors.rs 359-370 -/
def shadow : DynamicColor Role F where
  name := "shadow"
  palette := fun s => s.neutralPalette
  tone := fun _ _ => some 0.0

/-- material_dynamic_colors.rs 372-383 -/
def scrim : DynamicColor Role F where
  name := "scrim"
  palette := fun s => s.neutralPalette
  tone := fun _ _ => some 0.0

/-- material_dynamic_colors.rs 385-396 -/
def surfaceTint : DynamicColor Role F where
  name := "surface_tint"
  palette := fun s => s.primaryPalette
  tone := fun s _ => some (if s.isDark then 80.0 else 40.0)
  isBackground := true

/-- material_dynamic_colors.rs 398-422 -/
def primary : DynamicColor Role F where
  name := "primary"
  palette := fun s => s.primaryPalette
  tone := fun s _ =>
      if isMonochrome s then some (if s.isDark then 100.0 else 0.0)
      else some (if s.isDark then 80.0 else 40.0)
  isBackground := true
  background := some highestSurface
  contrastCurve := some (curve 3.0 4.5 7.0 7.0)
  toneDeltaPair := some fun _ =>
    { roleA := .primaryContainer, roleB := .primary, delta := 10.0, polarity := .nearer, stayTogether := false }

/-- material_dynamic_colors.rs 424-441 -/
def onPrimary : DynamicColor Role F where
  name := "on_primary"
  palette := fun s => s.primaryPalette
  tone := fun s _ =>
      if isMonochrome s then some (if s.isDark then 10.0 else 90.0)
      else some (if s.isDark then 20.0 else 100.0)
  background := some (fun _ => .primary)
  contrastCurve := some (curve 4.5 7.0 11.0 21.0)

/-- material_dynamic_colors.rs 443-470 -/
def primaryContainer : DynamicColor Role F where
  name := "primary_container"
  palette := fun s => s.primaryPalette
  tone := fun s _ =>
      if isFidelity s then some s.sourceColorHct.getTone
      else if isMonochrome s then some (if s.isDark then 85.0 else 25.0)
      else some (if s.isDark then 30.0 else 90.0)
  isBackground := true
  background := some highestSurface
  contrastCurve := some (curve 1.0 1.0 3.0 4.5)
  toneDeltaPair := some fun _ =>
    { roleA := .primaryContainer, roleB := .primary, delta := 10.0, polarity := .nearer, stayTogether := false }

/-- material_dynamic_colors.rs 472-494 -/
def onPrimaryContainer : DynamicColor Role F where
  name := "on_primary_container"
  palette := fun s => s.primaryPalette
  tone := fun s toneOf =>
      if isFidelity s then
        (toneOf .primaryContainer).map fun t => DynamicColor.foregroundTone t 4.5
      else if isMonochrome s then some (if s.isDark then 0.0 else 100.0)
      else some (if s.isDark then 90.0 else 10.0)
  background := some (fun _ => .primaryContainer)
  contrastCurve := some (curve 4.5 7.0 11.0 21.0)

/-- material_dynamic_colors.rs 496-507 -/
def inversePrimary : DynamicColor Role F where
  name := "inverse_primary"
  palette := fun s => s.primaryPalette
  tone := fun s _ => some (if s.isDark then 40.0 else 80.0)
  background := some (fun _ => .inverseSurface)
  contrastCurve := some (curve 3.0 4.5 7.0 7.0)

/-- material_dynamic_colors.rs 509-528 -/
def secondary : DynamicColor Role F where
  name := "secondary"
  palette := fun s => s.secondaryPalette
  tone := fun s _ => some (if s.isDark then 80.0 else 40.0)
  isBackground := true
  background := some highestSurface
  contrastCurve := some (curve 3.0 4.5 7.0 7.0)
  toneDeltaPair := some fun _ =>
    { roleA := .secondaryContainer, roleB := .secondary, delta := 10.0, polarity := .nearer, stayTogether := false }

/-- material_dynamic_colors.rs 530-547 -/
def onSecondary : DynamicColor Role F where
  name := "on_secondary"
  palette := fun s => s.secondaryPalette
  tone := fun s _ =>
      if isMonochrome s then some (if s.isDark then 10.0 else 100.0)
      else some (if s.isDark then 20.0 else 100.0)
  background := some (fun _ => .secondary)
  contrastCurve := some (curve 4.5 7.0 11.0 21.0)

/-- material_dynamic_colors.rs 549-588 -/
def secondaryContainer (loopFuel : Nat) : DynamicColor Role F where
  name := "secondary_container"
  palette := fun s => s.secondaryPalette
  tone := fun s _ =>
      let initialTone : F := if s.isDark then 30.0 else 90.0
      if isMonochrome s then some (if s.isDark then 30.0 else 85.0)
      else if !isFidelity s then some initialTone
      else findDesiredChromaByTone loopFuel s.secondaryPalette.hue s.secondaryPalette.chroma
        initialTone (if s.isDark then false else true)
  isBackground := true
  background := some highestSurface
  contrastCurve := some (curve 1.0 1.0 3.0 4.5)
  toneDeltaPair := some fun _ =>
    { roleA := .secondaryContainer, roleB := .secondary, delta := 10.0, polarity := .nearer, stayTogether := false }

/-- material_dynamic_colors.rs 590-609 -/
def onSecondaryContainer : DynamicColor Role F where
  name := "on_secondary_container"
  palette := fun s => s.secondaryPalette
  tone := fun s toneOf =>
      if !isFidelity s then some (if s.isDark then 90.0 else 10.0)
      else (toneOf .secondaryContainer).map fun t => DynamicColor.foregroundTone t 4.5
  background := some (fun _ => .secondaryContainer)
  contrastCurve := some (curve 4.5 7.0 11.0 21.0)

/-- material_dynamic_colors.rs 611-635 -/
def tertiary : DynamicColor Role F where
  name := "tertiary"
  palette := fun s => s.tertiaryPalette
  tone := fun s _ =>
      if isMonochrome s then some (if s.isDark then 90.0 else 25.0)
      else some (if s.isDark then 80.0 else 40.0)
  isBackground := true
  background := some highestSurface
  contrastCurve := some (curve 3.0 4.5 7.0 7.0)
  toneDeltaPair := some fun _ =>
    { roleA := .tertiaryContainer, roleB := .tertiary, delta := 10.0, polarity := .nearer, stayTogether := false }

/-- material_dynamic_colors.rs 637-653 -/
def onTertiary : DynamicColor Role F where
  name := "on_tertiary"
  palette := fun s => s.tertiaryPalette
  tone := fun s _ =>
      if isMonochrome s then some (if s.isDark then 10.0 else 90.0)
      else some (if s.isDark then 20.0 else 100.0)
  background := some (fun _ => .tertiary)
  contrastCurve := some (curve 4.5 7.0 11.0 21.0)

/-- material_dynamic_colors.rs 655-683 -/
def tertiaryContainer : DynamicColor Role F where
  name := "tertiary_container"
  palette := fun s => s.tertiaryPalette
  tone := fun s _ =>
      if isMonochrome s then some (if s.isDark then 60.0 else 49.0)
      else if !isFidelity s then some (if s.isDark then 30.0 else 90.0)
      else
        let proposedHct := s.tertiaryPalette.getHct s.sourceColorHct.getTone
        some (Dislike.fixIfDisliked proposedHct).getTone
  isBackground := true
  background := some highestSurface
  contrastCurve := some (curve 1.0 1.0 3.0 4.5)
  toneDeltaPair := some fun _ =>
    { roleA := .tertiaryContainer, roleB := .tertiary, delta := 10.0, polarity := .nearer, stayTogether := false }

/-- material_dynamic_colors.rs 685-707 -/
def onTertiaryContainer : DynamicColor Role F where
  name := "on_tertiary_container"
  palette := fun s => s.tertiaryPalette
  tone := fun s toneOf =>
      if isMonochrome s then some (if s.isDark then 0.0 else 100.0)
      else if !isFidelity s then some (if s.isDark then 90.0 else 10.0)
      else (toneOf .tertiaryContainer).map fun t => DynamicColor.foregroundTone t 4.5
  background := some (fun _ => .tertiaryContainer)
  contrastCurve := some (curve 4.5 7.0 11.0 21.0)

/-- material_dynamic_colors.rs 709-728 -/
def error : DynamicColor Role F where
  name := "error"
  palette := fun s => s.errorPalette
  tone := fun s _ => some (if s.isDark then 80.0 else 40.0)
  isBackground := true
  background := some highestSurface
  contrastCurve := some (curve 3.0 4.5 7.0 7.0)
  toneDeltaPair := some fun _ =>
    { roleA := .errorContainer, roleB := .error, delta := 10.0, polarity := .nearer, stayTogether := false }

/-- material_dynamic_colors.rs 730-741 -/
def onError : DynamicColor Role F where
  name := "on_error"
  palette := fun s => s.errorPalette
  tone := fun s _ => some (if s.isDark then 20.0 else 100.0)
  background := some (fun _ => .error)
  contrastCurve := some (curve 4.5 7.0 11.0 21.0)

/-- material_dynamic_colors.rs 743-762 -/
def errorContainer : DynamicColor Role F where
  name := "error_container"
  palette := fun s => s.errorPalette
  tone := fun s _ => some (if s.isDark then 30.0 else 90.0)
  isBackground := true
  background := some highestSurface
  contrastCurve := some (curve 1.0 1.0 3.0 4.5)
  toneDeltaPair := some fun _ =>
    { roleA := .errorContainer, roleB := .error, delta := 10.0, polarity := .nearer, stayTogether := false }

/-- material_dynamic_colors.rs 763-774 -/
def onErrorContainer : DynamicColor Role F where
  name := "on_error_container"
  palette := fun s => s.errorPalette
  tone := fun s _ => some (if s.isDark then 90.0 else 10.0)
  background := some (fun _ => .errorContainer)
  contrastCurve := some (curve 4.5 7.0 11.0 21.0)

/-- material_dynamic_colors.rs 776-795 -/
def primaryFixed : DynamicColor Role F where
  name := "primary_fixed"
  palette := fun s => s.primaryPalette
  tone := fun s _ => some (if isMonochrome s then 40.0 else 90.0)
  isBackground := true
  background := some highestSurface
  contrastCurve := some (curve 1.0 1.0 3.0 4.5)
  toneDeltaPair := some fun _ =>
    { roleA := .primaryFixed, roleB := .primaryFixedDim, delta := 10.0, polarity := .lighter, stayTogether := true }

/-- material_dynamic_colors.rs 797-816 -/
def primaryFixedDim : DynamicColor Role F where
  name := "primary_fixed_dim"
  palette := fun s => s.primaryPalette
  tone := fun s _ => some (if isMonochrome s then 30.0 else 80.0)
  isBackground := true
  background := some highestSurface
  contrastCurve := some (curve 1.0 1.0 3.0 4.5)
  toneDeltaPair := some fun _ =>
    { roleA := .primaryFixed, roleB := .primaryFixedDim, delta := 10.0, polarity := .lighter, stayTogether := true }

/-- material_dynamic_colors.rs 818-829 -/
def onPrimaryFixed : DynamicColor Role F where
  name := "on_primary_fixed"
  palette := fun s => s.primaryPalette
  tone := fun s _ => some (if isMonochrome s then 100.0 else 10.0)
  background := some (fun _ => .primaryFixedDim)
  secondBackground := some (fun _ => .primaryFixed)
  contrastCurve := some (curve 4.5 7.0 11.0 21.0)

/-- material_dynamic_colors.rs 831-842 -/
def onPrimaryFixedVariant : DynamicColor Role F where
  name := "on_primary_fixed_variant"
  palette := fun s => s.primaryPalette
  tone := fun s _ => some (if isMonochrome s then 90.0 else 30.0)
  background := some (fun _ => .primaryFixedDim)
  secondBackground := some (fun _ => .primaryFixed)
  contrastCurve := some (curve 3.0 4.5 7.0 11.0)

/-- material_dynamic_colors.rs 844-863 -/
def secondaryFixed : DynamicColor Role F where
  name := "secondary_fixed"
  palette := fun s => s.secondaryPalette
  tone := fun s _ => some (if isMonochrome s then 80.0 else 90.0)
  isBackground := true
  background := some highestSurface
  contrastCurve := some (curve 1.0 1.0 3.0 4.5)
  toneDeltaPair := some fun _ =>
    { roleA := .secondaryFixed, roleB := .secondaryFixedDim, delta := 10.0, polarity := .lighter, stayTogether := true }

/-- material_dynamic_colors.rs 865-884 -/
def secondaryFixedDim : DynamicColor Role F where
  name := "secondary_fixed_dim"
  palette := fun s => s.secondaryPalette
  tone := fun s _ => some (if isMonochrome s then 70.0 else 80.0)
  isBackground := true
  background := some highestSurface
  contrastCurve := some (curve 1.0 1.0 3.0 4.5)
  toneDeltaPair := some fun _ =>
    { roleA := .secondaryFixed, roleB := .secondaryFixedDim, delta := 10.0, polarity := .lighter, stayTogether := true }

/-- material_dynamic_colors.rs 886-897 -/
def onSecondaryFixed : DynamicColor Role F where
  name := "on_secondary_fixed"
  palette := fun s => s.secondaryPalette
  tone := fun _ _ => some 10.0
  background := some (fun _ => .secondaryFixedDim)
  secondBackground := some (fun _ => .secondaryFixed)
  contrastCurve := some (curve 4.5 7.0 11.0 21.0)

/-- material_dynamic_colors.rs 899-910 -/
def onSecondaryFixedVariant : DynamicColor Role F where
  name := "on_secondary_fixed_variant"
  palette := fun s => s.secondaryPalette
  tone := fun s _ => some (if isMonochrome s then 25.0 else 30.0)
  background := some (fun _ => .secondaryFixedDim)
  secondBackground := some (fun _ => .secondaryFixed)
  contrastCurve := some (curve 3.0 4.5 7.0 11.0)

/-- material_dynamic_colors.rs 912-931 -/
def tertiaryFixed : DynamicColor Role F where
  name := "tertiary_fixed"
  palette := fun s => s.tertiaryPalette
  tone := fun s _ => some (if isMonochrome s then 40.0 else 90.0)
  isBackground := true
  background := some highestSurface
  contrastCurve := some (curve 1.0 1.0 3.0 4.5)
  toneDeltaPair := some fun _ =>
    { roleA := .tertiaryFixed, roleB := .tertiaryFixedDim, delta := 10.0, polarity := .lighter, stayTogether := true }

/-- material_dynamic_colors.rs 933-952 -/
def tertiaryFixedDim : DynamicColor Role F where
  name := "tertiary_fixed_dim"
  palette := fun s => s.tertiaryPalette
  tone := fun s _ => some (if isMonochrome s then 30.0 else 80.0)
  isBackground := true
  background := some highestSurface
  contrastCurve := some (curve 1.0 1.0 3.0 4.5)
  toneDeltaPair := some fun _ =>
    { roleA := .tertiaryFixed, roleB := .tertiaryFixedDim, delta := 10.0, polarity := .lighter, stayTogether := true }

/-- material_dynamic_colors.rs 954-965 -/
def onTertiaryFixed : DynamicColor Role F where
  name := "on_tertiary_fixed"
  palette := fun s => s.tertiaryPalette
  tone := fun s _ => some (if isMonochrome s then 100.0 else 10.0)
  background := some (fun _ => .tertiaryFixedDim)
  secondBackground := some (fun _ => .tertiaryFixed)
  contrastCurve := some (curve 4.5 7.0 11.0 21.0)

/-- material_dynamic_colors.rs 966-977 -/
def onTertiaryFixedVariant : DynamicColor Role F where
  name := "on_tertiary_fixed_variant"
  palette := fun s => s.tertiaryPalette
  tone := fun s _ => some (if isMonochrome s then 90.0 else 30.0)
  background := some (fun _ => .tertiaryFixedDim)
  secondBackground := some (fun _ => .tertiaryFixed)
  contrastCurve := some (curve 3.0 4.5 7.0 11.0)

/-- The registry of the Material dynamic colours (material_dynamic_colors.rs 31-977).  `loopFuel` bounds
the rounds of the search in `secondary_container`. -/
def registry (loopFuel : Nat) : Role → DynamicColor Role F
  | .primaryPaletteKeyColor => Material.primaryPaletteKeyColor
  | .secondaryPaletteKeyColor => Material.secondaryPaletteKeyColor
  | .tertiaryPaletteKeyColor => Material.tertiaryPaletteKeyColor
  | .neutralPaletteKeyColor => Material.neutralPaletteKeyColor
  | .neutralVariantPaletteKeyColor => Material.neutralVariantPaletteKeyColor
  | .background => Material.background
  | .onBackground => Material.onBackground
  | .surface => Material.surface
  | .surfaceDim => Material.surfaceDim
  | .surfaceBright => Material.surfaceBright
  | .surfaceContainerLowest => Material.surfaceContainerLowest
  | .surfaceContainerLow => Material.surfaceContainerLow
  | .surfaceContainer => Material.surfaceContainer
  | .surfaceContainerHigh => Material.surfaceContainerHigh
  | .surfaceContainerHighest => Material.surfaceContainerHighest
  | .onSurface => Material.onSurface
  | .surfaceVariant => Material.surfaceVariant
  | .onSurfaceVariant => Material.onSurfaceVariant
  | .inverseSurface => Material.inverseSurface
  | .inverseOnSurface => Material.inverseOnSurface
  | .outline => Material.outline
  | .outlineVariant => Material.outlineVariant
  | .shadow => Material.shadow
  | .scrim => Material.scrim
  | .surfaceTint => Material.surfaceTint
  | .primary => Material.primary
  | .onPrimary => Material.onPrimary
  | .primaryContainer => Material.primaryContainer
  | .onPrimaryContainer => Material.onPrimaryContainer
  | .inversePrimary => Material.inversePrimary
  | .secondary => Material.secondary
  | .onSecondary => Material.onSecondary
  | .secondaryContainer => Material.secondaryContainer loopFuel
  | .onSecondaryContainer => Material.onSecondaryContainer
  | .tertiary => Material.tertiary
  | .onTertiary => Material.onTertiary
  | .tertiaryContainer => Material.tertiaryContainer
  | .onTertiaryContainer => Material.onTertiaryContainer
  | .error => Material.error
  | .onError => Material.onError
  | .errorContainer => Material.errorContainer
  | .onErrorContainer => Material.onErrorContainer
  | .primaryFixed => Material.primaryFixed
  | .primaryFixedDim => Material.primaryFixedDim
  | .onPrimaryFixed => Material.onPrimaryFixed
  | .onPrimaryFixedVariant => Material.onPrimaryFixedVariant
  | .secondaryFixed => Material.secondaryFixed
  | .secondaryFixedDim => Material.secondaryFixedDim
  | .onSecondaryFixed => Material.onSecondaryFixed
  | .onSecondaryFixedVariant => Material.onSecondaryFixedVariant
  | .tertiaryFixed => Material.tertiaryFixed
  | .tertiaryFixedDim => Material.tertiaryFixedDim
  | .onTertiaryFixed => Material.onTertiaryFixed
  | .onTertiaryFixedVariant => Material.onTertiaryFixedVariant

/-- dynamic_scheme.rs 145-306 (`get_primary`, `get_on_primary`, ...): the ARGB colour of a role; every
getter builds a new dynamic colour with an empty cache.  `none`: panic or not enough fuel. -/
def roleArgb (fuel loopFuel : Nat) (scheme : DynamicScheme F) (r : Role) : Option Int :=
  (DynamicColor.freshHct (registry loopFuel) fuel r scheme).map Hct.toInt

end Mcu.Material
