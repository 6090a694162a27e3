import Verif.Model.CorePalette

/-! Model of /repo/src/scheme/scheme.rs (the deprecated `Scheme`). -/

namespace Mcu

/-- scheme.rs 8-38 -/
structure LegacyScheme where
  primary : Int
  onPrimary : Int
  primaryContainer : Int
  onPrimaryContainer : Int
  secondary : Int
  onSecondary : Int
  secondaryContainer : Int
  onSecondaryContainer : Int
  tertiary : Int
  onTertiary : Int
  tertiaryContainer : Int
  onTertiaryContainer : Int
  error : Int
  onError : Int
  errorContainer : Int
  onErrorContainer : Int
  background : Int
  onBackground : Int
  surface : Int
  onSurface : Int
  surfaceVariant : Int
  onSurfaceVariant : Int
  outline : Int
  outlineVariant : Int
  shadow : Int
  scrim : Int
  inverseSurface : Int
  inverseOnSurface : Int
  inversePrimary : Int

namespace LegacyScheme

variable {F : Type} [Fl F]

/-- scheme.rs 56-88.  `get` fills the palette's cache; the calls happen in this order, each on the
palette left by the previous one. -/
def lightFromCorePalette (palette : CorePalette F) : LegacyScheme :=
  let primary_ := palette.primary.get 40
  let onPrimary_ := primary_.2.get 100
  let primaryContainer_ := onPrimary_.2.get 90
  let onPrimaryContainer_ := primaryContainer_.2.get 10
  let secondary_ := palette.secondary.get 40
  let onSecondary_ := secondary_.2.get 100
  let secondaryContainer_ := onSecondary_.2.get 90
  let onSecondaryContainer_ := secondaryContainer_.2.get 10
  let tertiary_ := palette.tertiary.get 40
  let onTertiary_ := tertiary_.2.get 100
  let tertiaryContainer_ := onTertiary_.2.get 90
  let onTertiaryContainer_ := tertiaryContainer_.2.get 10
  let error_ := palette.error.get 40
  let onError_ := error_.2.get 100
  let errorContainer_ := onError_.2.get 90
  let onErrorContainer_ := errorContainer_.2.get 10
  let background_ := palette.neutral.get 99
  let onBackground_ := background_.2.get 10
  let surface_ := onBackground_.2.get 99
  let onSurface_ := surface_.2.get 10
  let surfaceVariant_ := palette.neutralVariant.get 90
  let onSurfaceVariant_ := surfaceVariant_.2.get 30
  let outline_ := onSurfaceVariant_.2.get 50
  let outlineVariant_ := outline_.2.get 80
  let shadow_ := onSurface_.2.get 0
  let scrim_ := shadow_.2.get 0
  let inverseSurface_ := scrim_.2.get 20
  let inverseOnSurface_ := inverseSurface_.2.get 95
  let inversePrimary_ := onPrimaryContainer_.2.get 80
  { primary := primary_.1,
    onPrimary := onPrimary_.1,
    primaryContainer := primaryContainer_.1,
    onPrimaryContainer := onPrimaryContainer_.1,
    secondary := secondary_.1,
    onSecondary := onSecondary_.1,
    secondaryContainer := secondaryContainer_.1,
    onSecondaryContainer := onSecondaryContainer_.1,
    tertiary := tertiary_.1,
    onTertiary := onTertiary_.1,
    tertiaryContainer := tertiaryContainer_.1,
    onTertiaryContainer := onTertiaryContainer_.1,
    error := error_.1,
    onError := onError_.1,
    errorContainer := errorContainer_.1,
    onErrorContainer := onErrorContainer_.1,
    background := background_.1,
    onBackground := onBackground_.1,
    surface := surface_.1,
    onSurface := onSurface_.1,
    surfaceVariant := surfaceVariant_.1,
    onSurfaceVariant := onSurfaceVariant_.1,
    outline := outline_.1,
    outlineVariant := outlineVariant_.1,
    shadow := shadow_.1,
    scrim := scrim_.1,
    inverseSurface := inverseSurface_.1,
    inverseOnSurface := inverseOnSurface_.1,
    inversePrimary := inversePrimary_.1 }

/-- scheme.rs 89-121.  `get` fills the palette's cache; the calls happen in this order, each on the
palette left by the previous one. -/
def darkFromCorePalette (palette : CorePalette F) : LegacyScheme :=
  let primary_ := palette.primary.get 80
  let onPrimary_ := primary_.2.get 20
  let primaryContainer_ := onPrimary_.2.get 30
  let onPrimaryContainer_ := primaryContainer_.2.get 90
  let secondary_ := palette.secondary.get 80
  let onSecondary_ := secondary_.2.get 20
  let secondaryContainer_ := onSecondary_.2.get 30
  let onSecondaryContainer_ := secondaryContainer_.2.get 90
  let tertiary_ := palette.tertiary.get 80
  let onTertiary_ := tertiary_.2.get 20
  let tertiaryContainer_ := onTertiary_.2.get 30
  let onTertiaryContainer_ := tertiaryContainer_.2.get 90
  let error_ := palette.error.get 80
  let onError_ := error_.2.get 20
  let errorContainer_ := onError_.2.get 30
  let onErrorContainer_ := errorContainer_.2.get 80
  let background_ := palette.neutral.get 10
  let onBackground_ := background_.2.get 90
  let surface_ := onBackground_.2.get 10
  let onSurface_ := surface_.2.get 90
  let surfaceVariant_ := palette.neutralVariant.get 30
  let onSurfaceVariant_ := surfaceVariant_.2.get 80
  let outline_ := onSurfaceVariant_.2.get 60
  let outlineVariant_ := outline_.2.get 30
  let shadow_ := onSurface_.2.get 0
  let scrim_ := shadow_.2.get 0
  let inverseSurface_ := scrim_.2.get 90
  let inverseOnSurface_ := inverseSurface_.2.get 20
  let inversePrimary_ := onPrimaryContainer_.2.get 40
  { primary := primary_.1,
    onPrimary := onPrimary_.1,
    primaryContainer := primaryContainer_.1,
    onPrimaryContainer := onPrimaryContainer_.1,
    secondary := secondary_.1,
    onSecondary := onSecondary_.1,
    secondaryContainer := secondaryContainer_.1,
    onSecondaryContainer := onSecondaryContainer_.1,
    tertiary := tertiary_.1,
    onTertiary := onTertiary_.1,
    tertiaryContainer := tertiaryContainer_.1,
    onTertiaryContainer := onTertiaryContainer_.1,
    error := error_.1,
    onError := onError_.1,
    errorContainer := errorContainer_.1,
    onErrorContainer := onErrorContainer_.1,
    background := background_.1,
    onBackground := onBackground_.1,
    surface := surface_.1,
    onSurface := onSurface_.1,
    surfaceVariant := surfaceVariant_.1,
    onSurfaceVariant := onSurfaceVariant_.1,
    outline := outline_.1,
    outlineVariant := outlineVariant_.1,
    shadow := shadow_.1,
    scrim := scrim_.1,
    inverseSurface := inverseSurface_.1,
    inverseOnSurface := inverseOnSurface_.1,
    inversePrimary := inversePrimary_.1 }

/-- scheme.rs 44-46 -/
def light (F : Type) [Fl F] (color : Int) : LegacyScheme :=
  lightFromCorePalette (CorePalette.of color : CorePalette F)

/-- scheme.rs 47-49 -/
def dark (F : Type) [Fl F] (color : Int) : LegacyScheme :=
  darkFromCorePalette (CorePalette.of color : CorePalette F)

/-- scheme.rs 50-52 -/
def lightContent (F : Type) [Fl F] (color : Int) : LegacyScheme :=
  lightFromCorePalette (CorePalette.contentOf color : CorePalette F)

/-- scheme.rs 53-55 -/
def darkContent (F : Type) [Fl F] (color : Int) : LegacyScheme :=
  darkFromCorePalette (CorePalette.contentOf color : CorePalette F)

end LegacyScheme
end Mcu
