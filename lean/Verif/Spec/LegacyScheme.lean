import Verif.Model.LegacyScheme

/-! The documented tone table of the legacy light and dark schemes: for every role, the palette it is taken
from and its tone. -/

namespace Mcu.LegacySpec

/-- The six palettes of a core palette. -/
inductive Source
  | primary | secondary | tertiary | neutral | neutralVariant | error
deriving DecidableEq

/-- The palette named by a source. -/
def Source.of {F : Type} (p : CorePalette F) : Source → TonalPalette F
  | .primary => p.primary
  | .secondary => p.secondary
  | .tertiary => p.tertiary
  | .neutral => p.neutral
  | .neutralVariant => p.neutralVariant
  | .error => p.error

/-- The roles of a legacy scheme. -/
inductive Role
  | primary | onPrimary | primaryContainer | onPrimaryContainer | secondary | onSecondary
  | secondaryContainer | onSecondaryContainer | tertiary | onTertiary | tertiaryContainer | onTertiaryContainer
  | error | onError | errorContainer | onErrorContainer | background | onBackground
  | surface | onSurface | surfaceVariant | onSurfaceVariant | outline | outlineVariant
  | shadow | scrim | inverseSurface | inverseOnSurface | inversePrimary
deriving DecidableEq

/-- The colour a scheme assigns to a role. -/
def Role.color (s : LegacyScheme) : Role → Int
  | .primary => s.primary
  | .onPrimary => s.onPrimary
  | .primaryContainer => s.primaryContainer
  | .onPrimaryContainer => s.onPrimaryContainer
  | .secondary => s.secondary
  | .onSecondary => s.onSecondary
  | .secondaryContainer => s.secondaryContainer
  | .onSecondaryContainer => s.onSecondaryContainer
  | .tertiary => s.tertiary
  | .onTertiary => s.onTertiary
  | .tertiaryContainer => s.tertiaryContainer
  | .onTertiaryContainer => s.onTertiaryContainer
  | .error => s.error
  | .onError => s.onError
  | .errorContainer => s.errorContainer
  | .onErrorContainer => s.onErrorContainer
  | .background => s.background
  | .onBackground => s.onBackground
  | .surface => s.surface
  | .onSurface => s.onSurface
  | .surfaceVariant => s.surfaceVariant
  | .onSurfaceVariant => s.onSurfaceVariant
  | .outline => s.outline
  | .outlineVariant => s.outlineVariant
  | .shadow => s.shadow
  | .scrim => s.scrim
  | .inverseSurface => s.inverseSurface
  | .inverseOnSurface => s.inverseOnSurface
  | .inversePrimary => s.inversePrimary

/-- Documented palette, tone in the light scheme and tone in the dark scheme. -/
def Role.entry : Role → Source × Int × Int
  | .primary => (.primary, 40, 80)
  | .onPrimary => (.primary, 100, 20)
  | .primaryContainer => (.primary, 90, 30)
  | .onPrimaryContainer => (.primary, 10, 90)
  | .secondary => (.secondary, 40, 80)
  | .onSecondary => (.secondary, 100, 20)
  | .secondaryContainer => (.secondary, 90, 30)
  | .onSecondaryContainer => (.secondary, 10, 90)
  | .tertiary => (.tertiary, 40, 80)
  | .onTertiary => (.tertiary, 100, 20)
  | .tertiaryContainer => (.tertiary, 90, 30)
  | .onTertiaryContainer => (.tertiary, 10, 90)
  | .error => (.error, 40, 80)
  | .onError => (.error, 100, 20)
  | .errorContainer => (.error, 90, 30)
  | .onErrorContainer => (.error, 10, 80)
  | .background => (.neutral, 99, 10)
  | .onBackground => (.neutral, 10, 90)
  | .surface => (.neutral, 99, 10)
  | .onSurface => (.neutral, 10, 90)
  | .surfaceVariant => (.neutralVariant, 90, 30)
  | .onSurfaceVariant => (.neutralVariant, 30, 80)
  | .outline => (.neutralVariant, 50, 60)
  | .outlineVariant => (.neutralVariant, 80, 30)
  | .shadow => (.neutral, 0, 0)
  | .scrim => (.neutral, 0, 0)
  | .inverseSurface => (.neutral, 20, 90)
  | .inverseOnSurface => (.neutral, 95, 20)
  | .inversePrimary => (.primary, 80, 40)

/-- Documented palette of a role. -/
def Role.source (r : Role) : Source := r.entry.1

/-- Documented tone of a role in the dark or the light scheme. -/
def Role.tone (r : Role) (dark : Bool) : Int := if dark then r.entry.2.2 else r.entry.2.1

/-- The pairs of a text role and the role it is drawn on. -/
def textOn : List (Role × Role) :=
  [(.onPrimary, .primary),
   (.onPrimaryContainer, .primaryContainer),
   (.onSecondary, .secondary),
   (.onSecondaryContainer, .secondaryContainer),
   (.onTertiary, .tertiary),
   (.onTertiaryContainer, .tertiaryContainer),
   (.onError, .error),
   (.onErrorContainer, .errorContainer),
   (.onBackground, .background),
   (.onSurface, .surface),
   (.onSurfaceVariant, .surfaceVariant),
   (.inverseOnSurface, .inverseSurface)]

end Mcu.LegacySpec
