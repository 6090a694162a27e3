import Verif.Model.Contrast
import Verif.Model.ContrastCurve
import Verif.Model.DynamicScheme

/-! Model of /repo/src/dynamiccolor/dynamic_color.rs and src/tone_delta_pair.rs.

A Rust `DynamicColor` holds closures producing other dynamic colours (`background`, the roles of a
tone delta pair), and a colour's own pair contains the colour again.  The model names the dynamic
colours by the elements of a type `ι` and keeps their definitions in a registry
`ι → DynamicColor ι F`; a closure returning a dynamic colour returns its name.  A closure computing a
tone may ask for the tone of other dynamic colours; it gets that function as an argument. -/

namespace Mcu

open MathUtils Contrast

/-- tone_delta_pair.rs 4-9 -/
inductive TonePolarity
  | darker | lighter | nearer | farther
deriving DecidableEq, Repr

/-- tone_delta_pair.rs 17-23 -/
structure ToneDeltaPair (ι F : Type) where
  roleA : ι
  roleB : ι
  delta : F
  polarity : TonePolarity
  stayTogether : Bool

/-- dynamic_color.rs 12-22 without the cache (see `HctCache`).  `tone` gets the tones of the other
dynamic colours as its second argument and returns `none` if it panics or does not terminate. -/
structure DynamicColor (ι F : Type) where
  name : String
  palette : DynamicScheme F → TonalPalette F
  tone : DynamicScheme F → (ι → Option F) → Option F
  isBackground : Bool := false
  background : Option (DynamicScheme F → ι) := none
  secondBackground : Option (DynamicScheme F → ι) := none
  contrastCurve : Option (ContrastCurve F) := none
  toneDeltaPair : Option (DynamicScheme F → ToneDeltaPair ι F) := none

namespace DynamicColor

variable {ι F : Type} [Fl F]

/-- dynamic_color.rs 411-413 -/
def tonePrefersLightForeground (tone : F) : Bool := Fl.round tone < (60.0 : F)

/-- dynamic_color.rs 417-419 -/
def toneAllowsLightForeground (tone : F) : Bool := Fl.round tone ≤ (49.0 : F)

/-- dynamic_color.rs 394-399 -/
def enableLightForeground (tone : F) : F :=
  if tonePrefersLightForeground tone && !toneAllowsLightForeground tone then 49.0 else tone

/-- dynamic_color.rs 357-390 -/
def foregroundTone (bgTone ratio : F) : F :=
  let lighterTone := lighterUnsafe bgTone ratio
  let darkerTone := darkerUnsafe bgTone ratio
  let lighterRatio := ratioOfTones lighterTone bgTone
  let darkerRatio := ratioOfTones darkerTone bgTone
  let preferLighter := tonePrefersLightForeground bgTone
  if preferLighter then
    let negligibleDifference :=
      Fl.abs (lighterRatio - darkerRatio) < (0.1 : F) ∧ lighterRatio < ratio ∧ darkerRatio < ratio
    if lighterRatio ≥ ratio ∨ lighterRatio ≥ darkerRatio ∨ negligibleDifference then lighterTone
    else darkerTone
  else
    if darkerRatio ≥ ratio ∨ darkerRatio ≥ lighterRatio then darkerTone else lighterTone

/-- dynamic_color.rs 190-206 and 276-281: keep a tone whose contrast is good enough. -/
def goodEnough (bgTone initialTone contrast : F) : F :=
  if ratioOfTones bgTone initialTone ≥ contrast then initialTone
  else foregroundTone bgTone contrast

/-- dynamic_color.rs 214-226: spread `nearer` and `farther` to the declared distance. -/
def spreadTones (nTone fTone delta expansionDir : F) : F × F :=
  if (fTone - nTone) * expansionDir ≥ delta then (nTone, fTone)
  else
    let fTone := clampDouble 0.0 100.0 (nTone + delta * expansionDir)
    if (fTone - nTone) * expansionDir ≥ delta then (nTone, fTone)
    else (clampDouble 0.0 100.0 (fTone - delta * expansionDir), fTone)

/-- dynamic_color.rs 228-258: move tones out of 50..60. -/
def avoidAwkward (nTone fTone delta expansionDir : F) (stayTogether : Bool) : F × F :=
  if 50.0 ≤ nTone ∧ nTone < 60.0 then
    if expansionDir > 0.0 then (60.0, Fl.fmax fTone (60.0 + delta * expansionDir))
    else (49.0, Fl.fmin fTone (49.0 + delta * expansionDir))
  else if 50.0 ≤ fTone ∧ fTone < 60.0 then
    if stayTogether then
      if expansionDir > 0.0 then (60.0, Fl.fmax fTone (60.0 + delta * expansionDir))
      else (49.0, Fl.fmin fTone (49.0 + delta * expansionDir))
    else if expansionDir > 0.0 then (nTone, 60.0)
    else (nTone, 49.0)
  else (nTone, fTone)

/-- dynamic_color.rs 186-258: the tones of `nearer` and `farther`. -/
def pairTones (decreasingContrast : Bool) (bgTone nContrast fContrast nInitialTone fInitialTone : F)
    (delta expansionDir : F) (stayTogether : Bool) : F × F :=
  let nTone := goodEnough bgTone nInitialTone nContrast
  let fTone := goodEnough bgTone fInitialTone fContrast
  let nTone := if decreasingContrast then foregroundTone bgTone nContrast else nTone
  let fTone := if decreasingContrast then foregroundTone bgTone fContrast else fTone
  let s := spreadTones nTone fTone delta expansionDir
  avoidAwkward s.1 s.2 delta expansionDir stayTogether

/-- dynamic_color.rs 276-294: the tone against one background. -/
def singleTone (decreasingContrast isBackground : Bool) (bgTone tone desiredRatio : F) : F :=
  let answer := goodEnough bgTone tone desiredRatio
  let answer := if decreasingContrast then foregroundTone bgTone desiredRatio else answer
  if isBackground ∧ 50.0 ≤ answer ∧ answer < 60.0 then
    if ratioOfTones 49.0 bgTone ≥ desiredRatio then 49.0 else 60.0
  else answer

/-- dynamic_color.rs 304-343: adjust for two backgrounds.  `!=` is Rust's `f64` inequality. -/
def dualTone (bgTone1 bgTone2 answer desiredRatio : F) : F :=
  let upper := Fl.fmax bgTone1 bgTone2
  let lower := Fl.fmin bgTone1 bgTone2
  if ratioOfTones upper answer ≥ desiredRatio ∧ ratioOfTones lower answer ≥ desiredRatio then answer
  else
    let lightOption := lighter upper desiredRatio
    let darkOption := darker lower desiredRatio
    let availables := (if lightOption != -1.0 then [lightOption] else [])
      ++ (if darkOption != -1.0 then [darkOption] else [])
    let prefersLight := tonePrefersLightForeground bgTone1 || tonePrefersLightForeground bgTone2
    if prefersLight then
      if lightOption < 0.0 then 100.0 else lightOption
    else
      match availables with
      | [a] => a
      | _ => if darkOption < 0.0 then 0.0 else darkOption

/-- dynamic_color.rs 166-168 -/
def aIsNearer (polarity : TonePolarity) (isDark : Bool) : Bool :=
  decide (polarity = .nearer) || (decide (polarity = .lighter) && !isDark)
  || (decide (polarity = .darker) && isDark)

/-- dynamic_color.rs 149-349 with at most `fuel` nested calls; `none` means a panic (`unwrap` of a
missing background or contrast curve, lines 162, 178, 183, 273), or that the nesting is deeper than
`fuel`, or that a tone closure does not terminate. -/
def getTone (env : ι → DynamicColor ι F) (scheme : DynamicScheme F) : Nat → ι → Option F
  | 0, _ => none
  | fuel + 1, r => do
    let self := env r
    let decreasingContrast := decide (scheme.contrastLevel < (0.0 : F))
    match self.toneDeltaPair with
    | some toneDeltaPair =>
      let pair := toneDeltaPair scheme
      let background ← self.background
      let bgTone ← getTone env scheme fuel (background scheme)
      let nearer := env (if aIsNearer pair.polarity scheme.isDark then pair.roleA else pair.roleB)
      let farther := env (if aIsNearer pair.polarity scheme.isDark then pair.roleB else pair.roleA)
      let amNearer := self.name == nearer.name
      let expansionDir : F := if scheme.isDark then 1.0 else -1.0
      let nCurve ← nearer.contrastCurve
      let fCurve ← farther.contrastCurve
      let nInitialTone ← nearer.tone scheme (getTone env scheme fuel)
      let fInitialTone ← farther.tone scheme (getTone env scheme fuel)
      let tones := pairTones decreasingContrast bgTone (nCurve.get scheme.contrastLevel)
        (fCurve.get scheme.contrastLevel) nInitialTone fInitialTone pair.delta expansionDir
        pair.stayTogether
      some (if amNearer then tones.1 else tones.2)
    | none =>
      let answer ← self.tone scheme (getTone env scheme fuel)
      match self.background with
      | none => some answer
      | some background =>
        let bgTone ← getTone env scheme fuel (background scheme)
        let contrastCurve ← self.contrastCurve
        let desiredRatio := contrastCurve.get scheme.contrastLevel
        let answer := singleTone decreasingContrast self.isBackground bgTone answer desiredRatio
        match self.secondBackground with
        | none => some answer
        | some secondBackground =>
          let bgTone1 ← getTone env scheme fuel (background scheme)
          let bgTone2 ← getTone env scheme fuel (secondBackground scheme)
          some (dualTone bgTone1 bgTone2 answer desiredRatio)

/-- dynamic_color.rs 21: the `HashMap<DynamicScheme, Hct>` of one dynamic colour. -/
abbrev HctCache (F : Type) := List (DynamicScheme F × Hct F)

/-- dynamic_color.rs 132-133: the colour computed on a cache miss. -/
def freshHct (env : ι → DynamicColor ι F) (fuel : Nat) (r : ι) (scheme : DynamicScheme F) :
    Option (Hct F) := do
  let tone ← getTone env scheme fuel r
  some (((env r).palette scheme).getHct tone)

/-- dynamic_color.rs 127-141.  `hit` says which of the stored entries the hash map lookup on line 128
finds: an implementation of `HashMap` finds an entry whose key is equal to the argument *and* has the
same hash; see `ValidHit`. -/
def getHct (env : ι → DynamicColor ι F) (fuel : Nat) (r : ι)
    (hit : HctCache F → DynamicScheme F → Option (Hct F))
    (cache : HctCache F) (scheme : DynamicScheme F) : Option (Hct F × HctCache F) :=
  match hit cache scheme with
  | some answer => some (answer, cache)
  | none => do
    let answer ← freshHct env fuel r scheme
    let cache := if cache.length > 4 then [] else cache
    some (answer, (scheme, answer) :: cache)

/-- What a hash map guarantees about a successful lookup: the entry found is stored under a key equal to
the argument. -/
def ValidHit (hit : HctCache F → DynamicScheme F → Option (Hct F)) : Prop :=
  ∀ cache scheme h, hit cache scheme = some h →
    ∃ key, (key, h) ∈ cache ∧ key.eq scheme = true

/-- dynamic_color.rs 117-119 -/
def getArgb (env : ι → DynamicColor ι F) (fuel : Nat) (r : ι)
    (hit : HctCache F → DynamicScheme F → Option (Hct F))
    (cache : HctCache F) (scheme : DynamicScheme F) : Option (Int × HctCache F) := do
  let a ← getHct env fuel r hit cache scheme
  some (a.1.toInt, a.2)

end DynamicColor
end Mcu
