import Verif.Model.TonalPalette

/-! Model of /repo/src/palettes/core_palette.rs. -/

namespace Mcu

/-- core_palette.rs 11-18 -/
structure CorePalette (F : Type) where
  primary : TonalPalette F
  secondary : TonalPalette F
  tertiary : TonalPalette F
  neutral : TonalPalette F
  neutralVariant : TonalPalette F
  error : TonalPalette F

namespace CorePalette

variable {F : Type} [Fl F]

/-- core_palette.rs 20-22 -/
def defaultError : TonalPalette F := TonalPalette.of 25.0 84.0

/-- core_palette.rs 25 -/
def size : Nat := 5

/-- core_palette.rs 33-42 -/
def ofHueChroma (hue chroma : F) : CorePalette F :=
  { primary := TonalPalette.of hue (Fl.fmax 48.0 chroma)
    secondary := TonalPalette.of hue 16.0
    tertiary := TonalPalette.of (hue + 60.0) 24.0
    neutral := TonalPalette.of hue 4.0
    neutralVariant := TonalPalette.of hue 8.0
    error := defaultError }

/-- core_palette.rs 28-31 -/
def of (argb : Int) : CorePalette F :=
  let cam : Cam16 F := Cam16.fromInt argb
  ofHueChroma cam.hue cam.chroma

/-- core_palette.rs 50-59 -/
def contentOfHueChroma (hue chroma : F) : CorePalette F :=
  { primary := TonalPalette.of hue chroma
    secondary := TonalPalette.of hue (chroma / 3.0)
    tertiary := TonalPalette.of (hue + 60.0) (chroma / 2.0)
    neutral := TonalPalette.of hue (Fl.fmin (chroma / 12.0) 4.0)
    neutralVariant := TonalPalette.of hue (Fl.fmin (chroma / 6.0) 8.0)
    error := defaultError }

/-- core_palette.rs 45-48 -/
def contentOf (argb : Int) : CorePalette F :=
  let cam : Cam16 F := Cam16.fromInt argb
  contentOfHueChroma cam.hue cam.chroma

/-- core_palette.rs 112-120; the slice is in range at every call (the length is asserted first). -/
def getPartition (list : List Int) (partitionNumber partitionSize : Nat) : List Int :=
  (list.drop (partitionNumber * partitionSize)).take partitionSize

/-- core_palette.rs 65-87; `none` is the panic of the assertion on line 66 (or of a nested one). -/
def fromList (colors : List Int) : Option (CorePalette F) :=
  if colors.length = size * TonalPalette.commonSize then do
    let n := TonalPalette.commonSize
    let primary ← TonalPalette.fromList (getPartition colors 0 n)
    let secondary ← TonalPalette.fromList (getPartition colors 1 n)
    let tertiary ← TonalPalette.fromList (getPartition colors 2 n)
    let neutral ← TonalPalette.fromList (getPartition colors 3 n)
    let neutralVariant ← TonalPalette.fromList (getPartition colors 4 n)
    some { primary, secondary, tertiary, neutral, neutralVariant, error := defaultError }
  else none

/-- core_palette.rs 92-102 -/
def asList (self : CorePalette F) : List Int × CorePalette F :=
  let p := self.primary.getAsList
  let s := self.secondary.getAsList
  let t := self.tertiary.getAsList
  let n := self.neutral.getAsList
  let nv := self.neutralVariant.getAsList
  (p.1 ++ s.1 ++ t.1 ++ n.1 ++ nv.1,
   { self with primary := p.2, secondary := s.2, tertiary := t.2, neutral := n.2,
               neutralVariant := nv.2 })

/-- core_palette.rs 10: derived `PartialEq`. -/
def eq (self o : CorePalette F) : Bool :=
  self.primary.eq o.primary && self.secondary.eq o.secondary && self.tertiary.eq o.tertiary &&
  self.neutral.eq o.neutral && self.neutralVariant.eq o.neutralVariant && self.error.eq o.error

/-- core_palette.rs 10: derived `Hash`, what is fed to the hasher. -/
def hashInput (self : CorePalette F) : List (F ⊕ Int) :=
  self.primary.hashInput ++ self.secondary.hashInput ++ self.tertiary.hashInput ++
  self.neutral.hashInput ++ self.neutralVariant.hashInput ++ self.error.hashInput

end CorePalette
end Mcu
