import Verif.Model.Hct

/-! Model of /repo/src/palettes/tonal_palette.rs. -/

namespace Mcu

/-- tonal_palette.rs 15-24.  The `HashMap<i64, i64>` is an association list (tone, colour). -/
structure TonalPalette (F : Type) where
  hue : F
  chroma : F
  keyColor : Hct F
  cache : List (Int × Int)
  isFromCache : Bool

namespace TonalPalette

variable {F : Type} [Fl F]

/-- tonal_palette.rs 28 -/
def commonTones : List Int := [0, 10, 20, 30, 40, 50, 60, 70, 80, 90, 95, 99, 100]

/-- tonal_palette.rs 30 -/
def commonSize : Nat := commonTones.length

/-- The loop of `create_key_color`, tonal_palette.rs 120-145, over the remaining deltas. -/
def keyLoop (hue chroma : F) : List Nat → F → Hct F → Hct F
  | [], _, best => best
  | delta :: rest, smallestDelta, best =>
    let d : F := Fl.ofInt delta
    if Fl.round chroma == Fl.round best.getChroma then best
    else
      let hctAdd := Hct.fromHct hue chroma (50.0 + d)
      let hctAddDelta := Fl.abs (hctAdd.getChroma - chroma)
      let s1 : F × Hct F :=
        if hctAddDelta < smallestDelta then (hctAddDelta, hctAdd) else (smallestDelta, best)
      let hctSub := Hct.fromHct hue chroma (50.0 - d)
      let hctSubDelta := Fl.abs (hctSub.getChroma - chroma)
      let s2 : F × Hct F := if hctSubDelta < s1.1 then (hctSubDelta, hctSub) else s1
      keyLoop hue chroma rest s2.1 s2.2

/-- tonal_palette.rs 110-146 -/
def createKeyColor (hue chroma : F) : Hct F :=
  let start := Hct.fromHct hue chroma 50.0
  keyLoop hue chroma ((List.range 49).map (· + 1)) (Fl.abs (start.getChroma - chroma)) start

/-- tonal_palette.rs 63-65 (and 42-50) -/
def of (hue chroma : F) : TonalPalette F :=
  { hue, chroma, cache := [], keyColor := createKeyColor hue chroma, isFromCache := false }

/-- tonal_palette.rs 68-70 (and 32-40) -/
def fromHct (hct : Hct F) : TonalPalette F :=
  { hue := hct.getHue, chroma := hct.getChroma, cache := [], keyColor := hct, isFromCache := false }

/-- tonal_palette.rs 85-102: hue and chroma of the most chromatic colour that is not too light. -/
def deduceHueChroma (colors : List Int) : F × F :=
  colors.foldl (fun best argb =>
    let hct : Hct F := Hct.fromInt argb
    if hct.getTone > 98.0 then best
    else if hct.getChroma > best.2 then (hct.getHue, hct.getChroma)
    else best) (0.0, 0.0)

/-- tonal_palette.rs 75-105 (and 52-60); `none` is the panic of the assertion on line 76.  Since the
keys inserted on line 80 are the 13 distinct common tones, the map is the list of pairs. -/
def fromList (colors : List Int) : Option (TonalPalette F) :=
  if colors.length = commonSize then
    let best : F × F := deduceHueChroma colors
    some { hue := best.1, chroma := best.2, cache := commonTones.zip colors,
           keyColor := createKeyColor best.1 best.2, isFromCache := true }
  else none

/-- tonal_palette.rs 167-172 -/
def get (self : TonalPalette F) (tone : Int) : Int × TonalPalette F :=
  match self.cache.lookup tone with
  | some argb => (argb, self)
  | none =>
    let argb := (Hct.fromHct self.hue self.chroma (Fl.ofInt tone)).toInt
    (argb, { self with cache := (tone, argb) :: self.cache })

/-- The iteration of tonal_palette.rs 152-155 over a list of tones. -/
def getAll (self : TonalPalette F) : List Int → List Int × TonalPalette F
  | [] => ([], self)
  | t :: ts =>
    let r := self.get t
    let rs := r.2.getAll ts
    (r.1 :: rs.1, rs.2)

/-- tonal_palette.rs 151-156 -/
def getAsList (self : TonalPalette F) : List Int × TonalPalette F := self.getAll commonTones

/-- tonal_palette.rs 183-190 -/
def getHct (self : TonalPalette F) (tone : F) : Hct F :=
  match self.cache.lookup (Fl.toI64 tone) with
  | some argb => Hct.fromInt argb
  | none => Hct.fromHct self.hue self.chroma tone

/-- tonal_palette.rs 236-247 -/
def listEquals (a b : List Int) : Bool :=
  if a.length = b.length then (a.zip b).all fun p => p.1 == p.2 else false

/-- tonal_palette.rs 210-221 -/
def eq (self other : TonalPalette F) : Bool :=
  if !self.isFromCache && !other.isFromCache then
    self.hue == other.hue && self.chroma == other.chroma
  else listEquals self.getAsList.1 other.getAsList.1

/-- tonal_palette.rs 222-232: what is fed to the hasher (the bytes of the two doubles, or the 13
integers). -/
def hashInput (self : TonalPalette F) : List (F ⊕ Int) :=
  if !self.isFromCache then [.inl self.hue, .inl self.chroma]
  else self.getAsList.1.map .inr

end TonalPalette
end Mcu
