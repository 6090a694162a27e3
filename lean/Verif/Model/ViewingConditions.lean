import Verif.Model.ColorUtils

/-! Model of /repo/src/hct/viewing_conditions.rs. -/

namespace Mcu

/-- viewing_conditions.rs 14-31.  (`drgb_inverse` is the constant zero vector in Rust, line 177, and is
never read; it is kept.) -/
structure ViewingConditions (F : Type) where
  whitePoint : Vec3 F
  adaptingLuminance : F
  backgroundLstar : F
  surround : F
  discountingIlluminant : Bool
  backgroundYToWhitePointY : F
  aw : F
  nbb : F
  ncb : F
  c : F
  nC : F
  drgbInverse : Vec3 F
  rgbD : Vec3 F
  fl : F
  fLroot : F
  z : F

namespace ViewingConditions

open MathUtils ColorUtils

variable {F : Type} [Fl F]

/-- viewing_conditions.rs 48-183 without the assertion on line 79. -/
def makeCore (whitePoint : Option (Vec3 F)) (adaptingLuminance backgroundLstar surround : Option F)
    (discountingIlluminant : Option Bool) : ViewingConditions F :=
  let adaptingLuminance : F :=
    let adaptingLuminance := adaptingLuminance.getD (-1.0)
    if adaptingLuminance > 0.0 then adaptingLuminance
    else 200.0 / Fl.pi * yFromLstar 50.0 / 100.0
  let backgroundLstar := backgroundLstar.getD 50.0
  let surround := surround.getD 2.0
  let discountingIlluminant := discountingIlluminant.getD false
  let whitePoint := whitePoint.getD whitePointD65
  let backgroundLstar := Fl.fmax 0.1 backgroundLstar
  let xyz := whitePoint
  let rW := xyz.x0 * 0.401288 + xyz.x1 * 0.650173 + xyz.x2 * (-0.051461)
  let gW := xyz.x0 * (-0.250268) + xyz.x1 * 1.204414 + xyz.x2 * 0.045854
  let bW := xyz.x0 * (-0.002079) + xyz.x1 * 0.048952 + xyz.x2 * 0.953127
  let f := 0.8 + surround / 10.0
  let c : F :=
    if f ≥ 0.9 then lerp 0.59 0.69 ((f - 0.9) * 10.0)
    else lerp 0.525 0.59 ((f - 0.8) * 10.0)
  let d : F :=
    if discountingIlluminant then 1.0
    else f * (1.0 - (1.0 / 3.6) * Fl.exp ((-adaptingLuminance - 42.0) / 92.0))
  let d : F := if d > 1.0 then 1.0 else if d < 0.0 then 0.0 else d
  let nC := f
  let rgbD : Vec3 F :=
    ⟨d * (100.0 / rW) + 1.0 - d, d * (100.0 / gW) + 1.0 - d, d * (100.0 / bW) + 1.0 - d⟩
  let k := 1.0 / (5.0 * adaptingLuminance + 1.0)
  let k4 := k * k * k * k
  let k4F := 1.0 - k4
  let fl := k4 * adaptingLuminance
    + 0.1 * k4F * k4F * Fl.powf (5.0 * adaptingLuminance) (1.0 / 3.0)
  let n := yFromLstar backgroundLstar / whitePoint.x1
  let z := 1.48 + Fl.sqrt n
  let nbb := 0.725 / Fl.powf n 0.2
  let ncb := nbb
  let rAf := Fl.powf (fl * rgbD.x0 * rW / 100.0) 0.42
  let gAf := Fl.powf (fl * rgbD.x1 * gW / 100.0) 0.42
  let bAf := Fl.powf (fl * rgbD.x2 * bW / 100.0) 0.42
  let rA := (400.0 * rAf) / (rAf + 27.13)
  let gA := (400.0 * gAf) / (gAf + 27.13)
  let bA := (400.0 * bAf) / (bAf + 27.13)
  let aw := (40.0 * rA + 20.0 * gA + bA) / 20.0 * nbb
  { whitePoint, adaptingLuminance, backgroundLstar, surround, discountingIlluminant,
    backgroundYToWhitePointY := n, aw, nbb, ncb, c, nC,
    drgbInverse := ⟨0.0, 0.0, 0.0⟩, rgbD, fl, fLroot := Fl.powf fl 0.25, z }

/-- viewing_conditions.rs 48-183.  `none` is the panic of the assertion on line 79. -/
def make (whitePoint : Option (Vec3 F)) (adaptingLuminance backgroundLstar surround : Option F)
    (discountingIlluminant : Option Bool) : Option (ViewingConditions F) :=
  let s : F := surround.getD 2.0
  if s ≥ 0.0 ∧ s ≤ 2.0 then
    some (makeCore whitePoint adaptingLuminance backgroundLstar surround discountingIlluminant)
  else none

/-- viewing_conditions.rs 33-35 (and `standard`, 36-38).  The assertion is about the constant 2.0 here
and holds for IEEE doubles, so the total `makeCore` is used (`make_default_isSome` in
Props/ViewingConditions.lean for the reals). -/
def sRgb : ViewingConditions F := makeCore none none none none none

end ViewingConditions
end Mcu
