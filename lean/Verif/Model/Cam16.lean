import Verif.Model.ViewingConditions

/-! Model of /repo/src/hct/cam16.rs. -/

namespace Mcu

/-- cam16.rs 30-63 -/
structure Cam16 (F : Type) where
  hue : F
  chroma : F
  j : F
  q : F
  m : F
  s : F
  jstar : F
  astar : F
  bstar : F

namespace Cam16

open MathUtils ColorUtils

variable {F : Type} [Fl F]

/-- cam16.rs 99-106 -/
def distance (self other : Cam16 F) : F :=
  let dJ := self.jstar - other.jstar
  let dA := self.astar - other.astar
  let dB := self.bstar - other.bstar
  let dEprime := Fl.sqrt (dJ * dJ + dA * dA + dB * dB)
  let dE := 1.41 * Fl.powf dEprime 0.63
  dE

/-- cam16.rs 135-151: adapted cone responses of an XYZ colour. -/
def adaptedCones (x y z : F) (vc : ViewingConditions F) : Vec3 F :=
  let rC := 0.401288 * x + 0.650173 * y - 0.051461 * z
  let gC := (-0.250268) * x + 1.204414 * y + 0.045854 * z
  let bC := (-0.002079) * x + 0.048952 * y + 0.953127 * z
  let rD := vc.rgbD.x0 * rC
  let gD := vc.rgbD.x1 * gC
  let bD := vc.rgbD.x2 * bC
  let rAf := Fl.powf (vc.fl * Fl.abs rD / 100.0) 0.42
  let gAf := Fl.powf (vc.fl * Fl.abs gD / 100.0) 0.42
  let bAf := Fl.powf (vc.fl * Fl.abs bD / 100.0) 0.42
  let rA := Fl.ofInt (signum rD) * 400.0 * rAf / (rAf + 27.13)
  let gA := Fl.ofInt (signum gD) * 400.0 * gAf / (gAf + 27.13)
  let bA := Fl.ofInt (signum bD) * 400.0 * bAf / (bAf + 27.13)
  ⟨rA, gA, bA⟩

/-- cam16.rs 162-173: hue in degrees from the opponent coordinates `a`, `b`. -/
def hueDegrees (a b : F) : F :=
  let atan2 := Fl.atan2 b a
  let atanDegrees := atan2 * 180.0 / Fl.pi
  if atanDegrees < 0.0 then atanDegrees + 360.0
  else if atanDegrees ≥ 360.0 then atanDegrees - 360.0
  else atanDegrees

/-- The condition of the assertion on cam16.rs 176. -/
def hueAssert (hue : F) : Prop := hue ≥ 0.0 ∧ hue < 360.0

/-- cam16.rs 129-212.  The assertion on line 176 is not part of this total function; that it holds is
property C27 (`hueAssert` of the resulting hue). -/
def fromXyzInViewingConditions (x y z : F) (vc : ViewingConditions F) : Cam16 F :=
  let adapted := adaptedCones x y z vc
  let rA := adapted.x0
  let gA := adapted.x1
  let bA := adapted.x2
  let a := (11.0 * rA + (-12.0) * gA + bA) / 11.0
  let b := (rA + gA - 2.0 * bA) / 9.0
  let u := (20.0 * rA + 20.0 * gA + 21.0 * bA) / 20.0
  let p2 := (40.0 * rA + 20.0 * gA + bA) / 20.0
  let hue := hueDegrees a b
  let hueRadians := hue * Fl.pi / 180.0
  let ac := p2 * vc.nbb
  let j := 100.0 * Fl.powf (ac / vc.aw) (vc.c * vc.z)
  let q := (4.0 / vc.c) * Fl.sqrt (j / 100.0) * (vc.aw + 4.0) * vc.fLroot
  let huePrime := if hue < 20.14 then hue + 360.0 else hue
  let eHue := (1.0 / 4.0) * (Fl.cos (huePrime * Fl.pi / 180.0 + 2.0) + 3.8)
  let p1 := 50000.0 / 13.0 * eHue * vc.nC * vc.ncb
  let t := p1 * Fl.sqrt (a * a + b * b) / (u + 0.305)
  let alpha := Fl.powf t 0.9 * Fl.powf (1.64 - Fl.powf 0.29 vc.backgroundYToWhitePointY) 0.73
  let c := alpha * Fl.sqrt (j / 100.0)
  let m := c * vc.fLroot
  let s := 50.0 * Fl.sqrt ((alpha * vc.c) / (vc.aw + 4.0))
  let jstar := (1.0 + 100.0 * 0.007) * j / (1.0 + 0.007 * j)
  let mstar := Fl.ln (1.0 + 0.0228 * m) / 0.0228
  let astar := mstar * Fl.cos hueRadians
  let bstar := mstar * Fl.sin hueRadians
  { hue, chroma := c, j, q, m, s, jstar, astar, bstar }

/-- cam16.rs 115-125 -/
def fromIntInViewingConditions (argb : Int) (vc : ViewingConditions F) : Cam16 F :=
  let xyz : Vec3 F := xyzFromArgb argb
  fromXyzInViewingConditions xyz.x0 xyz.x1 xyz.x2 vc

/-- cam16.rs 110-112 -/
def fromInt (argb : Int) : Cam16 F :=
  fromIntInViewingConditions argb ViewingConditions.sRgb

/-- cam16.rs 222-242 -/
def fromJchInViewingConditions (j c h : F) (vc : ViewingConditions F) : Cam16 F :=
  let q := (4.0 / vc.c) * Fl.sqrt (j / 100.0) * (vc.aw + 4.0) * vc.fLroot
  let m := c * vc.fLroot
  let alpha := c / Fl.sqrt (j / 100.0)
  let s := 50.0 * Fl.sqrt ((alpha * vc.c) / (vc.aw + 4.0))
  let hueRadians := h * Fl.pi / 180.0
  let jstar := (1.0 + 100.0 * 0.007) * j / (1.0 + 0.007 * j)
  let mstar := 1.0 / 0.0228 * Fl.ln (1.0 + 0.0228 * m)
  let astar := mstar * Fl.cos hueRadians
  let bstar := mstar * Fl.sin hueRadians
  { hue := h, chroma := c, j, q, m, s, jstar, astar, bstar }

/-- cam16.rs 216-218 -/
def fromJch (j c h : F) : Cam16 F := fromJchInViewingConditions j c h ViewingConditions.sRgb

/-- cam16.rs 257-275 -/
def fromUcsInViewingConditions (jstar astar bstar : F) (vc : ViewingConditions F) : Cam16 F :=
  let a := astar
  let b := bstar
  let m := Fl.sqrt (a * a + b * b)
  let m := (Fl.exp (m * 0.0228) - 1.0) / 0.0228
  let c := m / vc.fLroot
  let h := Fl.atan2 b a * (180.0 / Fl.pi)
  let h := if h < 0.0 then h + 360.0 else h
  let j := jstar / (1.0 - (jstar - 100.0) * 0.007)
  fromJchInViewingConditions j c h vc

/-- cam16.rs 246-253 -/
def fromUcs (jstar astar bstar : F) : Cam16 F :=
  fromUcsInViewingConditions jstar astar bstar ViewingConditions.sRgb

/-- cam16.rs 334-345: one channel of the inverse of the cone response compression. -/
def invCone (cA fl : F) : F :=
  let cbase := Fl.fmax 0.0 ((27.13 * Fl.abs cA) / (400.0 - Fl.abs cA))
  Fl.ofInt (signum cA) * (100.0 / fl) * Fl.powf cbase (1.0 / 0.42)

/-- cam16.rs 299-363.  (The `array` argument only chooses between two ways of returning the same three
numbers, lines 354-362.) -/
def xyzInViewingConditions (self : Cam16 F) (vc : ViewingConditions F) : Vec3 F :=
  let alpha : F :=
    if self.chroma == 0.0 || self.j == 0.0 then 0.0
    else self.chroma / Fl.sqrt (self.j / 100.0)
  let t := Fl.powf (alpha / Fl.powf (1.64 - Fl.powf 0.29 vc.backgroundYToWhitePointY) 0.73)
    (1.0 / 0.9)
  let hRad := self.hue * Fl.pi / 180.0
  let eHue := 0.25 * (Fl.cos (hRad + 2.0) + 3.8)
  let ac := vc.aw * Fl.powf (self.j / 100.0) (1.0 / vc.c / vc.z)
  let p1 := eHue * (50000.0 / 13.0) * vc.nC * vc.ncb
  let p2 := ac / vc.nbb
  let hSin := Fl.sin hRad
  let hCos := Fl.cos hRad
  let gamma := 23.0 * (p2 + 0.305) * t / (23.0 * p1 + 11.0 * t * hCos + 108.0 * t * hSin)
  let a := gamma * hCos
  let b := gamma * hSin
  let rA := (460.0 * p2 + 451.0 * a + 288.0 * b) / 1403.0
  let gA := (460.0 * p2 - 891.0 * a - 261.0 * b) / 1403.0
  let bA := (460.0 * p2 - 220.0 * a - 6300.0 * b) / 1403.0
  let rC := invCone rA vc.fl
  let gC := invCone gA vc.fl
  let bC := invCone bA vc.fl
  let rF := rC / vc.rgbD.x0
  let gF := gC / vc.rgbD.x1
  let bF := bC / vc.rgbD.x2
  let x := 1.86206786 * rF - 1.01125463 * gF + 0.14918677 * bF
  let y := 0.38752654 * rF + 0.62144744 * gF - 0.00897398 * bF
  let z := (-0.01584150) * rF - 0.03412294 * gF + 1.04996444 * bF
  ⟨x, y, z⟩

/-- cam16.rs 288-296 -/
def viewed (self : Cam16 F) (vc : ViewingConditions F) : Int :=
  let xyz := xyzInViewingConditions self vc
  argbFromXyz xyz.x0 xyz.x1 xyz.x2

/-- cam16.rs 279-281 -/
def toInt (self : Cam16 F) : Int := viewed self ViewingConditions.sRgb

end Cam16
end Mcu
