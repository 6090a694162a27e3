import Verif.Model.MathUtils

/-! Model of /repo/src/utils/color_utils.rs.

`i64` colours are `Int`; bit operations are written arithmetically (`& 255` is `% 256`, `>> n` is
floor division by `2^n`, or-ing disjoint bytes is addition).  `Verif/Props/Bits.lean` proves that on
every `i64` this is what the two's complement operations of the Rust source compute. -/

namespace Mcu.ColorUtils

open MathUtils

variable {F : Type} [Fl F]

/-- color_utils.rs 9-15 -/
def srgbToXyz : Vec3 (Vec3 F) :=
  ⟨⟨0.41233895, 0.35762064, 0.18051042⟩,
   ⟨0.2126, 0.7152, 0.0722⟩,
   ⟨0.01932141, 0.11916382, 0.95034478⟩⟩

/-- color_utils.rs 17-31 -/
def xyzToSrgb : Vec3 (Vec3 F) :=
  ⟨⟨3.2413774792388685, -1.5376652402851851, -0.49885366846268053⟩,
   ⟨-0.9691452513005321, 1.8758853451067872, 0.04156585616912061⟩,
   ⟨0.05562093689691305, -0.20395524564742123, 1.0571799111220335⟩⟩

/-- color_utils.rs 33-35 and 224-226 (`white_point_d65`) -/
def whitePointD65 : Vec3 F := ⟨95.047, 100.0, 108.883⟩

/-- color_utils.rs 38-40: `255 << 24 | (red & 255) << 16 | (green & 255) << 8 | blue & 255` -/
def argbFromRgb (red green blue : Int) : Int :=
  255 * 16777216 + (red % 256) * 65536 + (green % 256) * 256 + blue % 256

/-- color_utils.rs 50-52: `argb >> 24 & 255` -/
def alphaFromArgb (argb : Int) : Int := argb / 16777216 % 256

/-- color_utils.rs 55-57: `argb >> 16 & 255` -/
def redFromArgb (argb : Int) : Int := argb / 65536 % 256

/-- color_utils.rs 60-62: `argb >> 8 & 255` -/
def greenFromArgb (argb : Int) : Int := argb / 256 % 256

/-- color_utils.rs 65-67: `argb & 255` -/
def blueFromArgb (argb : Int) : Int := argb % 256

/-- color_utils.rs 70-72 -/
def isOpaque (argb : Int) : Bool := alphaFromArgb argb ≥ 255

/-- color_utils.rs 228-237 -/
def labF (t : F) : F :=
  let e : F := 216.0 / 24389.0
  let kappa : F := 24389.0 / 27.0
  if t > e then Fl.powf t (1.0 / 3.0)
  else (kappa * t + 16.0) / 116.0

/-- color_utils.rs 239-248 -/
def labInvf (ft : F) : F :=
  let e : F := 216.0 / 24389.0
  let kappa : F := 24389.0 / 27.0
  let ft3 := ft * ft * ft
  if ft3 > e then ft3
  else (116.0 * ft - 16.0) / kappa

/-- color_utils.rs 194-201 -/
def linearized (rgbComponent : Int) : F :=
  let normalized : F := Fl.ofInt rgbComponent / 255.0
  if normalized ≤ 0.040449936 then normalized / 12.92 * 100.0
  else Fl.powf ((normalized + 0.055) / 1.055) 2.4 * 100.0

/-- color_utils.rs 209-219 -/
def delinearized (rgbComponent : F) : Int :=
  let normalized := rgbComponent / 100.0
  let delinearized : F :=
    if normalized ≤ 0.0031308 then normalized * 12.92
    else 1.055 * Fl.powf normalized (1.0 / 2.4) - 0.055
  clampInt 0 255 (Fl.toI64 (Fl.round (delinearized * 255.0)))

/-- color_utils.rs 42-47 -/
def argbFromLinrgb (linrgb : Vec3 F) : Int :=
  let r := delinearized linrgb.x0
  let g := delinearized linrgb.x1
  let b := delinearized linrgb.x2
  argbFromRgb r g b

/-- color_utils.rs 75-84 -/
def argbFromXyz (x y z : F) : Int :=
  let m : Vec3 (Vec3 F) := xyzToSrgb
  let linearR := m.x0.x0 * x + m.x0.x1 * y + m.x0.x2 * z
  let linearG := m.x1.x0 * x + m.x1.x1 * y + m.x1.x2 * z
  let linearB := m.x2.x0 * x + m.x2.x1 * y + m.x2.x2 * z
  let r := delinearized linearR
  let g := delinearized linearG
  let b := delinearized linearB
  argbFromRgb r g b

/-- color_utils.rs 87-98 -/
def xyzFromArgb (argb : Int) : Vec3 F :=
  let r : F := linearized (redFromArgb argb)
  let g : F := linearized (greenFromArgb argb)
  let b : F := linearized (blueFromArgb argb)
  matrixMultiply ⟨r, g, b⟩ srgbToXyz

/-- color_utils.rs 102-114 -/
def argbFromLab (l a b : F) : Int :=
  let whitePoint : Vec3 F := whitePointD65
  let fy := (l + 16.0) / 116.0
  let fx := a / 500.0 + fy
  let fz := fy - b / 200.0
  let xNormalized := labInvf fx
  let yNormalized := labInvf fy
  let zNormalized := labInvf fz
  let x := xNormalized * whitePoint.x0
  let y := yNormalized * whitePoint.x1
  let z := zNormalized * whitePoint.x2
  argbFromXyz x y z

/-- color_utils.rs 121-140 -/
def labFromArgb (argb : Int) : Vec3 F :=
  let linearR : F := linearized (redFromArgb argb)
  let linearG : F := linearized (greenFromArgb argb)
  let linearB : F := linearized (blueFromArgb argb)
  let m : Vec3 (Vec3 F) := srgbToXyz
  let x := m.x0.x0 * linearR + m.x0.x1 * linearG + m.x0.x2 * linearB
  let y := m.x1.x0 * linearR + m.x1.x1 * linearG + m.x1.x2 * linearB
  let z := m.x2.x0 * linearR + m.x2.x1 * linearG + m.x2.x2 * linearB
  let whitePoint : Vec3 F := whitePointD65
  let xNormalized := x / whitePoint.x0
  let yNormalized := y / whitePoint.x1
  let zNormalized := z / whitePoint.x2
  let fx := labF xNormalized
  let fy := labF yNormalized
  let fz := labF zNormalized
  let l := 116.0 * fy - 16.0
  let a := 500.0 * (fx - fy)
  let b := 200.0 * (fy - fz)
  ⟨l, a, b⟩

/-- color_utils.rs 171-173 -/
def yFromLstar (lstar : F) : F := 100.0 * labInvf ((lstar + 16.0) / 116.0)

/-- color_utils.rs 184-186 -/
def lstarFromY (y : F) : F := labF (y / 100.0) * 116.0 - 16.0

/-- color_utils.rs 147-151 -/
def argbFromLstar (lstar : F) : Int :=
  let y := yFromLstar lstar
  let component := delinearized y
  argbFromRgb component component component

/-- color_utils.rs 157-160 -/
def lstarFromArgb (argb : Int) : F :=
  let y : F := (xyzFromArgb argb).x1
  116.0 * labF (y / 100.0) - 16.0

end Mcu.ColorUtils
