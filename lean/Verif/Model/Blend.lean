import Verif.Model.Hct

/-! Model of /repo/src/blend/blend.rs. -/

namespace Mcu.Blend

open MathUtils ColorUtils

variable {F : Type} [Fl F]

/-- The type `F` of the intermediate numbers does not occur in the signature of the Rust functions
(`i64` in, `i64` out), so it is an explicit argument here.  blend.rs 18-30: the rotated hue. -/
def harmonizedHue (fromHue toHue : F) : F :=
  let difference := differenceDegrees fromHue toHue
  let rotation := Fl.fmin (difference * 0.5) 15.0
  sanitizeDegreesDouble (fromHue + rotation * rotationDirection fromHue toHue)

/-- blend.rs 18-30 -/
def harmonize (F : Type) [Fl F] (designColor sourceColor : Int) : Int :=
  let fromHct : Hct F := Hct.fromInt designColor
  let toHct : Hct F := Hct.fromInt sourceColor
  let outputHue := harmonizedHue fromHct.getHue toHct.getHue
  (Hct.fromHct outputHue fromHct.getChroma fromHct.getTone).toInt

/-- blend.rs 59-72 -/
def cam16Ucs (fromC toC : Int) (amount : F) : Int :=
  let fromCam : Cam16 F := Cam16.fromInt fromC
  let toCam : Cam16 F := Cam16.fromInt toC
  let jstar := fromCam.jstar + (toCam.jstar - fromCam.jstar) * amount
  let astar := fromCam.astar + (toCam.astar - fromCam.astar) * amount
  let bstar := fromCam.bstar + (toCam.bstar - fromCam.bstar) * amount
  (Cam16.fromUcs jstar astar bstar).toInt

/-- blend.rs 40-50 -/
def hctHue (fromC toC : Int) (amount : F) : Int :=
  let ucs := cam16Ucs fromC toC amount
  let ucsCam : Cam16 F := Cam16.fromInt ucs
  let fromCam : Cam16 F := Cam16.fromInt fromC
  (Hct.fromHct ucsCam.hue fromCam.chroma (lstarFromArgb fromC)).toInt

end Mcu.Blend
