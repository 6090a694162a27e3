import Verif.Model.HctSolver

/-! Model of /repo/src/hct/hct.rs. -/

namespace Mcu

/-- hct.rs 11-16 -/
structure Hct (F : Type) where
  hue : F
  chroma : F
  tone : F
  argb : Int

namespace Hct

open ColorUtils HctSolver

variable {F : Type} [Fl F]

/-- hct.rs 104-117 (`Hct::new`) and 42-44 (`Hct::from_int`) -/
def fromInt (argb : Int) : Hct F :=
  let cam16 : Cam16 F := Cam16.fromInt argb
  { hue := cam16.hue, chroma := cam16.chroma, tone := lstarFromArgb argb, argb }

/-- hct.rs 36-39 (`Hct::from`) -/
def fromHct (hue chroma tone : F) : Hct F := fromInt (solveToInt hue chroma tone)

/-- hct.rs 46-48 -/
def toInt (self : Hct F) : Int := self.argb

/-- hct.rs 52-54 -/
def getHue (self : Hct F) : F := self.hue

/-- hct.rs 69-71 -/
def getChroma (self : Hct F) : F := self.chroma

/-- hct.rs 87-89 -/
def getTone (self : Hct F) : F := self.tone

/-- hct.rs 61-67 -/
def setHue (self : Hct F) (newHue : F) : Hct F :=
  let argb := solveToInt newHue self.getChroma self.getTone
  let cam16 : Cam16 F := Cam16.fromInt argb
  { self with argb, hue := cam16.hue, chroma := cam16.chroma, tone := lstarFromArgb argb }

/-- hct.rs 78-84 -/
def setChroma (self : Hct F) (newChroma : F) : Hct F :=
  let argb := solveToInt self.getHue newChroma self.getTone
  let cam16 : Cam16 F := Cam16.fromInt argb
  { self with argb, hue := cam16.hue, chroma := cam16.chroma, tone := lstarFromArgb argb }

/-- hct.rs 96-102 -/
def setTone (self : Hct F) (newTone : F) : Hct F :=
  let argb := solveToInt self.getHue self.getChroma newTone
  let cam16 : Cam16 F := Cam16.fromInt argb
  { self with argb, hue := cam16.hue, chroma := cam16.chroma, tone := lstarFromArgb argb }

/-- hct.rs 130-152 -/
def inViewingConditions (self : Hct F) (vc : ViewingConditions F) : Hct F :=
  let cam16 : Cam16 F := Cam16.fromInt self.toInt
  let viewedInVc := cam16.xyzInViewingConditions vc
  let recastInVc := Cam16.fromXyzInViewingConditions viewedInVc.x0 viewedInVc.x1 viewedInVc.x2
    ViewingConditions.sRgb
  fromHct recastInVc.hue recastInVc.chroma (lstarFromY viewedInVc.x1)

/-- hct.rs 18-23: `==` compares the ARGB integers. -/
def eq (self o : Hct F) : Bool := o.argb == self.argb

/-- hct.rs 24-28: the integer fed to the hasher. -/
def hashInput (self : Hct F) : Int := self.argb

end Hct
end Mcu
