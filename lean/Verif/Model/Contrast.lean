import Verif.Model.ColorUtils

/-! Model of /repo/src/contrast/contrast.rs. -/

namespace Mcu.Contrast

open MathUtils ColorUtils

variable {F : Type} [Fl F]

/-- contrast.rs 27-43 -/
def ratioOfYs (y1 y2 : F) : F :=
  let lighter := if y1 > y2 then y1 else y2
  let darker := if lighter == y2 then y1 else y2
  (lighter + 5.0) / (darker + 5.0)

/-- contrast.rs 18-25 -/
def ratioOfTones (toneA toneB : F) : F :=
  let toneA := clampDouble 0.0 100.0 toneA
  let toneB := clampDouble 0.0 100.0 toneB
  ratioOfYs (yFromLstar toneA) (yFromLstar toneB)

/-- contrast.rs 53-73 -/
def lighter (tone ratio : F) : F :=
  if tone < 0.0 ∨ tone > 100.0 then -1.0
  else
    let darkY := yFromLstar tone
    let lightY := ratio * (darkY + 5.0) - 5.0
    let realContrast := ratioOfYs lightY darkY
    let delta := Fl.abs (realContrast - ratio)
    if realContrast < ratio ∧ delta > 0.04 then -1.0
    else
      let returnValue := lstarFromY lightY + 0.4
      if returnValue < 0.0 ∨ returnValue > 100.0 then -1.0
      else returnValue

/-- contrast.rs 83-104 -/
def darker (tone ratio : F) : F :=
  if tone < 0.0 ∨ tone > 100.0 then -1.0
  else
    let lightY := yFromLstar tone
    let darkY := (lightY + 5.0) / ratio - 5.0
    let realContrast := ratioOfYs lightY darkY
    let delta := Fl.abs (realContrast - ratio)
    if realContrast < ratio ∧ delta > 0.04 then -1.0
    else
      let returnValue := lstarFromY darkY - 0.4
      if returnValue < 0.0 ∨ returnValue > 100.0 then -1.0
      else returnValue

/-- contrast.rs 118-125 -/
def lighterUnsafe (tone ratio : F) : F :=
  let lighterSafe := lighter tone ratio
  if lighterSafe < 0.0 then 100.0 else lighterSafe

/-- contrast.rs 139-142 -/
def darkerUnsafe (tone ratio : F) : F :=
  let darkerSafe := darker tone ratio
  if darkerSafe < 0.0 then 0.0 else darkerSafe

end Mcu.Contrast
