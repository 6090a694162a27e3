import Verif.Model.Hct

/-! Model of /repo/src/dislike/dislike_analyzer.rs. -/

namespace Mcu.Dislike

variable {F : Type} [Fl F]

/-- dislike_analyzer.rs 16-22 -/
def isDisliked (hct : Hct F) : Bool :=
  let huePasses := Fl.round hct.getHue ≥ (90.0 : F) && Fl.round hct.getHue ≤ (111.0 : F)
  let chromaPasses := decide (Fl.round hct.getChroma > (16.0 : F))
  let tonePasses := decide (Fl.round hct.getTone < (65.0 : F))
  huePasses && chromaPasses && tonePasses

/-- dislike_analyzer.rs 25-31 -/
def fixIfDisliked (hct : Hct F) : Hct F :=
  if isDisliked hct then Hct.fromHct hct.getHue hct.getChroma 70.0 else hct

end Mcu.Dislike
