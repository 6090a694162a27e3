import Verif.Model.Cam16
import Verif.FlReal

/-! Specification vocabulary for scoring colours by their use in an image. -/

namespace Mcu.Spec

/-- CAM16 hue of a colour, in degrees. -/
noncomputable def hueOf (c : Int) : ℝ := (Cam16.fromInt c : Cam16 ℝ).hue

/-- CAM16 chroma of a colour. -/
noncomputable def chromaOf (c : Int) : ℝ := (Cam16.fromInt c : Cam16 ℝ).chroma

/-- The whole degree `n` is one of the thirty degrees from 14 below to 15 above the whole degree `m`. -/
def Neighbours (n m : Int) : Prop := (n - m + 14) % 360 < 30

instance (n m : Int) : Decidable (Neighbours n m) := by unfold Neighbours; infer_instance

/-- Total population of the entries. -/
def population (entries : List (Int × Int)) : Int := (entries.map Prod.snd).sum

/-- Population of the entries whose hue is in the neighbourhood of the whole degree `n`. -/
noncomputable def populationNear (entries : List (Int × Int)) (n : Int) : Int :=
  (entries.map fun e => if Neighbours n ⌊hueOf e.1⌋ then e.2 else 0).sum

/-- Share of the population in the neighbourhood of the colour's rounded hue. -/
noncomputable def share (entries : List (Int × Int)) (c : Int) : ℝ :=
  (populationNear entries ⌊hueOf c + 1 / 2⌋ : ℝ) / (population entries : ℝ)

/-- Score of a colour: 70 times its share, plus its chroma beyond 48 weighted by 0.3, or minus the chroma
missing to 48 weighted by 0.1. -/
noncomputable def scoreOf (entries : List (Int × Int)) (c : Int) : ℝ :=
  70 * share entries c + (if chromaOf c < 48 then 0.1 else 0.3) * (chromaOf c - 48)

/-- With filtering, a colour qualifies if it has chroma 5 and a share of more than one percent. -/
def Qualifies (entries : List (Int × Int)) (filter : Bool) (c : Int) : Prop :=
  filter = true → 5 ≤ chromaOf c ∧ 0.01 < share entries c

/-- Distance of two hues on the circle. -/
noncomputable def hueDistance (a b : ℝ) : ℝ := min |a - b| (360 - |a - b|)

open Classical in
/-- Going through the list, take every colour whose hue is at least `d` degrees from the ones taken. -/
noncomputable def spaced (d : ℝ) (ranked : List Int) : List Int :=
  ranked.foldl (fun taken c => if ∀ t ∈ taken, d ≤ hueDistance (hueOf c) (hueOf t) then taken ++ [c] else taken) []

end Mcu.Spec
