import Verif.Spec.Score

/-! The same vocabulary for scoring when hue and chroma of the colours are given by functions, such as the values computed in binary64. -/

namespace Mcu.Spec

/-- What a population map must satisfy: no count is negative, the total is positive and at most 2⁵³. -/
structure Counts (entries : List (Int × Int)) : Prop where
  nonneg : ∀ e ∈ entries, 0 ≤ e.2
  pos : 0 < population entries
  le : population entries ≤ 2 ^ 53

/-- Population of the entries whose hue is in the neighbourhood of the whole degree `n`. -/
noncomputable def populationNearBy (hue : Int → ℝ) (entries : List (Int × Int)) (n : Int) : Int :=
  (entries.map fun e => if Neighbours n ⌊hue e.1⌋ then e.2 else 0).sum

/-- Share of the population in the neighbourhood of the colour's rounded hue. -/
noncomputable def shareBy (hue : Int → ℝ) (entries : List (Int × Int)) (c : Int) : ℝ :=
  (populationNearBy hue entries ⌊hue c + 1 / 2⌋ : ℝ) / (population entries : ℝ)

/-- Score of a colour: 70 times its share, plus its chroma beyond 48 weighted by 0.3, or minus the chroma missing to 48 weighted by 0.1. -/
noncomputable def scoreBy (hue chroma : Int → ℝ) (entries : List (Int × Int)) (c : Int) : ℝ :=
  70 * shareBy hue entries c + (if chroma c < 48 then 0.1 else 0.3) * (chroma c - 48)

/-- With filtering, a colour qualifies for the threshold `t` if it has chroma 5 and a share of more than `t`. -/
def QualifiesBy (hue chroma : Int → ℝ) (t : ℝ) (entries : List (Int × Int)) (filter : Bool) (c : Int) : Prop :=
  filter = true → 5 ≤ chroma c ∧ t < shareBy hue entries c

open Classical in
/-- Going through the list, take every colour that is far from the ones taken. -/
noncomputable def spacedBy (far : Int → Int → Prop) (ranked : List Int) : List Int :=
  ranked.foldl (fun taken c => if ∀ t ∈ taken, far c t then taken ++ [c] else taken) []

theorem shareBy_hueOf : shareBy hueOf = share := rfl

theorem scoreBy_hueOf : scoreBy hueOf chromaOf = scoreOf := rfl

end Mcu.Spec
