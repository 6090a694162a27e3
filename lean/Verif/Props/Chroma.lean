import Verif.Lemmas.Chroma

/-! Property C68: which colours have no chroma. -/

namespace Mcu.Props

open Lemmas ColorUtils

/-- C68: over the reals, the measured chroma of a colour is 0 exactly for black; every other gray has some. -/
theorem c68_only_black (argb : Int) : (Hct.fromInt argb : Hct ℝ).getChroma = 0 ↔ argb % 2 ^ 24 = 0 := by
  constructor
  · intro h
    by_contra hn
    have : 0 < (Hct.fromInt argb : Hct ℝ).getChroma := chroma_pos argb (fun hz => hn (by
      simp only [redFromArgb, greenFromArgb, blueFromArgb] at hz; omega))
    linarith
  · intro h
    refine chroma_black argb ?_ ?_ ?_ <;> simp only [redFromArgb, greenFromArgb, blueFromArgb] <;> omega

/-- C68: no colour has negative chroma. -/
theorem c68_nonneg (argb : Int) : 0 ≤ (Hct.fromInt argb : Hct ℝ).getChroma := by
  by_cases h : argb % 2 ^ 24 = 0
  · rw [(c68_only_black argb).2 h]
  · refine le_of_lt (chroma_pos argb (fun hz => h ?_))
    simp only [redFromArgb, greenFromArgb, blueFromArgb] at hz; omega

/-- White has chroma. -/
example : (Hct.fromInt 0xFFFFFFFF : Hct ℝ).getChroma ≠ 0 := fun h => by
  have := (c68_only_black _).1 h
  norm_num at this

end Mcu.Props
