import Verif.Props.Contrast

/-! Contrast ratios of tones that are given by numbers. -/

namespace Mcu.Lemmas

open Contrast ColorUtils Props

/-- Luminance of a tone above 8. -/
theorem y_cube {t : ℝ} (h : 8 < t) : yFromLstar t = 100 * ((t + 16) / 116) ^ 3 := by
  rw [yFromLstar_eq, labInvf_of_gt]
  have : (24 : ℝ) / 116 < (t + 16) / 116 := by linarith
  norm_num at this ⊢
  linarith

theorem y_eight : yFromLstar (8 : ℝ) = 100 * (24 / 116 : ℝ) ^ 3 := by
  rw [yFromLstar_eq, labInvf_of_le] <;> norm_num

/-- Contrast of a light and a dark tone, from their luminances. -/
theorem ratio_ge {a b k : ℝ} (hab : b ≤ a) (hb : 0 ≤ b) (ha : a ≤ 100)
    (h : k * (yFromLstar b + 5) ≤ yFromLstar a + 5) : k ≤ ratioOfTones a b := by
  rw [ratioOfTones_of_le (clampTone_mono hab), clampTone_of_mem (by linarith) ha, clampTone_of_mem hb (by linarith)]
  rw [le_div_iff₀ (by linarith [(y_range hb (by linarith)).1])]
  exact h

theorem ratio_lt {a b k : ℝ} (hab : b ≤ a) (hb : 0 ≤ b) (ha : a ≤ 100)
    (h : yFromLstar a + 5 < k * (yFromLstar b + 5)) : ratioOfTones a b < k := by
  rw [ratioOfTones_of_le (clampTone_mono hab), clampTone_of_mem (by linarith) ha, clampTone_of_mem hb (by linarith)]
  rw [div_lt_iff₀ (by linarith [(y_range hb (by linarith)).1])]
  exact h

/-- Both tones above 8: a cubic inequality. -/
theorem ratio_ge_cube {a b k : ℝ} (hab : b ≤ a) (hb : 8 < b) (ha : a ≤ 100)
    (h : k * (100 * ((b + 16) / 116) ^ 3 + 5) ≤ 100 * ((a + 16) / 116) ^ 3 + 5) : k ≤ ratioOfTones a b :=
  ratio_ge hab (by linarith) ha (by rw [y_cube hb, y_cube (by linarith)]; exact h)

theorem ratio_lt_cube {a b k : ℝ} (hab : b ≤ a) (hb : 8 < b) (ha : a ≤ 100)
    (h : 100 * ((a + 16) / 116) ^ 3 + 5 < k * (100 * ((b + 16) / 116) ^ 3 + 5)) : ratioOfTones a b < k :=
  ratio_lt hab (by linarith) ha (by rw [y_cube hb, y_cube (by linarith)]; exact h)

end Mcu.Lemmas
