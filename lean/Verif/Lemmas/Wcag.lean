import Verif.Lemmas.Readable
import Verif.Spec.Wcag

/-! The contrast of colours and of their tones. -/

namespace Mcu.Lemmas

open Contrast ColorUtils Props Spec

theorem linearLight_eq (c : Int) : (linearized c : ℝ) = 100 * linearLight c := by
  unfold linearLight
  rcases le_or_gt c 10 with h | h
  · have hc : (c : ℝ) ≤ 10 := by exact_mod_cast h
    rw [linearized_small h, if_pos (by norm_num; linarith)]
    ring
  · have hc : (11 : ℝ) ≤ c := by exact_mod_cast h
    rw [linearized_large h, if_neg (by norm_num; linarith)]
    unfold gpow
    ring

theorem relativeLuminance_eq (argb : Int) : (xyzFromArgb argb : Vec3 ℝ).x1 = 100 * relativeLuminance argb := by
  rw [luminance_eq, linearLight_eq, linearLight_eq, linearLight_eq]
  simp only [relativeLuminance, redFromArgb, greenFromArgb, blueFromArgb]
  norm_num
  ring

theorem relativeLuminance_range (argb : Int) : 0 ≤ relativeLuminance argb ∧ relativeLuminance argb ≤ 1 := by
  have := luminance_range argb
  rw [relativeLuminance_eq] at this
  constructor <;> linarith [this.1, this.2]

theorem y_of_tone (argb : Int) : yFromLstar (lstarFromArgb argb : ℝ) = 100 * relativeLuminance argb := by
  rw [lstarFromArgb_eq, c11_y_lstar_y, relativeLuminance_eq]

/-- The contrast of the tones of two colours is the contrast of the colours. -/
theorem ratio_eq_wcag (a b : Int) : ratioOfTones (lstarFromArgb a : ℝ) (lstarFromArgb b) = wcagContrast a b := by
  have main (a b : Int) (h : (lstarFromArgb b : ℝ) ≤ lstarFromArgb a) :
      ratioOfTones (lstarFromArgb a : ℝ) (lstarFromArgb b) = wcagContrast a b := by
    have ra := c15_range a
    have rb := c15_range b
    rw [ratioOfTones_of_le (clampTone_mono h), clampTone_of_mem ra.1 ra.2, clampTone_of_mem rb.1 rb.2, y_of_tone, y_of_tone]
    have hy := c11_strictMono.1.monotone h
    rw [y_of_tone, y_of_tone] at hy
    have hl : relativeLuminance b ≤ relativeLuminance a := by linarith
    have h0 := (relativeLuminance_range b).1
    rw [wcagContrast, max_eq_left hl, min_eq_right hl, div_eq_div_iff (by linarith) (by norm_num; linarith)]
    norm_num
    ring
  rcases le_total (lstarFromArgb b : ℝ) (lstarFromArgb a) with h | h
  · exact main a b h
  · rw [c17_symm, main b a h, wcagContrast, wcagContrast, max_comm, min_comm]

theorem y_line {t : ℝ} (h : t ≤ 8) : yFromLstar t = 2700 / 24389 * t := by
  rw [yFromLstar_eq, labInvf_of_le]
  · norm_num; ring
  · have : (t + 16) / 116 ≤ 24 / 116 := by linarith
    norm_num at this ⊢
    linarith

/-- Changing a tone by at most 0.84 changes the luminance, plus 5, by at most 3.22 %. -/
theorem y_close {t u : ℝ} (h0 : 0 ≤ t) (h : u ≤ t + 0.84) : yFromLstar u + 5 ≤ 1.0322 * (yFromLstar t + 5) := by
  refine (add_le_add_left (c11_strictMono.1.monotone h) 5).trans ?_
  rcases le_or_gt t 8 with ht | ht
  · rw [y_line ht]
    rcases le_or_gt (t + 0.84) 8 with hu | hu
    · rw [y_line hu]
      norm_num
      linarith
    · rw [y_cube hu]
      have e : ((t + 0.84 + 16) / 116 : ℝ) ≤ 24 / 116 + 0.84 / 116 := by norm_num; linarith
      have e0 : (0 : ℝ) ≤ (t + 0.84 + 16) / 116 - 24 / 116 := by norm_num at hu ⊢; linarith
      generalize hw : ((t + 0.84 + 16) / 116 : ℝ) - 24 / 116 = w at e0
      have ew : ((t + 0.84 + 16) / 116 : ℝ) = w + 24 / 116 := by linarith
      have et : t = 116 * w + 8 - 0.84 := by rw [← hw]; ring
      rw [ew, et]
      have w1 : w ≤ 0.84 / 116 := by linarith
      norm_num at w1 ⊢
      nlinarith [mul_nonneg e0 e0, mul_nonneg e0 (sub_nonneg.2 w1), mul_nonneg (mul_nonneg e0 e0) (sub_nonneg.2 w1)]
  · rw [y_cube ht, y_cube (by norm_num; linarith)]
    generalize hw : ((t + 16) / 116 : ℝ) = w
    have hw0 : 24 / 116 < w := by rw [← hw]; linarith
    rw [show ((t + 0.84 + 16) / 116 : ℝ) = w + 0.84 / 116 by rw [← hw]; norm_num; ring]
    norm_num
    nlinarith [mul_nonneg (show (0 : ℝ) ≤ w + 1 / 4 by linarith) (sq_nonneg (w - 0.457)), sq_nonneg (w - 0.457),
      mul_nonneg (show (0 : ℝ) ≤ w by linarith) (sq_nonneg (w - 0.457))]

theorem ratio_bound {a b : ℝ} (ha : 0 ≤ a ∧ a ≤ 100) (hb : 0 ≤ b ∧ b ≤ 100) :
    ratioOfTones a b ≥ (yFromLstar a + 5) / (yFromLstar b + 5) := by
  rcases le_total b a with h | h
  · rw [ratioOfTones_of_le (clampTone_mono h), clampTone_of_mem ha.1 ha.2, clampTone_of_mem hb.1 hb.2]
  · refine ge_trans (c17_range a b).1 ?_
    rw [div_le_one (by linarith [(y_range hb.1 hb.2).1])]
    linarith [c11_strictMono.1.monotone h]

/-- If two tones move by at most 0.84, their contrast shrinks by less than 7 %. -/
theorem ratio_close {a b a' b' : ℝ} (ha : 0 ≤ a ∧ a ≤ 100) (hb : 0 ≤ b ∧ b ≤ 100) (ha' : 0 ≤ a' ∧ a' ≤ 100)
    (hb' : 0 ≤ b' ∧ b' ≤ 100) (h1 : |a' - a| ≤ 0.84) (h2 : |b' - b| ≤ 0.84) :
    ratioOfTones a b ≤ 1.0322 ^ 2 * ratioOfTones a' b' := by
  have main (a b a' b' : ℝ) (ha : 0 ≤ a ∧ a ≤ 100) (hb : 0 ≤ b ∧ b ≤ 100) (ha' : 0 ≤ a' ∧ a' ≤ 100)
      (hb' : 0 ≤ b' ∧ b' ≤ 100) (h1 : |a' - a| ≤ 0.84) (h2 : |b' - b| ≤ 0.84) (h : b ≤ a) :
      ratioOfTones a b ≤ 1.0322 ^ 2 * ratioOfTones a' b' := by
    have h1 := abs_le.1 h1
    have h2 := abs_le.1 h2
    have ya := y_close ha'.1 (show a ≤ a' + 0.84 by linarith [h1.1])
    have yb := y_close hb.1 (show b' ≤ b + 0.84 by linarith [h2.2])
    have p1 := (y_range ha'.1 ha'.2).1
    have p2 := (y_range hb.1 hb.2).1
    have p3 := (y_range hb'.1 hb'.2).1
    have hr := ratio_bound ha' hb'
    rw [ratioOfTones_of_le (clampTone_mono h), clampTone_of_mem ha.1 ha.2, clampTone_of_mem hb.1 hb.2]
    calc (yFromLstar a + 5) / (yFromLstar b + 5) ≤ 1.0322 ^ 2 * ((yFromLstar a' + 5) / (yFromLstar b' + 5)) := by
          rw [← mul_div_assoc, div_le_div_iff₀ (by linarith) (by linarith)]
          calc (yFromLstar a + 5) * (yFromLstar b' + 5) ≤ (1.0322 * (yFromLstar a' + 5)) * (1.0322 * (yFromLstar b + 5)) := by
                apply mul_le_mul ya yb (by linarith); norm_num; linarith
            _ = _ := by ring
      _ ≤ _ := by
          apply mul_le_mul_of_nonneg_left hr; norm_num
  rcases le_total b a with h | h
  · exact main a b a' b' ha hb ha' hb' h1 h2 h
  · rw [c17_symm a b, c17_symm a' b']
    exact main b a b' a' hb ha hb' ha' h2 h1 h

end Mcu.Lemmas
