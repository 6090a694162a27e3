import Verif.Lemmas.Numeric

/-! A sharper version of `witness_hue` (Numeric), for the binary64 counterexamples. -/

namespace Mcu.Lemmas

open Mcu.ColorUtils Mcu.MathUtils Real Mcu.Props

/-- The hue of the colour (255, 0, 139) is above 359.6, which leaves room for rounding. -/
theorem witness_hue_sharp : 359.6 < (Cam16.fromInt 0xFFFF008B : Cam16 ℝ).hue := by
  have hx : (xyzFromArgb 0xFFFF008B : Vec3 ℝ) = matrixMultiply ⟨100, 0, linearized 139⟩ srgbToXyz := by
    unfold xyzFromArgb
    rw [show redFromArgb 0xFFFF008B = 255 by decide, show greenFromArgb 0xFFFF008B = 0 by decide,
      show blueFromArgb 0xFFFF008B = 139 by decide, linearized_0, linearized_255]
  have hcones := cones_of_argb 0xFFFF008B
  show 359.6 < (Cam16.fromXyzInViewingConditions _ _ _ _).hue
  rw [cam_hue, adaptedCones_eq sRgb_pos hcones, hueDegrees_eq]
  obtain ⟨b1, b2⟩ := linearized_139
  have r0 : 32.0893 ≤ (rawCones (xyzFromArgb 0xFFFF008B : Vec3 ℝ).x0 (xyzFromArgb 0xFFFF008B : Vec3 ℝ).x1 (xyzFromArgb 0xFFFF008B : Vec3 ℝ).x2).x0
      ∧ (rawCones (xyzFromArgb 0xFFFF008B : Vec3 ℝ).x0 (xyzFromArgb 0xFFFF008B : Vec3 ℝ).x1 (xyzFromArgb 0xFFFF008B : Vec3 ℝ).x2).x0 ≤ 32.0895 := by
    rw [hx]; simp only [rawCones, matrixMultiply, srgbToXyz]
    generalize (linearized 139 : ℝ) = b at b1 b2
    constructor <;> norm_num at b1 b2 ⊢ <;> linarith
  have r1 : 17.5787 ≤ (rawCones (xyzFromArgb 0xFFFF008B : Vec3 ℝ).x0 (xyzFromArgb 0xFFFF008B : Vec3 ℝ).x1 (xyzFromArgb 0xFFFF008B : Vec3 ℝ).x2).x1
      ∧ (rawCones (xyzFromArgb 0xFFFF008B : Vec3 ℝ).x0 (xyzFromArgb 0xFFFF008B : Vec3 ℝ).x1 (xyzFromArgb 0xFFFF008B : Vec3 ℝ).x2).x1 ≤ 17.5788 := by
    rw [hx]; simp only [rawCones, matrixMultiply, srgbToXyz]
    generalize (linearized 139 : ℝ) = b at b1 b2
    constructor <;> norm_num at b1 b2 ⊢ <;> linarith
  have r2 : 26.2640 ≤ (rawCones (xyzFromArgb 0xFFFF008B : Vec3 ℝ).x0 (xyzFromArgb 0xFFFF008B : Vec3 ℝ).x1 (xyzFromArgb 0xFFFF008B : Vec3 ℝ).x2).x2
      ∧ (rawCones (xyzFromArgb 0xFFFF008B : Vec3 ℝ).x0 (xyzFromArgb 0xFFFF008B : Vec3 ℝ).x1 (xyzFromArgb 0xFFFF008B : Vec3 ℝ).x2).x2 ≤ 26.2647 := by
    rw [hx]; simp only [rawCones, matrixMultiply, srgbToXyz]
    generalize (linearized 139 : ℝ) = b at b1 b2
    constructor <;> norm_num at b1 b2 ⊢ <;> linarith
  obtain ⟨f1, f2⟩ := fl_bounds
  obtain ⟨⟨d01, d02⟩, ⟨d11, d12⟩, ⟨d21, d22⟩⟩ := rgbD_bounds
  generalize rawCones (xyzFromArgb 0xFFFF008B : Vec3 ℝ).x0 (xyzFromArgb 0xFFFF008B : Vec3 ℝ).x1 (xyzFromArgb 0xFFFF008B : Vec3 ℝ).x2 = v at *
  generalize (ViewingConditions.sRgb : ViewingConditions ℝ).fl = fl at *
  generalize (ViewingConditions.sRgb : ViewingConditions ℝ).rgbD = D at *
  have m0 := mul3_bounds ⟨f1.le, f2.le⟩ ⟨d01.le, d02.le⟩ r0 (by norm_num) (by norm_num) (by norm_num)
  have m1 := mul3_bounds ⟨f1.le, f2.le⟩ ⟨d11.le, d12.le⟩ r1 (by norm_num) (by norm_num) (by norm_num)
  have m2 := mul3_bounds ⟨f1.le, f2.le⟩ ⟨d21.le, d22.le⟩ r2 (by norm_num) (by norm_num) (by norm_num)
  have c0 := cone_bounds (t1 := 0.4207) (t2 := 0.4208) (le_trans (by norm_num) m0.1) (by norm_num) (by norm_num)
    (le_trans (by norm_num) (pow_le_pow_left₀ (by norm_num) m0.1 21))
    (le_trans (pow_le_pow_left₀ (le_trans (by norm_num) m0.1) m0.2 21) (by norm_num))
  have c1 := cone_bounds (t1 := 0.3220) (t2 := 0.3221) (le_trans (by norm_num) m1.1) (by norm_num) (by norm_num)
    (le_trans (by norm_num) (pow_le_pow_left₀ (by norm_num) m1.1 21))
    (le_trans (pow_le_pow_left₀ (le_trans (by norm_num) m1.1) m1.2 21) (by norm_num))
  have c2 := cone_bounds (t1 := 0.3725) (t2 := 0.3726) (le_trans (by norm_num) m2.1) (by norm_num) (by norm_num)
    (le_trans (by norm_num) (pow_le_pow_left₀ (by norm_num) m2.1 21))
    (le_trans (pow_le_pow_left₀ (le_trans (by norm_num) m2.1) m2.2 21) (by norm_num))
  have hA : 1.47 < opA ⟨cone fl (D.x0 * v.x0), cone fl (D.x1 * v.x1), cone fl (D.x2 * v.x2)⟩ := by
    unfold opA
    norm_num at c0 c1 c2 ⊢
    linarith [c0.1, c1.2, c2.1]
  have hB : opB ⟨cone fl (D.x0 * v.x0), cone fl (D.x1 * v.x1), cone fl (D.x2 * v.x2)⟩ < 0 := by
    unfold opB
    norm_num at c0 c1 c2 ⊢
    linarith [c0.2, c1.2, c2.1]
  have hB' : -0.01 < opB ⟨cone fl (D.x0 * v.x0), cone fl (D.x1 * v.x1), cone fl (D.x2 * v.x2)⟩ := by
    unfold opB
    norm_num at c0 c1 c2 ⊢
    linarith [c0.1, c1.1, c2.2]
  generalize opA ⟨cone fl (D.x0 * v.x0), cone fl (D.x1 * v.x1), cone fl (D.x2 * v.x2)⟩ = a at hA
  generalize opB ⟨cone fl (D.x0 * v.x0), cone fl (D.x1 * v.x1), cone fl (D.x2 * v.x2)⟩ = b at hB hB'
  have hneg : Complex.arg ⟨a, b⟩ < 0 := Complex.arg_neg_iff.mpr hB
  have ha : 0 < a := by linarith
  have hhalf : |Complex.arg ⟨a, b⟩| < π / 2 := Complex.abs_arg_lt_pi_div_two_iff.mpr (Or.inl ha)
  have htan : Real.tan (Complex.arg ⟨a, b⟩) = b / a := Complex.tan_arg _
  have hlt := Real.lt_tan (x := -Complex.arg ⟨a, b⟩) (by linarith) (by linarith [(abs_lt.mp hhalf).1])
  rw [Real.tan_neg, htan] at hlt
  have hq : -(b / a) < 0.0069 := by
    rw [← neg_div, div_lt_iff₀ ha]; norm_num at hA hB' ⊢; linarith
  have hp := Real.pi_gt_d2
  have hp0 := Real.pi_pos
  have hdeg : argDeg a b < 0 := by
    unfold argDeg
    exact div_neg_of_neg_of_pos (by linarith) hp0
  rw [if_pos hdeg]
  unfold argDeg
  have : -0.4 < Complex.arg ⟨a, b⟩ * 180 / π := by
    rw [lt_div_iff₀ hp0]; norm_num at hq hp ⊢; linarith
  norm_num at this ⊢
  linarith

end Mcu.Lemmas
