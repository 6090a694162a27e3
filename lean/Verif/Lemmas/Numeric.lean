import Verif.Lemmas.Cam
import Verif.Props.Cam
import Mathlib.Analysis.Real.Pi.Bounds
import Mathlib.Analysis.SpecialFunctions.Exponential

/-! Enclosures of the default viewing conditions and of the hue of one particular colour. -/

namespace Mcu.Lemmas

open Mcu.ColorUtils Mcu.MathUtils Real Mcu.Props

theorem y50 : (yFromLstar (50 : ℝ) : ℝ) = 100 * (33/58) ^ 3 := by
  rw [yFromLstar_eq, labInvf_of_gt (by norm_num)]
  norm_num

theorem adaptLum_bounds : 11.7256 < adaptLum none ∧ adaptLum none < 11.7258 := by
  have h : adaptLum none = 200 * (33/58) ^ 3 / π := by
    unfold adaptLum
    rw [y50, if_neg (by norm_num)]
    ring
  rw [h]
  have h1 := Real.pi_gt_d6
  have h2 := Real.pi_lt_d6
  have hp := Real.pi_pos
  constructor
  · rw [lt_div_iff₀ hp]; norm_num at h2 ⊢; linarith
  · rw [div_lt_iff₀ hp]; norm_num at h1 ⊢; linarith

theorem exp_bounds : 0.5575 < exp ((-adaptLum none - 42) / 92) ∧ exp ((-adaptLum none - 42) / 92) < 0.5579 := by
  obtain ⟨h1, h2⟩ := adaptLum_bounds
  have l : exp (-0.5840) ≤ exp ((-adaptLum none - 42) / 92) := by
    apply exp_le_exp.mpr; rw [le_div_iff₀ (by norm_num)]; norm_num at h2 ⊢; linarith
  have u : exp ((-adaptLum none - 42) / 92) ≤ exp (-0.5839) := by
    apply exp_le_exp.mpr; rw [div_le_iff₀ (by norm_num)]; norm_num at h1 ⊢; linarith
  have b1 : |exp (-0.5840) - ∑ m ∈ Finset.range 6, (-0.5840 : ℝ) ^ m / m.factorial| ≤ _ :=
    Real.exp_bound (by norm_num [abs_le]) (by norm_num)
  have b2 : |exp (-0.5839) - ∑ m ∈ Finset.range 6, (-0.5839 : ℝ) ^ m / m.factorial| ≤ _ :=
    Real.exp_bound (by norm_num [abs_le]) (by norm_num)
  rw [show |(-0.5840 : ℝ)| = 0.5840 by rw [abs_of_neg] <;> norm_num] at b1
  rw [show |(-0.5839 : ℝ)| = 0.5839 by rw [abs_of_neg] <;> norm_num] at b2
  rw [abs_le] at b1 b2
  simp only [Finset.sum_range_succ, Finset.sum_range_zero, Nat.factorial] at b1 b2
  generalize exp (-0.5840) = E1 at *
  generalize exp (-0.5839) = E2 at *
  norm_num at b1 b2 l u ⊢
  constructor
  · linarith [b1.1]
  · linarith [b2.2]

theorem adaptD_bounds : 0.8450 < adaptD none 2 false ∧ adaptD none 2 false < 0.8452 := by
  obtain ⟨h1, h2⟩ := exp_bounds
  have h : adaptD none 2 false = 1 - (1 / 3.6) * exp ((-adaptLum none - 42) / 92) := by
    unfold adaptD
    simp only [Bool.false_eq_true, if_false]
    rw [if_neg (by norm_num at h1 ⊢; linarith), if_neg (by norm_num at h2 ⊢; linarith)]
    ring
  rw [h]
  constructor <;> norm_num at h1 h2 ⊢ <;> linarith

/-- The default viewing conditions. -/
theorem rgbD_bounds :
    let v : Vec3 ℝ := (ViewingConditions.sRgb : ViewingConditions ℝ).rgbD
    (1.0211 < v.x0 ∧ v.x0 < 1.0212) ∧ (0.9863 < v.x1 ∧ v.x1 < 0.98632) ∧ (0.9339 < v.x2 ∧ v.x2 < 0.9340) := by
  obtain ⟨h1, h2⟩ := adaptD_bounds
  have h : (ViewingConditions.sRgb : ViewingConditions ℝ).rgbD = _ := makeCore_rgbD none none none none none
  rw [h]
  simp only [Option.getD_none, wpCones, whitePointD65]
  generalize adaptD none 2 false = d at h1 h2
  norm_num at h1 h2 ⊢
  refine ⟨⟨?_, ?_⟩, ⟨?_, ?_⟩, ?_, ?_⟩ <;> linarith

theorem fl_formula : (ViewingConditions.sRgb : ViewingConditions ℝ).fl =
    (1 / (5 * adaptLum none + 1)) ^ 4 * adaptLum none
      + 0.1 * (1 - (1 / (5 * adaptLum none + 1)) ^ 4) ^ 2 * (5 * adaptLum none) ^ ((1 : ℝ) / 3) := by
  have e0 : (0.0 : ℝ) = 0 := by norm_num
  have e1 : (1.0 : ℝ) = 1 := by norm_num
  have e3 : (3.0 : ℝ) = 3 := by norm_num
  have e5 : (5.0 : ℝ) = 5 := by norm_num
  have eal : adaptLum none = (ViewingConditions.sRgb : ViewingConditions ℝ).adaptingLuminance := by
    simp only [ViewingConditions.sRgb, ViewingConditions.makeCore, adaptLum]; norm_num; exact Or.inl rfl
  have h : (ViewingConditions.sRgb : ViewingConditions ℝ).fl =
      let l := (ViewingConditions.sRgb : ViewingConditions ℝ).adaptingLuminance
      let k : ℝ := 1.0 / (5.0 * l + 1.0)
      let k4 := k * k * k * k
      let k4F := 1.0 - k4
      k4 * l + 0.1 * k4F * k4F * (5.0 * l) ^ ((1.0 / 3.0 : ℝ)) := rfl
  rw [h, ← eal]
  simp only [e1, e3, e5]
  generalize (5 * adaptLum none) ^ ((1 : ℝ) / 3) = c
  generalize 1 / (5 * adaptLum none + 1) = k
  ring

theorem fl_bounds : 0.38846 < (ViewingConditions.sRgb : ViewingConditions ℝ).fl ∧
    (ViewingConditions.sRgb : ViewingConditions ℝ).fl < 0.38850 := by
  rw [fl_formula]
  obtain ⟨h1, h2⟩ := adaptLum_bounds
  generalize adaptLum none = l at h1 h2
  have e : (1 : ℝ) / 3 = ((1 : ℕ) : ℝ) / ((3 : ℕ) : ℝ) := by norm_num
  have c1 : (3.8847 : ℝ) ≤ (5 * l) ^ ((1 : ℝ) / 3) := by
    rw [e]; apply le_rpow_of_pow_le (by norm_num) (by norm_num) (by linarith)
    rw [pow_one]; norm_num at h1 ⊢; linarith
  have c2 : (5 * l) ^ ((1 : ℝ) / 3) ≤ (3.8849 : ℝ) := by
    rw [e]; apply rpow_le_of_le_pow (by norm_num) (by norm_num) (by linarith)
    rw [pow_one]; norm_num at h2 ⊢; linarith
  generalize (5 * l) ^ ((1 : ℝ) / 3) = c at c1 c2
  have k0 : 0 < 1 / (5 * l + 1) := by positivity
  have k1 : 1 / (5 * l + 1) < 0.0168 := by
    rw [div_lt_iff₀ (by linarith)]; norm_num at h1 ⊢; linarith
  generalize 1 / (5 * l + 1) = k at k0 k1
  have k4 : k ^ 4 < 0.0000001 := lt_of_lt_of_le (pow_lt_pow_left₀ k1 k0.le (by norm_num)) (by norm_num)
  have k40 : 0 < k ^ 4 := by positivity
  generalize k ^ 4 = q at k4 k40
  have a1 : q * l < 0.00001 := by
    have : q * l < 0.0000001 * 11.7258 := mul_lt_mul'' k4 h2 k40.le (by linarith)
    norm_num at this ⊢; linarith
  have a0 : 0 < q * l := by apply mul_pos k40; linarith
  have s1 : (1 - q) ^ 2 ≤ 1 := by nlinarith
  have s0 : 0.999999 ≤ (1 - q) ^ 2 := by norm_num at k4 ⊢; nlinarith
  generalize q * l = a at a0 a1
  generalize (1 - q) ^ 2 = s at s0 s1
  have p1 : s * c ≤ 1 * 3.8849 := mul_le_mul s1 c2 (by linarith) (by norm_num)
  have p0 : 0.999999 * 3.8847 ≤ s * c := mul_le_mul s0 c1 (by norm_num) (by linarith)
  rw [mul_assoc]
  generalize s * c = p at p0 p1
  constructor <;> norm_num at p0 p1 a1 ⊢ <;> linarith

/-- Enclosing a compressed cone response by rationals. -/
theorem cone_bounds {fl d t1 t2 : ℝ} (hx : 0 ≤ fl * d / 100) (h1 : 0 ≤ t1) (h2 : 0 ≤ t2)
    (l : t1 ^ 50 ≤ (fl * d / 100) ^ 21) (u : (fl * d / 100) ^ 21 ≤ t2 ^ 50) :
    400 * t1 / (t1 + 27.13) ≤ cone fl d ∧ cone fl d ≤ 400 * t2 / (t2 + 27.13) := by
  have e : (0.42 : ℝ) = ((21 : ℕ) : ℝ) / ((50 : ℕ) : ℝ) := by norm_num
  have a1 : t1 ≤ (fl * d / 100) ^ (0.42 : ℝ) := by
    rw [e]; exact le_rpow_of_pow_le (by norm_num) h1 hx l
  have a2 : (fl * d / 100) ^ (0.42 : ℝ) ≤ t2 := by
    rw [e]; exact rpow_le_of_le_pow (by norm_num) h2 hx u
  unfold cone
  generalize (fl * d / 100) ^ (0.42 : ℝ) = t at a1 a2
  have ht : 0 ≤ t := h1.trans a1
  constructor
  · rw [div_le_div_iff₀ (by linarith) (by linarith)]
    nlinarith
  · rw [div_le_div_iff₀ (by linarith) (by linarith)]
    nlinarith

/-- The linear value of the channel value 139. -/
theorem linearized_139 : 25.818 < (linearized 139 : ℝ) ∧ (linearized 139 : ℝ) < 25.8186 := by
  have h : (linearized 139 : ℝ) = (((139 / 255 + 0.055) / 1.055) ^ ((2.4 : ℝ))) * 100 := by
    unfold linearized
    rw [fl_ofInt]
    have e : ((139 : Int) : ℝ) / 255.0 = 139 / 255 := by norm_num
    simp only [e]
    rw [if_neg (by norm_num)]
    show _ * (100.0 : ℝ) = _
    norm_num
    rfl
  rw [h, e24]
  have h1 : (0.25818 : ℝ) < ((139 / 255 + 0.055) / 1.055) ^ (((12 : ℕ) : ℝ) / ((5 : ℕ) : ℝ)) :=
    lt_rpow_of_pow_lt (by norm_num) (by norm_num) (by norm_num) (by norm_num)
  have h2 : ((139 / 255 + 0.055) / 1.055) ^ (((12 : ℕ) : ℝ) / ((5 : ℕ) : ℝ)) < (0.258186 : ℝ) :=
    rpow_lt_of_lt_pow (by norm_num) (by norm_num) (by norm_num) (by norm_num)
  generalize ((139 / 255 + 0.055) / 1.055 : ℝ) ^ (((12 : ℕ) : ℝ) / ((5 : ℕ) : ℝ)) = x at h1 h2
  constructor <;> norm_num at h1 h2 ⊢ <;> linarith

theorem linearized_0 : (linearized 0 : ℝ) = 0 := by
  unfold linearized
  rw [fl_ofInt]
  norm_num

theorem linearized_255 : (linearized 255 : ℝ) = 100 := by
  unfold linearized
  rw [fl_ofInt]
  have e : ((255 : Int) : ℝ) / 255.0 = 1 := by norm_num
  simp only [e]
  rw [if_neg (by norm_num), fl_powf]
  norm_num

/-- A product of enclosed positive factors. -/
theorem mul3_bounds {a b c a1 a2 b1 b2 c1 c2 : ℝ} (ha : a1 ≤ a ∧ a ≤ a2) (hb : b1 ≤ b ∧ b ≤ b2) (hc : c1 ≤ c ∧ c ≤ c2)
    (h1 : 0 ≤ a1) (h2 : 0 ≤ b1) (h3 : 0 ≤ c1) :
    a1 * (b1 * c1) / 100 ≤ a * (b * c) / 100 ∧ a * (b * c) / 100 ≤ a2 * (b2 * c2) / 100 := by
  have := h1.trans ha.1
  have := h2.trans hb.1
  have := h3.trans hc.1
  obtain ⟨ha1, ha2⟩ := ha
  obtain ⟨hb1, hb2⟩ := hb
  obtain ⟨hc1, hc2⟩ := hc
  have : 0 ≤ b2 := by linarith
  have : 0 ≤ a2 := by linarith
  constructor <;> gcongr

/-- The colour (255, 0, 139) has a hue just below a full turn. -/
theorem witness_hue : 359.5 < (Cam16.fromInt 0xFFFF008B : Cam16 ℝ).hue ∧ (Cam16.fromInt 0xFFFF008B : Cam16 ℝ).hue < 360 := by
  refine ⟨?_, (hue_range _).2⟩
  have hx : (xyzFromArgb 0xFFFF008B : Vec3 ℝ) = matrixMultiply ⟨100, 0, linearized 139⟩ srgbToXyz := by
    unfold xyzFromArgb
    rw [show redFromArgb 0xFFFF008B = 255 by decide, show greenFromArgb 0xFFFF008B = 0 by decide,
      show blueFromArgb 0xFFFF008B = 139 by decide, linearized_0, linearized_255]
  have hcones := cones_of_argb 0xFFFF008B
  show 359.5 < (Cam16.fromXyzInViewingConditions _ _ _ _).hue
  rw [cam_hue, adaptedCones_eq sRgb_pos hcones, hueDegrees_eq]
  obtain ⟨b1, b2⟩ := linearized_139
  have r0 : 32.0893 ≤ (rawCones (xyzFromArgb 0xFFFF008B : Vec3 ℝ).x0 (xyzFromArgb 0xFFFF008B : Vec3 ℝ).x1 (xyzFromArgb 0xFFFF008B : Vec3 ℝ).x2).x0
      ∧ (rawCones (xyzFromArgb 0xFFFF008B : Vec3 ℝ).x0 (xyzFromArgb 0xFFFF008B : Vec3 ℝ).x1 (xyzFromArgb 0xFFFF008B : Vec3 ℝ).x2).x0 ≤ 32.0895 := by
    rw [hx]; simp only [rawCones, matrixMultiply, srgbToXyz]
    generalize (linearized 139 : ℝ) = b at b1 b2
    constructor <;> norm_num at b1 b2 ⊢ <;> linarith
  have r1 : 17.5787 ≤ (rawCones (xyzFromArgb 0xFFFF008B : Vec3 ℝ).x0 (xyzFromArgb 0xFFFF008B : Vec3 ℝ).x1 (xyzFromArgb 0xFFFF008B : Vec3 ℝ).x2).x1
      ∧ (rawCones (xyzFromArgb 0xFFFF008B : Vec3 ℝ).x0 (xyzFromArgb 0xFFFF008B : Vec3 ℝ).x1 (xyzFromArgb 0xFFFF008B : Vec3 ℝ).x2).x1 ≤ 17.5788 := by
    rw [hx]; simp only [rawCones, matrixMultiply, srgbToXyz]
    generalize (linearized 139 : ℝ) = b at b1 b2
    constructor <;> norm_num at b1 b2 ⊢ <;> linarith
  have r2 : 26.2640 ≤ (rawCones (xyzFromArgb 0xFFFF008B : Vec3 ℝ).x0 (xyzFromArgb 0xFFFF008B : Vec3 ℝ).x1 (xyzFromArgb 0xFFFF008B : Vec3 ℝ).x2).x2
      ∧ (rawCones (xyzFromArgb 0xFFFF008B : Vec3 ℝ).x0 (xyzFromArgb 0xFFFF008B : Vec3 ℝ).x1 (xyzFromArgb 0xFFFF008B : Vec3 ℝ).x2).x2 ≤ 26.2647 := by
    rw [hx]; simp only [rawCones, matrixMultiply, srgbToXyz]
    generalize (linearized 139 : ℝ) = b at b1 b2
    constructor <;> norm_num at b1 b2 ⊢ <;> linarith
  obtain ⟨f1, f2⟩ := fl_bounds
  obtain ⟨⟨d01, d02⟩, ⟨d11, d12⟩, ⟨d21, d22⟩⟩ := rgbD_bounds
  generalize rawCones (xyzFromArgb 0xFFFF008B : Vec3 ℝ).x0 (xyzFromArgb 0xFFFF008B : Vec3 ℝ).x1 (xyzFromArgb 0xFFFF008B : Vec3 ℝ).x2 = v at *
  generalize (ViewingConditions.sRgb : ViewingConditions ℝ).fl = fl at *
  generalize (ViewingConditions.sRgb : ViewingConditions ℝ).rgbD = D at *
  have m0 := mul3_bounds ⟨f1.le, f2.le⟩ ⟨d01.le, d02.le⟩ r0 (by norm_num) (by norm_num) (by norm_num)
  have m1 := mul3_bounds ⟨f1.le, f2.le⟩ ⟨d11.le, d12.le⟩ r1 (by norm_num) (by norm_num) (by norm_num)
  have m2 := mul3_bounds ⟨f1.le, f2.le⟩ ⟨d21.le, d22.le⟩ r2 (by norm_num) (by norm_num) (by norm_num)
  have c0 := cone_bounds (t1 := 0.4207) (t2 := 0.4208) (le_trans (by norm_num) m0.1) (by norm_num) (by norm_num)
    (le_trans (by norm_num) (pow_le_pow_left₀ (by norm_num) m0.1 21))
    (le_trans (pow_le_pow_left₀ (le_trans (by norm_num) m0.1) m0.2 21) (by norm_num))
  have c1 := cone_bounds (t1 := 0.3220) (t2 := 0.3221) (le_trans (by norm_num) m1.1) (by norm_num) (by norm_num)
    (le_trans (by norm_num) (pow_le_pow_left₀ (by norm_num) m1.1 21))
    (le_trans (pow_le_pow_left₀ (le_trans (by norm_num) m1.1) m1.2 21) (by norm_num))
  have c2 := cone_bounds (t1 := 0.3725) (t2 := 0.3726) (le_trans (by norm_num) m2.1) (by norm_num) (by norm_num)
    (le_trans (by norm_num) (pow_le_pow_left₀ (by norm_num) m2.1 21))
    (le_trans (pow_le_pow_left₀ (le_trans (by norm_num) m2.1) m2.2 21) (by norm_num))
  have hA : 1.47 < opA ⟨cone fl (D.x0 * v.x0), cone fl (D.x1 * v.x1), cone fl (D.x2 * v.x2)⟩ := by
    unfold opA
    norm_num at c0 c1 c2 ⊢
    linarith [c0.1, c1.2, c2.1]
  have hB : opB ⟨cone fl (D.x0 * v.x0), cone fl (D.x1 * v.x1), cone fl (D.x2 * v.x2)⟩ < 0 := by
    unfold opB
    norm_num at c0 c1 c2 ⊢
    linarith [c0.2, c1.2, c2.1]
  have hB' : -0.01 < opB ⟨cone fl (D.x0 * v.x0), cone fl (D.x1 * v.x1), cone fl (D.x2 * v.x2)⟩ := by
    unfold opB
    norm_num at c0 c1 c2 ⊢
    linarith [c0.1, c1.1, c2.2]
  generalize opA ⟨cone fl (D.x0 * v.x0), cone fl (D.x1 * v.x1), cone fl (D.x2 * v.x2)⟩ = a at hA
  generalize opB ⟨cone fl (D.x0 * v.x0), cone fl (D.x1 * v.x1), cone fl (D.x2 * v.x2)⟩ = b at hB hB'
  have hneg : Complex.arg ⟨a, b⟩ < 0 := Complex.arg_neg_iff.mpr hB
  have ha : 0 < a := by linarith
  have hhalf : |Complex.arg ⟨a, b⟩| < π / 2 := Complex.abs_arg_lt_pi_div_two_iff.mpr (Or.inl ha)
  have htan : Real.tan (Complex.arg ⟨a, b⟩) = b / a := Complex.tan_arg _
  have hlt := Real.lt_tan (x := -Complex.arg ⟨a, b⟩) (by linarith) (by linarith [(abs_lt.mp hhalf).1])
  rw [Real.tan_neg, htan] at hlt
  have hq : -(b / a) < 0.0086 := by
    rw [← neg_div, div_lt_iff₀ ha]; norm_num at hA hB' ⊢; linarith
  have hp := Real.pi_gt_d2
  have hp0 := Real.pi_pos
  have hdeg : argDeg a b < 0 := by
    unfold argDeg
    exact div_neg_of_neg_of_pos (by linarith) hp0
  rw [if_pos hdeg]
  unfold argDeg
  have : -0.5 < Complex.arg ⟨a, b⟩ * 180 / π := by
    rw [lt_div_iff₀ hp0]; norm_num at hq hp ⊢; linarith
  norm_num at this ⊢
  linarith

end Mcu.Lemmas
