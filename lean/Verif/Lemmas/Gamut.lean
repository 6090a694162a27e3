import Verif.Lemmas.Growth
import Verif.Lemmas.Numeric
import Verif.Spec.Luminance
import Verif.Lemmas.Rounding
import Verif.Model.HctSolver

/-! The colours the exact search looks at, as points of a `Ray`. -/

namespace Mcu.Lemmas

open Mcu.ColorUtils Mcu.MathUtils Mcu.HctSolver Mcu.Spec Real

/-- Abbreviation for the default viewing conditions. -/
noncomputable abbrev vc0 : ViewingConditions ℝ := ViewingConditions.sRgb

/-- The colours of a hue (in radians) and chroma. -/
noncomputable def rayOf (h chroma : ℝ) : Ray where
  c := cos h
  s := sin h
  q := 1 / vc0.c / vc0.z
  P0 := vc0.aw / vc0.nbb * (1 / 100) ^ (1 / vc0.c / vc0.z)
  T0 := (10 * chroma * (1 / (1.64 - (0.29 : ℝ) ^ vc0.backgroundYToWhitePointY) ^ (0.73 : ℝ))) ^ (1 / 0.9 : ℝ)
  p1 := 0.25 * (cos (h + 2) + 3.8) * (50000 / 13) * vc0.nC * vc0.ncb

theorem exp_div_rpow (v q : ℝ) : (exp v / 100) ^ q = (1 / 100) ^ q * exp (q * v) := by
  rw [div_eq_mul_one_div, mul_rpow (exp_pos v).le (by norm_num), ← exp_mul, mul_comm v q, mul_comm]

theorem T_eq {C k v : ℝ} (hC : 0 < C) (hk : 0 < k) :
    (C / Real.sqrt (exp v / 100) * k) ^ (1 / 0.9 : ℝ) = (10 * C * k) ^ (1 / 0.9 : ℝ) * exp (-(1 / 1.8 * v)) := by
  have e : C / Real.sqrt (exp v / 100) * k = 10 * C * k * exp (-(v / 2)) := by
    rw [Real.sqrt_div (exp_pos v).le, show Real.sqrt 100 = 10 by
      rw [show (100 : ℝ) = 10 ^ 2 by norm_num]; exact Real.sqrt_sq (by norm_num),
      show exp v = exp (v / 2) ^ 2 by rw [← exp_nat_mul]; congr 1; push_cast; ring, Real.sqrt_sq (exp_pos _).le, exp_neg]
    field_simp
  rw [e, mul_rpow (by positivity) (exp_pos _).le, ← exp_mul]
  congr 2
  norm_num; ring

theorem linrgb_ray {h C : ℝ} (hC : 0 < C) (v : ℝ) :
    linrgbOfJ h C (exp v) = matrixMultiply
      ⟨inverseChromaticAdaptation ((rayOf h C).Ar v), inverseChromaticAdaptation ((rayOf h C).Ag v),
       inverseChromaticAdaptation ((rayOf h C).Ab v)⟩ linrgbFromScaledDiscount := by
  have hv := sRgb_pos
  have hk := kappa_pos hv.n
  have z0 : (0.0 : ℝ) = 0 := by norm_num
  have z1 : (1.0 : ℝ) = 1 := by norm_num
  have z100 : (100.0 : ℝ) = 100 := by norm_num
  have hj : (exp v == (0.0 : ℝ)) = false := by
    rw [Bool.eq_false_iff, ne_eq, fl_beq, z0]; exact (exp_pos v).ne'
  have hc : (C == (0.0 : ℝ)) = false := by
    rw [Bool.eq_false_iff, ne_eq, fl_beq, z0]; exact hC.ne'
  simp only [linrgbOfJ, hj, hc, Bool.or_self, Bool.false_eq_true, if_false]
  simp only [fl_powf, fl_sqrt, fl_cos, fl_sin, z1, z100]
  rw [T_eq hC (by positivity), exp_div_rpow]
  have hP : vc0.aw * ((1 / 100) ^ (1 / vc0.c / vc0.z) * exp (1 / vc0.c / vc0.z * v)) / vc0.nbb = (rayOf h C).P v := by
    unfold Ray.P rayOf; ring
  have hg : (23.0 * ((rayOf h C).P v + 0.305) * (rayOf h C).T v / (23.0 * (rayOf h C).p1 + 11.0 * (rayOf h C).T v * cos h + 108.0 * (rayOf h C).T v * sin h)) = (rayOf h C).gam v := by
    unfold Ray.gam Ray.den Ray.d
    simp only [rayOf]
    norm_num
    congr 1
    ring
  have hp1 : 0.25 * (cos (h + 2.0) + 3.8) * (50000.0 / 13.0) * vc0.nC * vc0.ncb = (rayOf h C).p1 := by
    unfold rayOf; norm_num
  rw [hP, hp1, show (10 * C * (1 / (1.64 - (0.29 : ℝ) ^ vc0.backgroundYToWhitePointY) ^ (0.73 : ℝ))) ^ (1 / 0.9 : ℝ) * exp (-(1 / 1.8 * v))
    = (rayOf h C).T v from rfl, hg]
  have hr : (460.0 * (rayOf h C).P v + 451.0 * ((rayOf h C).gam v * cos h) + 288.0 * ((rayOf h C).gam v * sin h)) / 1403.0 = (rayOf h C).Ar v := by
    unfold Ray.Ar; simp only [rayOf]; norm_num; ring
  have hgg : (460.0 * (rayOf h C).P v - 891.0 * ((rayOf h C).gam v * cos h) - 261.0 * ((rayOf h C).gam v * sin h)) / 1403.0 = (rayOf h C).Ag v := by
    unfold Ray.Ag; simp only [rayOf]; norm_num; ring
  have hb : (460.0 * (rayOf h C).P v - 220.0 * ((rayOf h C).gam v * cos h) - 6300.0 * ((rayOf h C).gam v * sin h)) / 1403.0 = (rayOf h C).Ab v := by
    unfold Ray.Ab; simp only [rayOf]; norm_num; ring
  rw [hr, hgg, hb]

theorem ica_pos {a : ℝ} (h : 0 < inverseChromaticAdaptation a) :
    0 < a ∧ a < 400 ∧ inverseChromaticAdaptation a = unadapt a := by
  have z0 : (0.0 : ℝ) = 0 := by norm_num
  have z1 : (1.0 : ℝ) = 1 := by norm_num
  have z400 : (400.0 : ℝ) = 400 := by norm_num
  have habs (x : ℝ) : Fl.abs x = |x| := rfl
  unfold inverseChromaticAdaptation at *
  simp only [fl_fmax, fl_powf, fl_ofInt, habs, z0, z1, z400] at *
  have hb : 0 ≤ (max 0 (27.13 * |a| / (400 - |a|))) ^ (1 / 0.42 : ℝ) := by positivity
  have ha : 0 < a := by
    by_contra hc
    push Not at hc
    rcases hc.lt_or_eq with hc | hc
    · have : signum a = -1 := by unfold signum; rw [if_pos (by norm_num; exact hc)]
      rw [this] at h
      push_cast at h
      linarith
    · subst hc
      rw [signum_zero] at h
      simp at h
  rw [signum_pos ha, abs_of_pos ha] at *
  have h4 : a < 400 := by
    by_contra hc
    push Not at hc
    have : 27.13 * a / (400 - a) ≤ 0 := div_nonpos_of_nonneg_of_nonpos (by positivity) (by linarith)
    rw [max_eq_left this, zero_rpow (by norm_num)] at h
    simp at h
  refine ⟨ha, h4, ?_⟩
  have h5 : 0 < 400 - a := by linarith
  rw [max_eq_right (by positivity)]
  unfold unadapt
  push_cast
  ring

/-- Comparing responses by comparing stimuli. -/
theorem response_le {a b m k : ℝ} (ha : 0 < a) (ha4 : a < 400) (hb : 0 < b) (hb4 : b < 400) (hk : 1 ≤ k) (hm : 0 ≤ m)
    (h : unadapt a ≤ m * unadapt b) (hmk : m ^ 21 ≤ k ^ 50) : a ≤ k * b := by
  rcases le_total a b with hab | hab
  · nlinarith
  have h1 : 0 < 400 - a := by linarith
  have h2 : 0 < 400 - b := by linarith
  have hk0 : 0 ≤ k := by linarith
  have hmk' : m ≤ k ^ (1 / 0.42 : ℝ) := by
    have e : (1 / 0.42 : ℝ) = ((50 : ℕ) : ℝ) / ((21 : ℕ) : ℝ) := by norm_num
    rw [e]
    exact le_rpow_of_pow_le (by norm_num) hm hk0 hmk
  have h3 : unadapt a ≤ (k * (27.13 * b / (400 - b))) ^ (1 / 0.42 : ℝ) := by
    rw [mul_rpow hk0 (by positivity)]
    refine h.trans (mul_le_mul_of_nonneg_right hmk' (unadapt_pos hb hb4).le)
  unfold unadapt at h3
  have h4 := (rpow_le_rpow_iff (by positivity) (by positivity) (by norm_num : (0 : ℝ) < 1 / 0.42)).1 h3
  have h5 : a / (400 - b) ≤ a / (400 - a) := div_le_div_of_nonneg_left ha.le h1 (by linarith)
  have h6 : a / (400 - a) ≤ k * (b / (400 - b)) := by
    rw [mul_div_assoc, mul_div_assoc] at h4
    nlinarith
  have h7 := h5.trans h6
  rw [← mul_div_assoc, div_le_div_iff_of_pos_right h2] at h7
  exact h7

/-- The weights of the stimuli in the luminance. -/
noncomputable def wR : ℝ := 0.2126 * 1373.2198709594231 + 0.7152 * (-271.815969077903) + 0.0722 * 1.9622899599665666
noncomputable def wG : ℝ := 0.2126 * (-1100.4251190754821) + 0.7152 * 559.6580465940733 + 0.0722 * (-57.173814538844006)
noncomputable def wB : ℝ := -(0.2126 * (-7.278681089101213) + 0.7152 * (-32.46047482791194) + 0.0722 * 308.7233197812385)

theorem weights : Weights wR wG wB := by
  unfold wR wG wB
  constructor <;> norm_num

theorem luminance_mul (x : Vec3 ℝ) : luminance (matrixMultiply x linrgbFromScaledDiscount) =
    wR * x.x0 + wG * x.x1 - wB * x.x2 := by
  unfold luminance matrixMultiply linrgbFromScaledDiscount wR wG wB
  ring

/-- Stimuli of colours without negative components. -/
theorem stimuli {x : Vec3 ℝ} (h : ∀ a, 0 ≤ (matrixMultiply x linrgbFromScaledDiscount).get a)
    (hl : 0 < luminance (matrixMultiply x linrgbFromScaledDiscount)) :
    0 < x.x1 ∧ 0.8023 * x.x1 ≤ x.x0 ∧ x.x0 ≤ 2.0385 * x.x1 ∧ 0.1722 * x.x1 ≤ x.x2 ∧ x.x2 ≤ 10.084 * x.x1 := by
  have h0 := h 0
  have h1 := h 1
  have h2 := h 2
  obtain ⟨x, y, z⟩ := x
  simp only [matrixMultiply, linrgbFromScaledDiscount, Vec3.get, luminance] at *
  norm_num at *
  refine ⟨?_, ?_, ?_, ?_, ?_⟩ <;> linarith

theorem nearGamut_of_stimuli {a b c : ℝ} (h : ∀ i, 0 ≤ (matrixMultiply (⟨inverseChromaticAdaptation a,
      inverseChromaticAdaptation b, inverseChromaticAdaptation c⟩ : Vec3 ℝ) linrgbFromScaledDiscount).get i)
    (hl : 0 < luminance (matrixMultiply (⟨inverseChromaticAdaptation a,
      inverseChromaticAdaptation b, inverseChromaticAdaptation c⟩ : Vec3 ℝ) linrgbFromScaledDiscount)) :
    NearGamut a b c ∧ inverseChromaticAdaptation a = unadapt a ∧ inverseChromaticAdaptation b = unadapt b ∧
      inverseChromaticAdaptation c = unadapt c ∧ unadapt c ≤ 10.084 * unadapt b := by
  obtain ⟨h0, h1, h2, h3, h4⟩ := stimuli h hl
  simp only at h0 h1 h2 h3 h4
  obtain ⟨b0, b4, eb⟩ := ica_pos h0
  obtain ⟨a0, a4, ea⟩ := ica_pos (a := a) (by norm_num at h1; linarith)
  obtain ⟨c0, c4, ec⟩ := ica_pos (a := c) (by norm_num at h3; linarith)
  rw [ea, eb] at h1 h2
  rw [eb, ec] at h3 h4
  have g1 := response_le b0 b4 a0 a4 (k := 1 / 0.91) (m := 1 / 0.8023) (by norm_num) (by norm_num) (by
    norm_num at h1 ⊢; linarith) (by norm_num)
  have g2 := response_le a0 a4 b0 b4 (k := 1.353) (m := 2.0385) (by norm_num) (by norm_num) h2 (by norm_num)
  have g3 := response_le b0 b4 c0 c4 (k := 1 / 0.47) (m := 1 / 0.1722) (by norm_num) (by norm_num) (by
    norm_num at h3 ⊢; linarith) (by norm_num)
  have g4 := response_le c0 c4 b0 b4 (k := 2.66) (m := 10.084) (by norm_num) (by norm_num) h4 (by norm_num)
  refine ⟨⟨b0, ?_, g2, ?_, g4⟩, ea, eb, ec, h4⟩
  · norm_num at g1 ⊢; linarith
  · norm_num at g3 ⊢; linarith

/-- A colour the search does not discard is near the gamut. -/
theorem visited_near {h C : ℝ} (hC : 0 < C) (v : ℝ) (h0 : ∀ i, 0 ≤ (linrgbOfJ h C (exp v)).get i)
    (hl : 0 < luminance (linrgbOfJ h C (exp v))) :
    NearGamut ((rayOf h C).Ar v) ((rayOf h C).Ag v) ((rayOf h C).Ab v) ∧
      luminance (linrgbOfJ h C (exp v)) = (rayOf h C).lum wR wG wB v ∧
      unadapt ((rayOf h C).Ab v) ≤ 10.084 * unadapt ((rayOf h C).Ag v) := by
  rw [linrgb_ray hC] at h0 hl ⊢
  obtain ⟨a, e1, e2, e3, b⟩ := nearGamut_of_stimuli h0 hl
  refine ⟨a, ?_, b⟩
  rw [luminance_mul]
  simp only [e1, e2, e3, Ray.lum]

end Mcu.Lemmas
