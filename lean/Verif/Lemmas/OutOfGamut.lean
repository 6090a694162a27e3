import Verif.Lemmas.F64CamNear
import Verif.Lemmas.FirstGuess
import Verif.Lemmas.Elasticity
import Verif.Lemmas.NewtonStart

/-! A request that is out of gamut: hue 90, chroma a million, tone 50. -/

namespace Mcu.Lemmas

open Mcu.ColorUtils Mcu.MathUtils Mcu.HctSolver Props Props.Binary64 Real

theorem ica_nonneg {a : ℝ} (h0 : 0 < a) (h4 : a < 400) : inverseChromaticAdaptation a = unadapt a := by
  have h : 0 < 400 - a := by linarith
  have e1 : (400.0 : ℝ) = 400 := by norm_num
  have e0 : (0.0 : ℝ) = 0 := by norm_num
  have es : signum a = 1 := (c09_signum a).2.2.1 h0
  simp only [inverseChromaticAdaptation, es, fl_abs, fl_fmax, fl_powf, fl_ofInt, abs_of_pos h0, e1, e0]
  rw [max_eq_right (by positivity)]
  unfold unadapt
  norm_num

theorem ica_nonpos {a : ℝ} (h0 : a < 0) : inverseChromaticAdaptation a ≤ 0 := by
  have e0 : (0.0 : ℝ) = 0 := by norm_num
  have es : signum a = -1 := (c09_signum a).1.1 h0
  simp only [inverseChromaticAdaptation, es, fl_abs, fl_fmax, fl_powf, fl_ofInt, e0]
  have : 0 ≤ (max 0 (27.13 * |a| / (400.0 - |a|))) ^ (1.0 / 0.42 : ℝ) := rpow_nonneg (le_max_left _ _) _
  norm_num at this ⊢
  exact this

theorem out_of_gamut {j : ℝ} (h0 : 40 ≤ j) (h1 : j ≤ 100) : (linrgbOfJ (π / 2) 1000000 j).x2 < 0 := by
  have hn := nbbR; have ha := awR
  have hk : kappaV vcR ≤ 1 := by
    unfold kappaV
    have n0 : 0 < vcR.backgroundYToWhitePointY := sRgb_pos.n
    have m0 : (0 : ℝ) < 0.29 ^ vcR.backgroundYToWhitePointY := by positivity
    have m1 : (0.64 : ℝ) ≤ 0.29 ^ vcR.backgroundYToWhitePointY := by
      rw [nR]
      calc (0.64 : ℝ) ≤ (0.29 : ℝ) ^ ((1 : ℕ) / (3 : ℕ) : ℝ) := le_rpow_of_pow_le (by norm_num) (by norm_num) (by norm_num) (by norm_num)
        _ ≤ _ := rpow_le_rpow_of_exponent_ge (by norm_num) (by norm_num) (by norm_num)
    refine rpow_le_one ?_ ?_ (by norm_num)
    · have : (0.29 : ℝ) ^ vcR.backgroundYToWhitePointY ≤ 1 := rpow_le_one (by norm_num) (by norm_num) n0.le
      norm_num at this ⊢; linarith
    · norm_num at m1 ⊢; linarith
  have hk0 : 0 < kappaV vcR := kappa_pos sRgb_pos.n
  have ej : exp (log j) = j := exp_log (by linarith)
  have hok : (rayOf (π / 2) 1000000).Ok := rayOf_ok (by norm_num)
  -- the achromatic response
  have hP : 11 ≤ (rayOf (π / 2) 1000000).P (log j) ∧ (rayOf (π / 2) 1000000).P (log j) ≤ 30 := by
    have e : (rayOf (π / 2) 1000000).P (log j) = vc0.aw / vc0.nbb * (j / 100) ^ (1 / vc0.c / vc0.z) := by
      have := exp_div_rpow (log j) (1 / vc0.c / vc0.z)
      rw [ej] at this
      rw [this]
      unfold Ray.P rayOf
      ring
    have hq : 0.7591 ≤ 1 / vc0.c / vc0.z ∧ 1 / vc0.c / vc0.z ≤ 0.7592 := hok.q
    rw [e]
    have x1 : (j / 100) ^ (1 / vc0.c / vc0.z) ≤ 1 := rpow_le_one (by positivity) (by linarith) (by norm_num at hq ⊢; linarith)
    have x0 : j / 100 ≤ (j / 100) ^ (1 / vc0.c / vc0.z) := by
      calc j / 100 = (j / 100) ^ (1 : ℝ) := (rpow_one _).symm
        _ ≤ _ := rpow_le_rpow_of_exponent_ge (by positivity) (by linarith) (by norm_num at hq ⊢; linarith)
    have w0 : 29 ≤ vc0.aw / vc0.nbb := by
      rw [le_div_iff₀ (by norm_num at hn; linarith)]; norm_num at hn ha; linarith
    have w1 : vc0.aw / vc0.nbb ≤ 30 := by
      rw [div_le_iff₀ (by norm_num at hn; linarith)]; norm_num at hn ha; linarith
    generalize vc0.aw / vc0.nbb = W at *
    generalize (j / 100) ^ (1 / vc0.c / vc0.z) = X at *
    constructor <;> nlinarith
  -- the saturation term
  have hT : 1000000 ≤ (rayOf (π / 2) 1000000).T (log j) := by
    have hk' : 0 < 1 / kappaV vcR := by positivity
    have hk1 : 1 ≤ 1 / kappaV vcR := by rw [le_div_iff₀ hk0]; linarith
    have e := T_eq (C := 1000000) (v := log j) (by norm_num) hk'
    rw [ej] at e
    have e2 : (rayOf (π / 2) 1000000).T (log j) = (1000000 / Real.sqrt (j / 100) * (1 / kappaV vcR)) ^ (1 / 0.9 : ℝ) := by
      rw [e]
      rfl
    rw [e2]
    have hs : Real.sqrt (j / 100) ≤ 1 := Real.sqrt_le_one.2 (by linarith)
    have hs0 : 0 < Real.sqrt (j / 100) := Real.sqrt_pos.2 (by linarith)
    have h1 : 1000000 ≤ 1000000 / Real.sqrt (j / 100) := by rw [le_div_iff₀ hs0]; nlinarith
    have h2 : 1000000 ≤ 1000000 / Real.sqrt (j / 100) * (1 / kappaV vcR) := by nlinarith
    calc (1000000 : ℝ) = 1000000 ^ (1 : ℝ) := (rpow_one _).symm
      _ ≤ 1000000 ^ (1 / 0.9 : ℝ) := rpow_le_rpow_of_exponent_le (by norm_num) (by norm_num)
      _ ≤ _ := rpow_le_rpow (by norm_num) h2 (by norm_num)
  have hp : (rayOf (π / 2) 1000000).p1 ≤ 6000 := by
    have e : (rayOf (π / 2) 1000000).p1 = 0.25 * (cos (π / 2 + 2) + 3.8) * (50000 / 13) * vcR.nC * vcR.nbb := rfl
    rw [e, nCR]
    have := cos_le_one (π / 2 + 2)
    have hc : 0.25 * (cos (π / 2 + 2) + 3.8) ≤ 1.2 := by norm_num at this ⊢; linarith
    have := neg_one_le_cos (π / 2 + 2)
    have hc0 : 0 ≤ 0.25 * (cos (π / 2 + 2) + 3.8) := by norm_num at this ⊢; linarith
    generalize 0.25 * (cos (π / 2 + 2) + 3.8) = E at *
    generalize vcR.nbb = N at *
    norm_num at hn hc ⊢
    nlinarith
  have hp0 := hok.p1
  have ec : (rayOf (π / 2) 1000000).c = 0 := cos_pi_div_two
  have es : (rayOf (π / 2) 1000000).s = 1 := sin_pi_div_two
  rw [← ej, linrgb_ray (by norm_num)]
  -- the three responses
  have hg : 0.2 * (rayOf (π / 2) 1000000).P (log j) ≤ (rayOf (π / 2) 1000000).gam (log j) ∧
      (rayOf (π / 2) 1000000).gam (log j) ≤ 0.25 * (rayOf (π / 2) 1000000).P (log j) := by
    unfold Ray.gam Ray.den Ray.d
    rw [ec, es]
    generalize (rayOf (π / 2) 1000000).P (log j) = p at *
    generalize (rayOf (π / 2) 1000000).T (log j) = t at *
    generalize (rayOf (π / 2) 1000000).p1 = e at *
    constructor
    · rw [le_div_iff₀ (by nlinarith)]
      norm_num
      nlinarith [mul_nonneg (show 0 ≤ p by linarith) (show 0 ≤ t - 1000000 by linarith), mul_nonneg (show 0 ≤ p by linarith) (show 0 ≤ 6000 - e by linarith)]
    · rw [div_le_iff₀ (by nlinarith)]
      norm_num
      nlinarith [mul_nonneg (show 0 ≤ p - 11 by linarith) (show 0 ≤ t by linarith), mul_nonneg (show 0 ≤ p by linarith) hp0.le]
  have er : (rayOf (π / 2) 1000000).Ar (log j) = (460 * (rayOf (π / 2) 1000000).P (log j) + 288 * (rayOf (π / 2) 1000000).gam (log j)) / 1403 := by
    unfold Ray.Ar; rw [ec, es]; ring
  have eg : (rayOf (π / 2) 1000000).Ag (log j) = (460 * (rayOf (π / 2) 1000000).P (log j) - 261 * (rayOf (π / 2) 1000000).gam (log j)) / 1403 := by
    unfold Ray.Ag; rw [ec, es]; ring
  have eb : (rayOf (π / 2) 1000000).Ab (log j) = (460 * (rayOf (π / 2) 1000000).P (log j) - 6300 * (rayOf (π / 2) 1000000).gam (log j)) / 1403 := by
    unfold Ray.Ab; rw [ec, es]; ring
  rw [er, eg, eb]
  generalize (rayOf (π / 2) 1000000).P (log j) = p at *
  generalize (rayOf (π / 2) 1000000).gam (log j) = g at *
  norm_num at hg
  rw [ica_nonneg (a := (460 * p + 288 * g) / 1403) (by linarith) (by linarith), ica_nonneg (a := (460 * p - 261 * g) / 1403) (by linarith) (by linarith)]
  have z := ica_nonpos (a := (460 * p - 6300 * g) / 1403) (by linarith)
  have u := unadapt_ratio (a := (460 * p - 261 * g) / 1403) (b := (460 * p + 288 * g) / 1403) (k := 2) (m := 8) (by norm_num) (by linarith) (by linarith) (by linarith) (by linarith) (by norm_num)
    (by
      rw [mul_div_assoc', div_le_div_iff₀ (by linarith) (by linarith)]
      nlinarith) (by norm_num)
  have u0 : 0 < unadapt ((460 * p - 261 * g) / 1403) := by
    unfold unadapt
    have : 0 < 27.13 * ((460 * p - 261 * g) / 1403) / (400 - (460 * p - 261 * g) / 1403) := div_pos (mul_pos (by norm_num) (by linarith)) (by linarith)
    exact rpow_pos_of_pos this _
  simp only [matrixMultiply, linrgbFromScaledDiscount]
  generalize inverseChromaticAdaptation ((460 * p - 6300 * g) / 1403) = Z at *
  generalize unadapt ((460 * p - 261 * g) / 1403) = Y at *
  generalize unadapt ((460 * p + 288 * g) / 1403) = X at *
  norm_num
  linarith

/-- A chroma of a million is out of reach at hue 90, tone 50: the exact search gives up. -/
theorem not_found : findResultByJ (π / 2) 1000000 (yFromLstar 50) = 0 := by
  have hy : (yFromLstar 50 : ℝ) = 100 * (33 / 58) ^ 3 := y50
  have e11 : (11.0 : ℝ) = 11 := by norm_num
  have e0 : (0.0 : ℝ) = 0 := by norm_num
  have s0 : 4 ≤ Real.sqrt (yFromLstar 50) := Real.le_sqrt_of_sq_le (by rw [hy]; norm_num)
  have s1 : Real.sqrt (yFromLstar 50) ≤ 5 := Real.sqrt_le_iff.2 ⟨by norm_num, by rw [hy]; norm_num⟩
  simp only [findResultByJ, findLoop, fl_sqrt, e11, e0]
  rw [if_pos (Or.inr (Or.inr (out_of_gamut (by linarith) (by linarith))))]

end Mcu.Lemmas
