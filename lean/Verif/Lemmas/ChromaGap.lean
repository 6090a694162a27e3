import Verif.Lemmas.F64ConesNear
import Verif.Lemmas.Chroma

/-! The opponent coordinates of a colour other than black are not too small against its cone responses. -/

namespace Mcu.Lemmas

open Mcu.ColorUtils Mcu.MathUtils Props Real

/-- Cone responses that nearly agree come from stimuli that nearly agree. -/
theorem cone_close {fl c d : ℝ} (hf : 0 < fl) (hc : 0 ≤ c) (hd : 0 ≤ d) (h1 : cone fl d ≤ 15.1) (h : cone fl c ≤ 1.000045 * cone fl d) :
    c ≤ 1.00015 * d := by
  set x := (fl * c / 100) ^ (0.42 : ℝ) with hx
  set y := (fl * d / 100) ^ (0.42 : ℝ) with hy
  have x0 : 0 ≤ x := by positivity
  have y0 : 0 ≤ y := by positivity
  have ec : cone fl c = 400 * x / (x + 27.13) := rfl
  have ed : cone fl d = 400 * y / (y + 27.13) := rfl
  rw [ec, ed] at h
  rw [ed] at h1
  have yb : y ≤ 1.07 := by
    rw [div_le_iff₀ (by positivity)] at h1
    norm_num at h1 ⊢; linarith
  have key : x ≤ 1.00005 * y := by
    rw [← mul_div_assoc, div_le_div_iff₀ (by positivity) (by positivity)] at h
    norm_num at h yb ⊢
    nlinarith [mul_nonneg x0 y0]
  have hle : (fl * c / 100) ^ (0.42 : ℝ) ≤ (fl * (1.00015 * d) / 100) ^ (0.42 : ℝ) := by
    rw [show fl * (1.00015 * d) / 100 = 1.00015 * (fl * d / 100) by ring, mul_rpow (by norm_num) (by positivity)]
    refine key.trans (mul_le_mul_of_nonneg_right ?_ y0)
    have e : (0.42 : ℝ) = (21 : ℕ) / (50 : ℕ) := by norm_num
    rw [e]
    exact le_rpow_of_pow_le (by norm_num) (by norm_num) (by norm_num) (by norm_num)
  have hh := (rpow_le_rpow_iff (by positivity) (by positivity) (by norm_num)).1 hle
  have : fl * c ≤ fl * (1.00015 * d) := by linarith
  exact le_of_mul_le_mul_left this hf

/-- `neutral_mix` with some tolerance. -/
theorem near_neutral_mix {r g b x y z k0 k1 k2 : ℝ} (hx : 1.0211 < x ∧ x < 1.0212) (hy : 0.9863 < y ∧ y < 0.98632)
    (hz : 0.9339 < z ∧ z < 0.9340) (hr : 0 ≤ r) (hg : 0 ≤ g) (hb : 0 ≤ b)
    (h0 : x * (0.30269915328759 * r + 0.6023803116433 * g + 0.07047346329738 * b) = k0)
    (h1 : y * (0.15374913599554 * r + 0.77736002827076 * g + 0.08535981854956 * b) = k1)
    (h2 : z * (0.02796570007202 * r + 0.14784523135458 * g + 0.90895832236388 * b) = k2) (p0 : 0 < k0) (p1 : 0 < k1) (p2 : 0 < k2)
    (e0 : k0 ≤ 1.00015 * k1) (e1 : k1 ≤ 1.00015 * k0) (e2 : k2 ≤ 1.00015 * k1) (e3 : k1 ≤ 1.00015 * k2) :
    0.9917 * g < b ∧ b < g := by
  have bound {w l u m k : ℝ} (hw : l < w ∧ w < u) (hl : 0 < l) (h : w * m = k) (hk : 0 < k) : k < u * m ∧ l * m < k := by
    have hm : 0 < m := by
      rcases le_or_gt m 0 with h' | h'
      · have := mul_nonpos_of_nonneg_of_nonpos (hl.trans hw.1).le h'
        linarith
      · exact h'
    constructor <;> rw [← h]
    · exact mul_lt_mul_of_pos_right hw.2 hm
    · exact mul_lt_mul_of_pos_right hw.1 hm
  have b0 := bound hx (by norm_num) h0 p0
  have b1 := bound hy (by norm_num) h1 p1
  have b2 := bound hz (by norm_num) h2 p2
  clear h0 h1 h2
  norm_num at b0 b1 b2 e0 e1 e2 e3 ⊢
  constructor <;> linarith [b0.1, b0.2, b1.1, b1.2, b2.1, b2.2]

theorem cones_pos {argb : Int} (h : NotBlack argb) :
    (0.02 ≤ (conesR argb).x0 ∧ (conesR argb).x0 ≤ 15) ∧ (0.02 ≤ (conesR argb).x1 ∧ (conesR argb).x1 ≤ 15) ∧ (0.02 ≤ (conesR argb).x2 ∧ (conesR argb).x2 ≤ 15) := by
  obtain ⟨s0, s1, s2⟩ := stim_range h
  rw [conesR_eq]
  exact ⟨cone_range s0.1 s0.2, cone_range s1.1 s1.2, cone_range s2.1 s2.2⟩

theorem rho_nonneg (v : Vec3 ℝ) : 0 ≤ rho v := Real.sqrt_nonneg _

theorem rho_a (v : Vec3 ℝ) : |opA v| ≤ rho v := by
  unfold rho
  rw [← Real.sqrt_sq_eq_abs]
  exact Real.sqrt_le_sqrt (by nlinarith [mul_self_nonneg (opB v)])

theorem rho_b (v : Vec3 ℝ) : |opB v| ≤ rho v := by
  unfold rho
  rw [← Real.sqrt_sq_eq_abs]
  exact Real.sqrt_le_sqrt (by nlinarith [mul_self_nonneg (opA v)])

/-- No colour but black is near the neutral of the viewing conditions. -/
theorem rho_ge {argb : Int} (h : NotBlack argb) :
    31 / 10 ^ 7 * ((conesR argb).x0 + (conesR argb).x1 + (conesR argb).x2) ≤ rho (conesR argb) := by
  by_contra hlt
  push Not at hlt
  obtain ⟨c0, c1, c2⟩ := cones_pos h
  have ha := abs_le.1 (rho_a (conesR argb))
  have hb := abs_le.1 (rho_b (conesR argb))
  have ea : opA (conesR argb) = (11.0 * (conesR argb).x0 + (-12.0) * (conesR argb).x1 + (conesR argb).x2) / 11.0 := rfl
  have eb : opB (conesR argb) = ((conesR argb).x0 + (conesR argb).x1 - 2.0 * (conesR argb).x2) / 9.0 := rfl
  have hrho := rho_nonneg (conesR argb)
  generalize opA (conesR argb) = a at *
  generalize opB (conesR argb) = b at *
  generalize rho (conesR argb) = ρ at *
  norm_num at ea eb hlt c0 c1 c2
  have k : ((conesR argb).x0 ≤ 1.000045 * (conesR argb).x1 ∧ (conesR argb).x1 ≤ 1.000045 * (conesR argb).x0) ∧
      ((conesR argb).x2 ≤ 1.000045 * (conesR argb).x1 ∧ (conesR argb).x1 ≤ 1.000045 * (conesR argb).x2) := by
    norm_num
    generalize (conesR argb).x0 = p at *
    generalize (conesR argb).x1 = q at *
    generalize (conesR argb).x2 = r at *
    have e1 : p = q + (22 * a + 9 * b) / 23 := by subst ea eb; ring
    have e2 : r = q + 11 * (a - 9 * b) / 23 := by subst ea eb; ring
    clear ea eb
    refine ⟨⟨?_, ?_⟩, ?_, ?_⟩ <;> linarith
  obtain ⟨⟨k0, k1⟩, k2, k3⟩ := k
  rw [conesR_eq] at k0 k1 k2 k3 c0 c1 c2
  dsimp only at k0 k1 k2 k3 c0 c1 c2
  have hv := sRgb_pos
  obtain ⟨b0, b1, b2⟩ := raw_bounds h
  have q0 : 0 < vcR.rgbD.x0 * (rawR argb).x0 := mul_pos hv.d0 (lt_of_lt_of_le (by norm_num) b0.1)
  have q1 : 0 < vcR.rgbD.x1 * (rawR argb).x1 := mul_pos hv.d1 (lt_of_lt_of_le (by norm_num) b1.1)
  have q2 : 0 < vcR.rgbD.x2 * (rawR argb).x2 := mul_pos hv.d2 (lt_of_lt_of_le (by norm_num) b2.1)
  have f0 := cone_close hv.fl q0.le q1.le (c1.2.trans (by norm_num)) k0
  have f1 := cone_close hv.fl q1.le q0.le (c0.2.trans (by norm_num)) k1
  have f2 := cone_close hv.fl q2.le q1.le (c1.2.trans (by norm_num)) k2
  have f3 := cone_close hv.fl q1.le q2.le (c2.2.trans (by norm_num)) k3
  obtain ⟨hr, hg, hb'⟩ := channel_range argb
  have hr1 := (linearized_range _ hr.1 hr.2).1
  have hg1 := (linearized_range _ hg.1 hg.2).1
  have hb1 := (linearized_range _ hb'.1 hb'.2).1
  obtain ⟨bx, by', bz⟩ := rgbD_bounds
  have hraw := rawCones_argb argb
  simp only at hraw
  have er : rawR argb = _ := hraw
  rw [er] at q0 q1 q2 f0 f1 f2 f3
  dsimp only at q0 q1 q2 f0 f1 f2 f3
  obtain ⟨g1, g2⟩ := near_neutral_mix bx by' bz hr1 hg1 hb1 rfl rfl rfl q0 q1 q2 f0 f1 f2 f3
  have hlt' : blueFromArgb argb < greenFromArgb argb := c10_strictMono.lt_iff_lt.1 g2
  have := linearized_gap hb'.1 hlt' hg.2
  linarith

end Mcu.Lemmas
