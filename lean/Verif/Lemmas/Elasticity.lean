import Mathlib.Analysis.SpecialFunctions.Pow.Real
import Mathlib.Analysis.SpecialFunctions.Pow.Deriv
import Mathlib.Analysis.Convex.SpecificFunctions.Basic
import Mathlib.Analysis.Convex.SpecificFunctions.Pow
import Mathlib.Tactic.Linarith
import Mathlib.Tactic.FieldSimp

/-! How fast the luminance grows with the lightness, for cone responses near the sRGB gamut: between the powers 3/2
and 5/2. -/

namespace Mcu.Lemmas

/-- Cone responses (red, green, blue) about as far from gray as those of sRGB colours. -/
structure NearGamut (r g b : ℝ) : Prop where
  pos : 0 < g
  r_lo : 0.91 * g ≤ r
  r_hi : r ≤ 1.353 * g
  b_lo : 0.47 * g ≤ b
  b_hi : b ≤ 2.66 * g

/-- The inverse of the compression of cone responses. -/
noncomputable def unadapt (a : ℝ) : ℝ := (27.13 * a / (400 - a)) ^ (1 / 0.42 : ℝ)

/-- The achromatic response. -/
noncomputable def achromatic (r g b : ℝ) : ℝ := 2 * r + g + 0.05 * b

theorem unadapt_pos {a : ℝ} (h0 : 0 < a) (h1 : a < 400) : 0 < unadapt a := by
  have : 0 < 400 - a := by linarith
  unfold unadapt; positivity

theorem unadapt_mono {a b : ℝ} (h0 : 0 < a) (hab : a ≤ b) (h1 : b < 400) : unadapt a ≤ unadapt b := by
  have h2 : 0 < 400 - b := by linarith
  have h3 : 0 < 400 - a := by linarith
  unfold unadapt
  have hb : 0 < b := by linarith
  apply Real.rpow_le_rpow (by positivity) _ (by norm_num)
  gcongr

/-- Growing a response by a factor grows the stimulus at least as the tangent of the power. -/
theorem unadapt_tangent {a b k : ℝ} (hk : 0 < k) (ha : 0 < a) (h1 : a < 400)
    (h : k * (a / (400 - a)) ≤ b / (400 - b)) : (1 + 1 / 0.42 * (k - 1)) * unadapt a ≤ unadapt b := by
  have h3 : 0 < 400 - a := by linarith
  have e : unadapt b ≥ (k * (27.13 * a / (400 - a))) ^ (1 / 0.42 : ℝ) := by
    unfold unadapt
    apply Real.rpow_le_rpow (by positivity) _ (by norm_num)
    rw [mul_div_assoc, mul_div_assoc]
    nlinarith
  rw [Real.mul_rpow hk.le (by positivity)] at e
  refine le_trans ?_ e
  apply mul_le_mul_of_nonneg_right _ (unadapt_pos ha h1).le
  have := one_add_mul_self_le_rpow_one_add (s := k - 1) (by norm_num at *; linarith) (p := 1 / 0.42) (by norm_num)
  rwa [add_sub_cancel] at this

/-- An upper bound of a power by a rational one. -/
theorem unadapt_ratio {a b k m : ℝ} (hk : 1 ≤ k) (ha : 0 < a) (hb0 : 0 < b) (hb : b < 400) (h1 : a < 400) (hm : 0 ≤ m)
    (h : b / (400 - b) ≤ k * (a / (400 - a))) (hkm : k ^ 12 ≤ m ^ 5) : unadapt b ≤ m * unadapt a := by
  have h3 : 0 < 400 - a := by linarith
  have h4 : 0 < 400 - b := by linarith
  have e : unadapt b ≤ (k * (27.13 * a / (400 - a))) ^ (1 / 0.42 : ℝ) := by
    unfold unadapt
    apply Real.rpow_le_rpow (by positivity) _ (by norm_num)
    rw [mul_div_assoc, mul_div_assoc]
    nlinarith
  rw [Real.mul_rpow (by norm_num at *; linarith) (by positivity)] at e
  refine le_trans e ?_
  apply mul_le_mul_of_nonneg_right _ (unadapt_pos ha h1).le
  calc k ^ (1 / 0.42 : ℝ) ≤ k ^ (12 / 5 : ℝ) := Real.rpow_le_rpow_of_exponent_le hk (by norm_num)
    _ = (k ^ 12) ^ (1 / 5 : ℝ) := by
        rw [← Real.rpow_natCast, ← Real.rpow_mul (by norm_num at *; linarith)]; norm_num
    _ ≤ (m ^ 5) ^ (1 / 5 : ℝ) := by
        apply Real.rpow_le_rpow (by positivity) hkm (by norm_num)
    _ = m := by
        rw [← Real.rpow_natCast, ← Real.rpow_mul hm]; norm_num

namespace NearGamut

variable {r g b : ℝ}

theorem r_pos (h : NearGamut r g b) : 0 < r := by have := h.pos; have := h.r_lo; norm_num at *; linarith
theorem b_pos (h : NearGamut r g b) : 0 < b := by have := h.pos; have := h.b_lo; norm_num at *; linarith

theorem g_small (h : NearGamut r g b) (hp : achromatic r g b ≤ 40) : g ≤ 14.1 := by
  have := h.pos; have := h.r_lo; have := h.b_lo
  unfold achromatic at hp
  norm_num at *; linarith

theorem r_small (h : NearGamut r g b) (hp : achromatic r g b ≤ 40) : r ≤ 14.8 := by
  have := h.pos; have := h.r_hi; have := h.b_lo
  unfold achromatic at hp
  norm_num at *; linarith

theorem b_small (h : NearGamut r g b) (hp : achromatic r g b ≤ 40) : b ≤ 36.1 := by
  have := h.pos; have := h.r_lo; have := h.b_hi
  unfold achromatic at hp
  norm_num at *; linarith

/-- The stimulus of red compared with green. -/
theorem x_r (h : NearGamut r g b) (hp : achromatic r g b ≤ 40) : 0.778 * unadapt g ≤ unadapt r := by
  have hg := h.pos; have hr := h.r_pos; have h1 := h.r_lo
  have hgs := h.g_small hp; have hrs := h.r_small hp
  have := unadapt_tangent (a := g) (b := r) (k := 0.907) (by norm_num) hg (by norm_num at *; linarith) (by
    have : 0 < 400 - g := by norm_num at *; linarith
    have : 0 < 400 - r := by norm_num at *; linarith
    rw [← mul_div_assoc, div_le_div_iff₀ (by assumption) (by assumption)]
    norm_num at *; nlinarith)
  refine le_trans ?_ this
  apply mul_le_mul_of_nonneg_right _ (unadapt_pos hg (by norm_num at *; linarith)).le
  norm_num

theorem x_r_of (h : NearGamut r g b) (hp : achromatic r g b ≤ 40) {k : ℝ} (hk : 1 ≤ k) (hkr : k * g ≤ r) :
    (1 + 1 / 0.42 * (k - 1)) * unadapt g ≤ unadapt r := by
  have hg := h.pos; have hr := h.r_pos
  have hgs := h.g_small hp; have hrs := h.r_small hp
  have hgr : g ≤ r := by nlinarith
  refine unadapt_tangent (by norm_num at *; linarith) hg (by norm_num at *; linarith) ?_
  have : 0 < 400 - g := by norm_num at *; linarith
  have : 0 < 400 - r := by norm_num at *; linarith
  rw [← mul_div_assoc, div_le_div_iff₀ (by assumption) (by assumption)]
  nlinarith

theorem x_b (h : NearGamut r g b) (hp : achromatic r g b ≤ 40) : unadapt b ≤ 12.3 * unadapt g := by
  have hg := h.pos; have hb := h.b_pos; have h1 := h.b_hi
  have hgs := h.g_small hp; have hbs := h.b_small hp
  refine unadapt_ratio (k := 2.84) (by norm_num) hg hb (by norm_num at *; linarith) (by norm_num at *; linarith) (by norm_num) ?_
    (by norm_num)
  have : 0 < 400 - g := by norm_num at *; linarith
  have : 0 < 400 - b := by norm_num at *; linarith
  rw [← mul_div_assoc, div_le_div_iff₀ (by assumption) (by assumption)]
  norm_num at *; nlinarith

theorem x_b_one (h : NearGamut r g b) (hp : achromatic r g b ≤ 40) (h1 : b ≤ g) : unadapt b ≤ unadapt g :=
  unadapt_mono h.b_pos h1 (by have := h.g_small hp; norm_num at *; linarith)

theorem x_b_mid (h : NearGamut r g b) (hp : achromatic r g b ≤ 40) (h1 : b ≤ 1.5 * g) :
    unadapt b ≤ 2.8 * unadapt g := by
  have hg := h.pos; have hb := h.b_pos
  have hgs := h.g_small hp; have hbs := h.b_small hp
  refine unadapt_ratio (k := 1.53) (by norm_num) hg hb (by norm_num at *; linarith) (by norm_num at *; linarith) (by norm_num) ?_
    (by norm_num)
  have : 0 < 400 - g := by norm_num at *; linarith
  have : 0 < 400 - b := by norm_num at *; linarith
  rw [← mul_div_assoc, div_le_div_iff₀ (by assumption) (by assumption)]
  norm_num at *; nlinarith

end NearGamut

/-- 0.42 times the elasticity of the stimulus of a cone response `a` with respect to the lightness. -/
noncomputable def rate (q G p a : ℝ) : ℝ := 400 / (400 - a) * (q + G * (p / (3.05 * a) - 1))

/-- About the weights of the three stimuli in the luminance. -/
structure Weights (wr wg wb : ℝ) : Prop where
  r_lo : 97.6 ≤ wr
  r_hi : wr ≤ 97.7
  g_lo : 162.1 ≤ wg
  g_hi : wg ≤ 162.2
  b_lo : 2.47 ≤ wb
  b_hi : wb ≤ 2.48

theorem combine_upper {wr wg wb xr xg xb Rr Rg Rb ρr ρg ρb ξ : ℝ} (hw : Weights wr wg wb) (hg : 0 < xg) (hb : 0 ≤ xb)
    (hξ : 0 ≤ ξ) (hxr : ξ * xg ≤ xr) (hxb : xb ≤ 12.3 * xg) (hr : Rr ≤ ρr) (hr1 : ρr ≤ 1.05) (hgg : Rg ≤ ρg)
    (hbb : ρb ≤ Rb) (hb1 : ρb ≤ 1.05)
    (h1 : 2.48 * 12.3 * (1.05 - ρb) ≤ 97.6 * ξ * (1.05 - ρr) + 162.1 * (1.05 - ρg))
    (h2 : 2.48 * 12.3 * (1.05 - ρb) ≤ 97.6 * ξ * (1.05 - ρr) + 162.2 * (1.05 - ρg)) :
    wr * xr * Rr + wg * xg * Rg - wb * xb * Rb ≤ 1.05 * (wr * xr + wg * xg - wb * xb) := by
  obtain ⟨a1, a2, a3, a4, a5, a6⟩ := hw
  have hwr : 0 ≤ wr := by norm_num at *; linarith
  have hwg : 0 ≤ wg := by norm_num at *; linarith
  have hwb : 0 ≤ wb := by norm_num at *; linarith
  have hxr0 : 0 ≤ xr := le_trans (by positivity) hxr
  have t1 : 97.6 * ξ * (1.05 - ρr) * xg ≤ wr * xr * (1.05 - Rr) := by
    have e1 : 97.6 * (ξ * xg) ≤ wr * xr := mul_le_mul a1 hxr (by positivity) hwr
    have e2 : 97.6 * (ξ * xg) * (1.05 - ρr) ≤ wr * xr * (1.05 - Rr) :=
      mul_le_mul e1 (by linarith) (by linarith) (by positivity)
    linarith
  have t3 : wb * xb * (1.05 - Rb) ≤ 2.48 * 12.3 * (1.05 - ρb) * xg := by
    have e1 : wb * xb ≤ 2.48 * (12.3 * xg) := mul_le_mul a6 hxb hb (by norm_num)
    have e2 : wb * xb * (1.05 - Rb) ≤ wb * xb * (1.05 - ρb) :=
      mul_le_mul_of_nonneg_left (by linarith) (by positivity)
    have e3 : wb * xb * (1.05 - ρb) ≤ 2.48 * (12.3 * xg) * (1.05 - ρb) :=
      mul_le_mul_of_nonneg_right e1 (by linarith)
    linarith
  have t2 : wg * (1.05 - ρg) * xg ≤ wg * xg * (1.05 - Rg) := by
    have : wg * xg * (1.05 - ρg) ≤ wg * xg * (1.05 - Rg) :=
      mul_le_mul_of_nonneg_left (by linarith) (by positivity)
    linarith
  have t4 : 2.48 * 12.3 * (1.05 - ρb) ≤ 97.6 * ξ * (1.05 - ρr) + wg * (1.05 - ρg) := by
    rcases le_total 0 (1.05 - ρg) with h | h
    · have := mul_le_mul_of_nonneg_right a3 h; linarith
    · have := mul_le_mul_of_nonpos_right a4 h; linarith
  have t5 := mul_le_mul_of_nonneg_right t4 hg.le
  linarith

theorem combine_lower {wr wg wb xr xg xb Rr Rg Rb ρg ρb m : ℝ} (hw : Weights wr wg wb) (hg : 0 < xg) (hxr : 0 ≤ xr)
    (hb : 0 ≤ xb) (hr : 0.63 ≤ Rr) (hgg : ρg ≤ Rg) (hg1 : 0.63 ≤ ρg) (hbb : Rb ≤ ρb) (hb1 : 0.63 ≤ ρb)
    (hm : xb ≤ m * xg) (h1 : 2.48 * m * (ρb - 0.63) ≤ 162.1 * (ρg - 0.63)) :
    0.63 * (wr * xr + wg * xg - wb * xb) ≤ wr * xr * Rr + wg * xg * Rg - wb * xb * Rb := by
  obtain ⟨a1, a2, a3, a4, a5, a6⟩ := hw
  have hwr : 0 ≤ wr := by norm_num at *; linarith
  have hwg : 0 ≤ wg := by norm_num at *; linarith
  have hwb : 0 ≤ wb := by norm_num at *; linarith
  have t1 : 0 ≤ wr * xr * (Rr - 0.63) := mul_nonneg (by positivity) (by linarith)
  have t2 : 162.1 * (ρg - 0.63) * xg ≤ wg * xg * (Rg - 0.63) := by
    have : 162.1 * xg * (ρg - 0.63) ≤ wg * xg * (Rg - 0.63) :=
      mul_le_mul (by gcongr) (by linarith) (by linarith) (by positivity)
    linarith
  have t3 : wb * xb * (Rb - 0.63) ≤ 2.48 * m * (ρb - 0.63) * xg := by
    have e2 : wb * xb * (Rb - 0.63) ≤ wb * xb * (ρb - 0.63) :=
      mul_le_mul_of_nonneg_left (by linarith) (by positivity)
    have e1 : wb * xb ≤ 2.48 * (m * xg) := mul_le_mul a6 hm hb (by norm_num)
    have e3 : wb * xb * (ρb - 0.63) ≤ 2.48 * (m * xg) * (ρb - 0.63) :=
      mul_le_mul_of_nonneg_right e1 (by linarith)
    linarith
  have t5 := mul_le_mul_of_nonneg_right h1 hg.le
  linarith

/-- The rate is affine in `G`. -/
theorem rate_affine (q G p a : ℝ) :
    rate q G p a = (1 - G / 1.315) * rate q 0 p a + G / 1.315 * rate q 1.315 p a := by
  unfold rate
  have : G / 1.315 * 1.315 = G := by norm_num
  generalize hs : p / (3.05 * a) - 1 = s
  linear_combination (-(400 / (400 - a) * s)) * this

theorem gain {a m : ℝ} (h0 : 0 < a) (h1 : a ≤ m) (hm : m < 400) : 1 ≤ 400 / (400 - a) ∧ 400 / (400 - a) ≤ 400 / (400 - m) := by
  constructor
  · rw [le_div_iff₀ (by linarith)]; linarith
  · apply div_le_div_of_nonneg_left (by norm_num) (by linarith) (by linarith)

theorem rate_le {q G p a m Q U : ℝ} (h0 : 0 < a) (h1 : a ≤ m) (hm : m < 400) (hG : 0 ≤ G) (hq : q ≤ Q) (hU : p ≤ U * a)
    (hpos : 0 ≤ Q + G * (U / 3.05 - 1)) : rate q G p a ≤ 400 / (400 - m) * (Q + G * (U / 3.05 - 1)) := by
  obtain ⟨g1, g2⟩ := gain h0 h1 hm
  have e : p / (3.05 * a) ≤ U / 3.05 := by
    rw [div_le_div_iff₀ (by positivity) (by norm_num)]; nlinarith
  have e2 : q + G * (p / (3.05 * a) - 1) ≤ Q + G * (U / 3.05 - 1) := by
    have := mul_le_mul_of_nonneg_left (sub_le_sub_right e 1) hG
    linarith
  unfold rate
  calc _ ≤ 400 / (400 - a) * (Q + G * (U / 3.05 - 1)) := mul_le_mul_of_nonneg_left e2 (by linarith)
    _ ≤ _ := mul_le_mul_of_nonneg_right g2 hpos

theorem rate_ge {q G p a m Q U : ℝ} (h0 : 0 < a) (h1 : a ≤ m) (hm : m < 400) (hG : 0 ≤ G) (hq : Q ≤ q) (hU : U * a ≤ p) :
    min (Q + G * (U / 3.05 - 1)) (400 / (400 - m) * (Q + G * (U / 3.05 - 1))) ≤ rate q G p a := by
  obtain ⟨g1, g2⟩ := gain h0 h1 hm
  have e : U / 3.05 ≤ p / (3.05 * a) := by
    rw [div_le_div_iff₀ (by norm_num) (by positivity)]; nlinarith
  have e2 : Q + G * (U / 3.05 - 1) ≤ q + G * (p / (3.05 * a) - 1) := by
    have := mul_le_mul_of_nonneg_left (sub_le_sub_right e 1) hG
    linarith
  have e3 : 400 / (400 - a) * (Q + G * (U / 3.05 - 1)) ≤ rate q G p a := by
    unfold rate; exact mul_le_mul_of_nonneg_left e2 (by linarith)
  generalize Q + G * (U / 3.05 - 1) = z at *
  refine le_trans ?_ e3
  rcases le_total 0 z with h | h
  · exact (min_le_left _ _).trans (by nlinarith)
  · exact (min_le_right _ _).trans (by nlinarith)

section

variable {r g b q : ℝ} {wr wg wb : ℝ}

theorem upper_zero (h : NearGamut r g b) (hp : achromatic r g b ≤ 40) (hw : Weights wr wg wb) (hq : 0.7591 ≤ q ∧ q ≤ 0.7592) :
    wr * unadapt r * rate q 0 (achromatic r g b) r + wg * unadapt g * rate q 0 (achromatic r g b) g
      - wb * unadapt b * rate q 0 (achromatic r g b) b ≤ 1.05 * (wr * unadapt r + wg * unadapt g - wb * unadapt b) := by
  have hg := h.pos; have hr := h.r_pos; have hb := h.b_pos
  have hgs := h.g_small hp; have hrs := h.r_small hp; have hbs := h.b_small hp
  have hp0 : 0 < achromatic r g b := by unfold achromatic; positivity
  have u (a : ℝ) (ha : 0 < a) : achromatic r g b ≤ achromatic r g b / a * a := by rw [div_mul_cancel₀ _ ha.ne']
  have R := rate_le (q := q) (G := 0) (p := achromatic r g b) (Q := 0.7592) hr hrs (by norm_num) le_rfl hq.2 (u r hr) (by norm_num)
  have R' := rate_le (q := q) (G := 0) (p := achromatic r g b) (Q := 0.7592) hg hgs (by norm_num) le_rfl hq.2 (u g hg) (by norm_num)
  have R'' := rate_ge (q := q) (G := 0) (p := achromatic r g b) (Q := 0.7591) (U := 0) hb hbs (by norm_num) le_rfl hq.1 (by linarith)
  rw [zero_mul, add_zero] at R R' R''
  exact combine_upper hw (unadapt_pos hg (by norm_num at *; linarith)) (unadapt_pos hb (by norm_num at *; linarith)).le
    (by norm_num) (h.x_r hp) (h.x_b hp) R (by norm_num) R' R'' (by norm_num) (by norm_num) (by norm_num)

theorem upper_one (h : NearGamut r g b) (hp : achromatic r g b ≤ 40) (hw : Weights wr wg wb) (hq : 0.7591 ≤ q ∧ q ≤ 0.7592)
    {k l ξ : ℝ} (hk : 0.91 ≤ k) (hk1 : k * g ≤ r) (hl : r ≤ l * g) (hξ : ξ * unadapt g ≤ unadapt r) (hξ0 : 0 ≤ ξ)
    (n1 : 400 / (400 - 14.8) * (0.7592 + 1.315 * ((2 + 1.133 / k) / 3.05 - 1)) ≤ 1.05)
    (n0 : 0 ≤ 0.7592 + 1.315 * ((2 + 1.133 / k) / 3.05 - 1)) (n0' : 0 ≤ 0.7592 + 1.315 * ((2 * l + 1.133) / 3.05 - 1))
    (n2 : min (0.7591 + 1.315 * (((2 * k + 1) / 2.66 + 0.05) / 3.05 - 1)) (400 / (400 - 36.1) * (0.7591 + 1.315 * (((2 * k + 1) / 2.66 + 0.05) / 3.05 - 1))) ≤ 1.05)
    (n3 : ∀ w : ℝ, w = 162.1 ∨ w = 162.2 → 2.48 * 12.3 * (1.05 - min (0.7591 + 1.315 * (((2 * k + 1) / 2.66 + 0.05) / 3.05 - 1)) (400 / (400 - 36.1) * (0.7591 + 1.315 * (((2 * k + 1) / 2.66 + 0.05) / 3.05 - 1)))) ≤
      97.6 * ξ * (1.05 - 400 / (400 - 14.8) * (0.7592 + 1.315 * ((2 + 1.133 / k) / 3.05 - 1)))
        + w * (1.05 - 400 / (400 - 14.1) * (0.7592 + 1.315 * ((2 * l + 1.133) / 3.05 - 1)))) :
    wr * unadapt r * rate q 1.315 (achromatic r g b) r + wg * unadapt g * rate q 1.315 (achromatic r g b) g
      - wb * unadapt b * rate q 1.315 (achromatic r g b) b ≤ 1.05 * (wr * unadapt r + wg * unadapt g - wb * unadapt b) := by
  have hg := h.pos; have hr := h.r_pos; have hb := h.b_pos
  have hgs := h.g_small hp; have hrs := h.r_small hp; have hbs := h.b_small hp
  have hb2 := h.b_hi
  have hk0 : 0 < k := by norm_num at *; linarith
  have R := rate_le (q := q) (G := 1.315) (p := achromatic r g b) (Q := 0.7592) (U := 2 + 1.133 / k) hr hrs (by norm_num) (by norm_num) hq.2 (by
    have : g ≤ 1 / k * r := by rw [one_div_mul_eq_div, le_div_iff₀ hk0]; linarith
    have e : (2 + 1.133 / k) * r = 2 * r + 1.133 * (1 / k * r) := by ring
    rw [e]; unfold achromatic
    norm_num at *; linarith) n0
  have R' := rate_le (q := q) (G := 1.315) (p := achromatic r g b) (Q := 0.7592) (U := 2 * l + 1.133) hg hgs (by norm_num) (by norm_num) hq.2 (by
    unfold achromatic; norm_num at *; linarith) n0'
  have R'' := rate_ge (q := q) (G := 1.315) (p := achromatic r g b) (Q := 0.7591) (U := (2 * k + 1) / 2.66 + 0.05) hb hbs (by norm_num) (by norm_num) hq.1 (by
    have e1 : (2 * k + 1) / 2.66 * b ≤ (2 * k + 1) * g := by
      rw [div_mul_eq_mul_div, div_le_iff₀ (by norm_num)]; nlinarith
    unfold achromatic; norm_num at *; linarith)
  exact combine_upper hw (unadapt_pos hg (by norm_num at *; linarith)) (unadapt_pos hb (by norm_num at *; linarith)).le
    hξ0 hξ (h.x_b hp) R n1 R' R'' n2 (n3 _ (.inl rfl)) (n3 _ (.inr rfl))

theorem upper_one_all (h : NearGamut r g b) (hp : achromatic r g b ≤ 40) (hw : Weights wr wg wb) (hq : 0.7591 ≤ q ∧ q ≤ 0.7592) :
    wr * unadapt r * rate q 1.315 (achromatic r g b) r + wg * unadapt g * rate q 1.315 (achromatic r g b) g
      - wb * unadapt b * rate q 1.315 (achromatic r g b) b ≤ 1.05 * (wr * unadapt r + wg * unadapt g - wb * unadapt b) := by
  have n3 {k l ξ : ℝ} (a : _) (b : _) (w : ℝ) (hw : w = 162.1 ∨ w = 162.2) : 2.48 * 12.3 * (1.05 - min (0.7591 + 1.315 * (((2 * k + 1) / 2.66 + 0.05) / 3.05 - 1)) (400 / (400 - 36.1) * (0.7591 + 1.315 * (((2 * k + 1) / 2.66 + 0.05) / 3.05 - 1)))) ≤
      97.6 * ξ * (1.05 - 400 / (400 - 14.8) * (0.7592 + 1.315 * ((2 + 1.133 / k) / 3.05 - 1)))
        + w * (1.05 - 400 / (400 - 14.1) * (0.7592 + 1.315 * ((2 * l + 1.133) / 3.05 - 1))) :=
    hw.elim (fun h => by rw [h]; exact a) (fun h => by rw [h]; exact b)
  rcases le_total r (1 * g) with c1 | c1
  · exact upper_one h hp hw hq (k := 0.91) le_rfl h.r_lo c1 (h.x_r hp) (by norm_num) (by norm_num) (by norm_num) (by norm_num) (by norm_num) (n3 (by norm_num) (by norm_num))
  rcases le_total r (1.1 * g) with c2 | c2
  · exact upper_one h hp hw hq (by norm_num) c1 c2 (h.x_r_of hp (by norm_num) c1) (by norm_num) (by norm_num) (by norm_num) (by norm_num) (by norm_num) (n3 (by norm_num) (by norm_num))
  rcases le_total r (1.2 * g) with c3 | c3
  · exact upper_one h hp hw hq (by norm_num) c2 c3 (h.x_r_of hp (by norm_num) c2) (by norm_num) (by norm_num) (by norm_num) (by norm_num) (by norm_num) (n3 (by norm_num) (by norm_num))
  rcases le_total r (1.28 * g) with c4 | c4
  · exact upper_one h hp hw hq (by norm_num) c3 c4 (h.x_r_of hp (by norm_num) c3) (by norm_num) (by norm_num) (by norm_num) (by norm_num) (by norm_num) (n3 (by norm_num) (by norm_num))
  · exact upper_one h hp hw hq (by norm_num) c4 h.r_hi (h.x_r_of hp (by norm_num) c4) (by norm_num) (by norm_num) (by norm_num) (by norm_num) (by norm_num) (n3 (by norm_num) (by norm_num))

theorem lower_zero (h : NearGamut r g b) (hp : achromatic r g b ≤ 40) (hw : Weights wr wg wb) (hq : 0.7591 ≤ q ∧ q ≤ 0.7592) :
    0.63 * (wr * unadapt r + wg * unadapt g - wb * unadapt b) ≤
      wr * unadapt r * rate q 0 (achromatic r g b) r + wg * unadapt g * rate q 0 (achromatic r g b) g
      - wb * unadapt b * rate q 0 (achromatic r g b) b := by
  have hg := h.pos; have hr := h.r_pos; have hb := h.b_pos
  have hgs := h.g_small hp; have hrs := h.r_small hp; have hbs := h.b_small hp
  have hp0 : 0 < achromatic r g b := by unfold achromatic; positivity
  have u (a : ℝ) (ha : 0 < a) : achromatic r g b ≤ achromatic r g b / a * a := by rw [div_mul_cancel₀ _ ha.ne']
  have R := rate_ge (q := q) (G := 0) (p := achromatic r g b) (Q := 0.7591) (U := 0) hr hrs (by norm_num) le_rfl hq.1 (by linarith)
  have R' := rate_ge (q := q) (G := 0) (p := achromatic r g b) (Q := 0.7591) (U := 0) hg hgs (by norm_num) le_rfl hq.1 (by linarith)
  have R'' := rate_le (q := q) (G := 0) (p := achromatic r g b) (Q := 0.7592) hb hbs (by norm_num) le_rfl hq.2 (u b hb) (by norm_num)
  rw [zero_mul, add_zero] at R R' R''
  exact combine_lower hw (unadapt_pos hg (by norm_num at *; linarith)) (unadapt_pos hr (by norm_num at *; linarith)).le
    (unadapt_pos hb (by norm_num at *; linarith)).le (le_trans (by norm_num) R) R' (by norm_num) R'' (by norm_num)
    (h.x_b hp) (by norm_num)

theorem lower_one (h : NearGamut r g b) (hp : achromatic r g b ≤ 40) (hw : Weights wr wg wb) (hq : 0.7591 ≤ q ∧ q ≤ 0.7592) :
    0.63 * (wr * unadapt r + wg * unadapt g - wb * unadapt b) ≤
      wr * unadapt r * rate q 1.315 (achromatic r g b) r + wg * unadapt g * rate q 1.315 (achromatic r g b) g
      - wb * unadapt b * rate q 1.315 (achromatic r g b) b := by
  have hg := h.pos; have hr := h.r_pos; have hb := h.b_pos
  have hgs := h.g_small hp; have hrs := h.r_small hp; have hbs := h.b_small hp
  have hr1 := h.r_lo; have hr2 := h.r_hi; have hb1 := h.b_lo; have hb2 := h.b_hi
  have R := rate_ge (q := q) (G := 1.315) (p := achromatic r g b) (Q := 0.7591) (U := 2 + 1.0235 / 1.353) hr hrs (by norm_num) (by norm_num) hq.1 (by
    unfold achromatic; norm_num at *; linarith)
  have R' := rate_ge (q := q) (G := 1.315) (p := achromatic r g b) (Q := 0.7591) (U := 2 * 0.91 + 1.0235) hg hgs (by norm_num) (by norm_num) hq.1 (by
    unfold achromatic; norm_num at *; linarith)
  have x1 := unadapt_pos hg (by norm_num at *; linarith)
  have x2 := (unadapt_pos hr (by norm_num at *; linarith)).le
  have x3 := (unadapt_pos hb (by norm_num at *; linarith)).le
  rcases le_total b g with c1 | c1
  · have R'' := rate_le (q := q) (G := 1.315) (p := achromatic r g b) (Q := 0.7592) (U := 3.706 / 0.47 + 0.05) hb (c1.trans hgs) (by norm_num) (by norm_num) hq.2 (by
      unfold achromatic; norm_num at *; linarith) (by norm_num)
    exact combine_lower hw x1 x2 x3 (le_trans (by norm_num) R) R' (by norm_num) R'' (by norm_num)
      (by rw [one_mul]; exact h.x_b_one hp c1) (by norm_num)
  rcases le_total b (1.5 * g) with c2 | c2
  · have R'' := rate_le (q := q) (G := 1.315) (p := achromatic r g b) (m := 22) (Q := 0.7592) (U := 3.756) hb (by norm_num at *; linarith) (by norm_num) (by norm_num) hq.2 (by
      unfold achromatic; norm_num at *; linarith) (by norm_num)
    exact combine_lower hw x1 x2 x3 (le_trans (by norm_num) R) R' (by norm_num) R'' (by norm_num)
      (h.x_b_mid hp c2) (by norm_num)
  · have R'' := rate_le (q := q) (G := 1.315) (p := achromatic r g b) (Q := 0.7592) (U := 3.706 / 1.5 + 0.05) hb hbs (by norm_num) (by norm_num) hq.2 (by
      unfold achromatic; norm_num at *; linarith) (by norm_num)
    exact combine_lower hw x1 x2 x3 (le_trans (by norm_num) R) R' (by norm_num) (R''.trans (show _ ≤ (0.63 : ℝ) by norm_num)) le_rfl
      (h.x_b hp) (by norm_num)

theorem affine_le {a0 a1 b0 b1 t : ℝ} (h0 : a0 ≤ b0) (h1 : a1 ≤ b1) (ht : 0 ≤ t ∧ t ≤ 1) :
    (1 - t) * a0 + t * a1 ≤ (1 - t) * b0 + t * b1 :=
  add_le_add (mul_le_mul_of_nonneg_left h0 (by linarith [ht.2])) (mul_le_mul_of_nonneg_left h1 ht.1)

/-- The elasticity of the luminance is between 3/2 and 5/2 (all three terms multiplied by 0.42). -/
theorem rate_bounds (h : NearGamut r g b) (hp : achromatic r g b ≤ 40) (hw : Weights wr wg wb) (hq : 0.7591 ≤ q ∧ q ≤ 0.7592)
    {G : ℝ} (hG : 0 ≤ G ∧ G ≤ 1.315) :
    0.63 * (wr * unadapt r + wg * unadapt g - wb * unadapt b) ≤
      wr * unadapt r * rate q G (achromatic r g b) r + wg * unadapt g * rate q G (achromatic r g b) g
      - wb * unadapt b * rate q G (achromatic r g b) b ∧
    wr * unadapt r * rate q G (achromatic r g b) r + wg * unadapt g * rate q G (achromatic r g b) g
      - wb * unadapt b * rate q G (achromatic r g b) b ≤ 1.05 * (wr * unadapt r + wg * unadapt g - wb * unadapt b) := by
  have ht : 0 ≤ G / 1.315 ∧ G / 1.315 ≤ 1 := by
    constructor
    · exact div_nonneg hG.1 (by norm_num)
    · rw [div_le_one (by norm_num)]; exact hG.2
  have a := affine_le (lower_zero h hp hw hq) (lower_one h hp hw hq) ht
  have b := affine_le (upper_zero h hp hw hq) (upper_one_all h hp hw hq) ht
  rw [rate_affine q G _ r, rate_affine q G _ g, rate_affine q G]
  constructor
  · linarith
  · linarith

end

end Mcu.Lemmas
