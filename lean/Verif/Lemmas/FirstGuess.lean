import Verif.Lemmas.LogNewton
import Verif.Lemmas.Precise

/-! The first lightness tried is above the one of the colour, and not far. -/

namespace Mcu.Lemmas

open Real Set Mcu.HctSolver Mcu.ColorUtils Mcu.MathUtils Mcu.Spec

theorem pWhite_le : pWhite ≤ 29.5 := by
  rw [pWhite_eq]
  obtain ⟨f1, f2⟩ := fl_d16
  obtain ⟨⟨a1, a2⟩, ⟨b1, b2⟩, ⟨c1, c2⟩⟩ := rgbD_d16
  have w0 : 97.55 ≤ (wpCones whitePointD65).x0 ∧ (wpCones whitePointD65).x0 ≤ 97.5553 := by
    simp only [wpCones, whitePointD65]; norm_num
  have w1 : 101.64 ≤ (wpCones whitePointD65).x1 ∧ (wpCones whitePointD65).x1 ≤ 101.6469 := by
    simp only [wpCones, whitePointD65]; norm_num
  have w2 : 108.47 ≤ (wpCones whitePointD65).x2 ∧ (wpCones whitePointD65).x2 ≤ 108.477 := by
    simp only [wpCones, whitePointD65]; norm_num
  have r := product_bounds (t1 := 0.67) (t2 := 0.6713) ⟨f1, f2⟩ ⟨a1, a2⟩ w0 (by norm_num) (by norm_num) (by norm_num)
    (by norm_num) (by norm_num) (by norm_num) (by norm_num)
  have g := product_bounds (t1 := 0.672) (t2 := 0.6731) ⟨f1, f2⟩ ⟨b1, b2⟩ w1 (by norm_num) (by norm_num) (by norm_num)
    (by norm_num) (by norm_num) (by norm_num) (by norm_num)
  have b := product_bounds (t1 := 0.674) (t2 := 0.6762) ⟨f1, f2⟩ ⟨c1, c2⟩ w2 (by norm_num) (by norm_num) (by norm_num)
    (by norm_num) (by norm_num) (by norm_num) (by norm_num)
  generalize cone vc0.fl (vc0.rgbD.x0 * (wpCones whitePointD65).x0) = x at *
  generalize cone vc0.fl (vc0.rgbD.x1 * (wpCones whitePointD65).x1) = y at *
  generalize cone vc0.fl (vc0.rgbD.x2 * (wpCones whitePointD65).x2) = z at *
  norm_num at r g b ⊢
  linarith [r.2, g.2, b.2]

/-- The achromatic response of white, in a ray: the lightness 100 has it. -/
def Ray.White (R : Ray) (w : ℝ) : Prop := 29.4 ≤ w ∧ w ≤ 29.5 ∧ ∀ a : ℝ, 0 < a → R.P (log a) = w * (a / 100) ^ R.q

theorem rayOf_white (h C : ℝ) : (rayOf h C).White pWhite := ⟨pWhite_bounds.1, pWhite_le, fun _ ha => ray_P h C ha⟩

theorem Ray.White.small {R : Ray} {w : ℝ} (hw : R.White w) (hok : R.Ok) {j : ℝ} (hj : 0 < j) (hj1 : j ≤ 148.4) : R.P (log j) ≤ 40 := by
  rw [hw.2.2 j hj]
  have hq := hok.q
  have h1 : (j / 100) ^ R.q ≤ (1.484 : ℝ) ^ R.q :=
    rpow_le_rpow (by positivity) (by norm_num at hj1 ⊢; linarith) (by norm_num at hq ⊢; linarith [hq.1])
  have h2 : (1.484 : ℝ) ^ R.q ≤ 1.3505 := by
    refine rpow_upper (a := 19) (b := 25) (by norm_num) (by norm_num) (by norm_num) ?_ (by norm_num)
    have := hq.2
    norm_num at this ⊢; linarith
  have h3 : 0 ≤ (j / 100) ^ R.q := by positivity
  calc _ ≤ 29.5 * (1.3505 : ℝ) := mul_le_mul hw.2.1 (h1.trans h2) h3 (by norm_num)
    _ ≤ _ := by norm_num

/-- A colour `(r, g, b)` of the gamut, the one of lightness `j` in the ray, up to little; of luminance about `y`. The
logarithm of the first lightness tried is about `v0`. -/
structure Aim (R : Ray) (w v0 j y r g b : ℝ) : Prop where
  white : R.White w
  j0 : 0 < j
  here : R.Here (log j)
  e0 : |R.ch0 (log j) - r| ≤ 1e-9 * y
  e1 : |R.ch1 (log j) - g| ≤ 1e-9 * y
  e2 : |R.ch2 (log j) - b| ≤ 1e-9 * y
  r0 : 0 ≤ r
  r1 : r ≤ 100
  g0 : 0 ≤ g
  g1 : g ≤ 100
  b0 : 0 ≤ b
  b1 : b ≤ 100
  lum : |y - (0.2126 * r + 0.7152 * g + 0.0722 * b)| ≤ 2e-10 * y
  lo : 0.00209 ≤ y
  y100 : y ≤ 100
  j1 : j ≤ 100.01
  first : |v0 - log (sqrt y * 11)| ≤ 1e-12

namespace Aim

variable {R : Ray} {w v0 j y r g b : ℝ} (A : Aim R w v0 j y r g b)
include A

theorem y0 : 0 < y := lt_of_lt_of_le (by norm_num) A.lo

theorem Y1 : |R.Y (log j) - y| ≤ 1.2e-9 * y := by
  have e0 := abs_le.1 A.e0; have e1 := abs_le.1 A.e1; have e2 := abs_le.1 A.e2
  rw [Ray.Y_eq, abs_le]
  have l := abs_le.1 A.lum
  norm_num at *
  constructor <;> linarith [e0.1, e0.2, e1.1, e1.2, e2.1, e2.2, l.1, l.2]

theorem inside {lo : ℝ} (hl : lo * (1 + 2e-9) ≤ y) (hl0 : 0 ≤ lo) : R.Inside (log j) lo := by
  have e0 := abs_le.1 A.e0; have e1 := abs_le.1 A.e1; have e2 := abs_le.1 A.e2
  have eY := abs_le.1 A.Y1
  have h1 := A.y0; have h2 := A.y100
  have r0 := A.r0; have g0 := A.g0; have b0 := A.b0
  refine { A.here with g0 := ?_, g1 := ?_, g2 := ?_, lo := ?_, hi := ?_ } <;> norm_num at * <;>
    linarith [e0.1, e0.2, e1.1, e1.2, e2.1, e2.2, eY.1, eY.2]

/-- The distance between the first lightness tried and the one of the colour. -/
theorem ratio : exp (2 * (log (sqrt y * 11) - log j)) = 0.0121 * y / (j / 100) ^ 2 := by
  have hj := A.j0
  have hy := A.y0
  have hs : 0 < sqrt y := sqrt_pos.2 hy
  rw [← log_div (by positivity) hj.ne', show (2 : ℝ) * log (sqrt y * 11 / j) = ((2 : ℕ) : ℝ) * log (sqrt y * 11 / j) by norm_num,
    exp_nat_mul, exp_log (by positivity), div_pow, mul_pow, sq_sqrt hy.le]
  field_simp
  norm_num

theorem power : R.P (log j) / w = (j / 100) ^ R.q := by
  have := A.white.1
  rw [A.white.2.2 j A.j0, mul_div_cancel_left₀ _ (by norm_num at this; linarith)]

/-- The same for what is computed. -/
theorem ratio' : 0.99999 * exp (2 * (log (sqrt y * 11) - log j)) ≤ exp (2 * (v0 - log j)) ∧
    exp (2 * (v0 - log j)) ≤ (1 + 1e-11) * exp (2 * (log (sqrt y * 11) - log j)) := by
  have f := abs_le.1 A.first
  have e : exp (2 * (v0 - log j)) = exp (2 * (v0 - log (sqrt y * 11))) * exp (2 * (log (sqrt y * 11) - log j)) := by
    rw [← exp_add]; congr 1; ring
  have h1 := add_one_le_exp (2 * (v0 - log (sqrt y * 11)))
  have h2 := Real.exp_bound' (x := 2 * 1e-12) (n := 1) (by norm_num) (by norm_num) (by norm_num)
  have h3 : exp (2 * (v0 - log (sqrt y * 11))) ≤ exp (2 * 1e-12) := exp_le_exp.2 (by norm_num at *; linarith [f.2])
  norm_num [Finset.sum_range_succ, Nat.factorial] at h2
  have hp := exp_pos (2 * (log (sqrt y * 11) - log j))
  rw [e]
  constructor
  · refine mul_le_mul_of_nonneg_right (le_trans ?_ h1) hp.le
    clear h3 h2
    norm_num at *; linarith [f.1]
  · refine mul_le_mul_of_nonneg_right (h3.trans ?_) hp.le
    clear h3
    norm_num at *; linarith

theorem lower : 1.03 ≤ exp (2 * (v0 - log j)) := by
  refine le_trans ?_ A.ratio'.1
  have hok := A.here.ok
  have hj := A.j0
  have hy := A.y0
  have e0 := abs_le.1 A.e0; have e1 := abs_le.1 A.e1; have e2 := abs_le.1 A.e2
  have eY := abs_le.1 A.Y1
  have h2 := A.y100
  have r1 := A.r1; have g1 := A.g1; have b1 := A.b1
  have st := (A.inside (lo := 0.002) (by have := A.lo; norm_num at *; linarith) (by norm_num)).start
    (by norm_num at *; linarith [eY.2]) (by norm_num at *; linarith [e0.2])
    (by norm_num at *; linarith [e1.2]) (by norm_num at *; linarith [e2.2])
  have hP := Ray.P_pos hok (log j)
  have hw := A.white.1
  have hpw : 0 < w := by norm_num at hw; linarith
  have hq := hok.q
  set s := j / 100 with hs'
  have hs : 0 < s := by positivity
  have p1 : (s ^ R.q) ^ 50 ≤ (0.0121 / 1.0404 * R.Y (log j)) ^ 19 := by
    refine le_trans ?_ st
    rw [← A.power]
    exact pow_le_pow_left₀ (by positivity) (div_le_div_of_nonneg_left hP.le (by norm_num) hw) 50
  have hY : 0 < R.Y (log j) := by norm_num at *; linarith [eY.1]
  set t := s / 1.0001 with ht'
  have ht : 0 < t := by positivity
  have ht1 : t ≤ 1 := by rw [ht', div_le_one (by norm_num), hs']; have := A.j1; norm_num at *; linarith
  have p2 : (t ^ 2) ^ 19 ≤ (0.0121 / 1.0404 * R.Y (log j)) ^ 19 := by
    refine le_trans ?_ p1
    calc (t ^ 2) ^ 19 = t ^ ((38 : ℕ) : ℝ) := by rw [← pow_mul, rpow_natCast]
      _ ≤ t ^ (R.q * (50 : ℕ)) := rpow_le_rpow_of_exponent_ge ht ht1 (by push_cast; norm_num at *; linarith [hq.2])
      _ = (t ^ R.q) ^ 50 := by rw [rpow_mul ht.le, rpow_natCast]
      _ ≤ _ := by
        refine pow_le_pow_left₀ (by positivity) (rpow_le_rpow ht.le ?_ (by norm_num at *; linarith [hq.1])) 50
        rw [ht']; exact div_le_self hs.le (by norm_num)
  have p3 := le_of_pow_le_pow_left₀ (by norm_num) (by positivity) p2
  rw [A.ratio, ← hs', ← mul_div_assoc, le_div_iff₀ (by positivity)]
  have e : s ^ 2 = t ^ 2 * 1.0001 ^ 2 := by rw [ht']; field_simp
  rw [e]
  norm_num at *; linarith [eY.2]

theorem upper {R2 : ℝ} (hR : 1.3 ≤ R2) (hR5 : R2 ≤ 5)
    (hg : (0.0121 / R2 * R.Y (log j)) ^ 11 ≤ (R.P (log j) / 29.5) ^ 29) :
    exp (2 * (v0 - log j)) ≤ R2 + 1e-7 := by
  refine A.ratio'.2.trans ?_
  have hok := A.here.ok
  have hj := A.j0
  have hy := A.y0
  have eY := abs_le.1 A.Y1
  have h2 := A.y100
  have hP := Ray.P_pos hok (log j)
  have hw := A.white.2.1
  have hw0 := A.white.1
  have hpw : 0 < w := by norm_num at hw0; linarith
  have hq := hok.q
  rw [A.ratio, ← mul_div_assoc]
  set s := j / 100 with hs'
  have hs : 0 < s := by positivity
  have hY : 0 < R.Y (log j) := by norm_num at *; linarith [eY.1]
  have hR0 : 0 < R2 := by norm_num at hR; linarith
  rcases le_total s 1 with h1 | h1
  · have p1 : (0.0121 / R2 * R.Y (log j)) ^ 11 ≤ (s ^ 2) ^ 11 := by
      refine hg.trans ?_
      calc (R.P (log j) / 29.5) ^ 29 ≤ (s ^ R.q) ^ 29 := by
            rw [← A.power]
            exact pow_le_pow_left₀ (by positivity) (div_le_div_of_nonneg_left hP.le hpw hw) 29
        _ = s ^ (R.q * (29 : ℕ)) := by rw [rpow_mul hs.le, rpow_natCast]
        _ ≤ s ^ ((22 : ℕ) : ℝ) := rpow_le_rpow_of_exponent_ge hs h1 (by push_cast; norm_num at *; linarith [hq.1])
        _ = _ := by rw [← pow_mul, rpow_natCast]
    have p2 := le_of_pow_le_pow_left₀ (by norm_num) (by positivity) p1
    rw [div_mul_eq_mul_div, div_le_iff₀ hR0] at p2
    rw [div_le_iff₀ (by positivity)]
    have p3 : 0.0121 * y * (1 - 1.3e-9) ≤ s ^ 2 * R2 := by norm_num at *; linarith [eY.1]
    have p4 : 0.002 * y ≤ s ^ 2 := by
      have : s ^ 2 * R2 ≤ s ^ 2 * 5 := mul_le_mul_of_nonneg_left hR5 (by positivity)
      norm_num at *; linarith
    norm_num at *; linarith
  · rw [div_le_iff₀ (by positivity)]
    have : 1 ≤ s ^ 2 := one_le_pow₀ h1
    have : R2 + 1e-7 ≤ (R2 + 1e-7) * s ^ 2 := le_mul_of_one_le_right (by positivity) this
    norm_num at *; linarith

theorem above : log j + 1.3e-8 ≤ v0 := by
  by_contra hc
  push Not at hc
  have h1 := A.lower
  have h2 : exp (2 * (v0 - log j)) < exp (2.6e-8) := exp_lt_exp.2 (by norm_num at *; linarith)
  have h3 := Real.exp_bound (x := 2.6e-8) (n := 1) (by norm_num [abs_le]) (by norm_num)
  norm_num [Finset.sum_range_succ, Nat.factorial] at h3
  have h4 := (abs_le.1 h3).2
  have h5 := h1.trans_lt h2
  clear h1 h2
  norm_num at h4 h5
  linarith

end Aim

end Mcu.Lemmas
