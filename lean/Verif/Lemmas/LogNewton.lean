import Verif.Lemmas.RayPath
import Verif.Lemmas.Newton
import Mathlib.Analysis.SpecialFunctions.Trigonometric.DerivHyp
import Mathlib.Analysis.SpecialFunctions.Trigonometric.Series

/-! The rounds of the search from above, in the logarithm of the lightness. -/

namespace Mcu.Lemmas

open Real Set Mcu.HctSolver Mcu.ColorUtils Mcu.MathUtils Mcu.Spec

/-- One round moves down by at most half the logarithm of the luminance ratio. -/
theorem step_ge {F : ℝ} (hF : 0 < F) : -(log F) / 2 ≤ log ((1 + 1 / F) / 2) := by
  rw [le_log_iff_exp_le (by positivity)]
  have e : exp (-(log F) / 2) ^ 2 = 1 / F := by
    rw [← exp_nat_mul, show ((2 : ℕ) : ℝ) * (-(log F) / 2) = -(log F) by push_cast; ring, exp_neg, exp_log hF, one_div]
  nlinarith [sq_nonneg (exp (-(log F) / 2) - 1)]

/-- And by not much less. -/
theorem step_le {F L : ℝ} (hL : L ≤ log F) (hF : 0 < F) : log ((1 + 1 / F) / 2) ≤ -L / 2 + L ^ 2 / 8 := by
  rw [log_le_iff_le_exp (by positivity)]
  have h1 : exp L ≤ F := (le_log_iff_exp_le hF).1 hL
  have h2 : 1 / F ≤ exp (-L) := by
    rw [exp_neg, ← one_div]; exact one_div_le_one_div_of_le (exp_pos L) h1
  have h3 : (1 + exp (-L)) / 2 = exp (-L / 2) * cosh (L / 2) := by
    rw [cosh_eq, show exp (-L / 2) * ((exp (L / 2) + exp (-(L / 2))) / 2) = (exp (-L / 2) * exp (L / 2) + exp (-L / 2) * exp (-(L / 2))) / 2 by ring,
      ← exp_add, ← exp_add, show -L / 2 + L / 2 = 0 by ring, exp_zero, show -L / 2 + -(L / 2) = -L by ring]
  have h4 := cosh_le_exp_half_sq (L / 2)
  calc (1 + 1 / F) / 2 ≤ (1 + exp (-L)) / 2 := by linarith
    _ = exp (-L / 2) * cosh (L / 2) := h3
    _ ≤ exp (-L / 2) * exp ((L / 2) ^ 2 / 2) := mul_le_mul_of_nonneg_left h4 (exp_pos _).le
    _ = _ := by rw [← exp_add]; congr 1; ring

/-- A sharper bound from below. -/
theorem step_ge' {F : ℝ} (hF : 0 < F) :
    -(log F) / 2 + (log F) ^ 2 / 8 / (1 + (log F) ^ 2 / 8) ≤ log ((1 + 1 / F) / 2) := by
  have h3 : (1 + 1 / F) / 2 = exp (-(log F) / 2) * cosh (log F / 2) := by
    rw [cosh_eq, show exp (-(log F) / 2) * ((exp (log F / 2) + exp (-(log F / 2))) / 2) =
      (exp (-(log F) / 2) * exp (log F / 2) + exp (-(log F) / 2) * exp (-(log F / 2))) / 2 by ring,
      ← exp_add, ← exp_add, show -(log F) / 2 + log F / 2 = 0 by ring, exp_zero, show -(log F) / 2 + -(log F / 2) = -(log F) by ring,
      exp_neg, exp_log hF, one_div]
  have hc := cosh_pos (log F / 2)
  rw [h3, log_mul (exp_pos _).ne' hc.ne', log_exp]
  have h4 : 1 + (log F) ^ 2 / 8 ≤ cosh (log F / 2) := by
    have e1 : cosh (log F / 2) = 1 + 2 * sinh (log F / 4) ^ 2 := by
      rw [show log F / 2 = 2 * (log F / 4) by ring, cosh_two_mul, cosh_sq]; ring
    have e2 : (log F / 4) ^ 2 ≤ sinh (log F / 4) ^ 2 := by
      rcases le_total 0 (log F / 4) with h | h
      · exact pow_le_pow_left₀ h (self_le_sinh_iff.2 h) 2
      · have := sinh_le_self_iff.2 h
        nlinarith
    linarith
  have h5 : 0 ≤ (log F) ^ 2 / 8 := by positivity
  have h6 : 1 - (1 + (log F) ^ 2 / 8)⁻¹ ≤ log (1 + (log F) ^ 2 / 8) := one_sub_inv_le_log_of_pos (by positivity)
  have h7 : log (1 + (log F) ^ 2 / 8) ≤ log (cosh (log F / 2)) := log_le_log (by positivity) h4
  have h8 : (log F) ^ 2 / 8 / (1 + (log F) ^ 2 / 8) = 1 - (1 + (log F) ^ 2 / 8)⁻¹ := by field_simp; ring
  linarith

theorem ica_unadapt {a : ℝ} (ha : 0 < a) (h4 : a < 400) : inverseChromaticAdaptation a = unadapt a := by
  have z0 : (0.0 : ℝ) = 0 := by norm_num
  have z1 : (1.0 : ℝ) = 1 := by norm_num
  have z400 : (400.0 : ℝ) = 400 := by norm_num
  unfold inverseChromaticAdaptation
  simp only [fl_fmax, fl_powf, fl_ofInt, fl_abs, z0, z1, z400]
  rw [signum_pos ha, abs_of_pos ha]
  have h5 : 0 < 400 - a := by linarith
  rw [max_eq_right (by positivity)]
  unfold unadapt
  push_cast
  ring

theorem linrgb_here {h C v : ℝ} (hC : 0 < C) (hh : (rayOf h C).Here v) :
    linrgbOfJ h C (exp v) = ⟨(rayOf h C).ch0 v, (rayOf h C).ch1 v, (rayOf h C).ch2 v⟩ := by
  rw [linrgb_ray hC, ica_unadapt hh.near.r_pos hh.r4, ica_unadapt hh.near.pos hh.g4, ica_unadapt hh.near.b_pos hh.b4]
  unfold matrixMultiply linrgbFromScaledDiscount Ray.ch0 Ray.ch1 Ray.ch2 Ray.lum
  simp only [Vec3.mk.injEq]
  refine ⟨?_, ?_, ?_⟩ <;> ring

/-- The point after one round. -/
noncomputable def Ray.after (R : Ray) (y v : ℝ) : ℝ := v + log ((1 + 1 / (R.Y v / y)) / 2)

/-- What is known about the search for a colour that exists: it is the one at `v1`, and the search starts at `v0`. -/
structure Setup (R : Ray) (y v1 v0 plo phi : ℝ) : Prop where
  beg : R.Begin v1 v0
  y0 : 0.002 ≤ y
  y1 : y ≤ 100
  u0 : v0 - v1 ≤ 0.75
  eq : |R.Y v1 - y| ≤ 2e-9 * y
  c0 : -(1.1e-9 * y) ≤ R.ch0 v1
  c1 : -(1.1e-9 * y) ≤ R.ch1 v1
  c2 : -(1.1e-9 * y) ≤ R.ch2 v1
  lo : ∀ v ∈ Icc v1 v0, plo * R.Y v ≤ R.dY v
  hi : ∀ v ∈ Icc v1 v0, R.dY v ≤ phi * R.Y v
  plo : 1.7 ≤ plo ∧ plo ≤ 2
  reg : (phi = 1.98 ∧ 0.1 ≤ y) ∨ (phi = 1.998 ∧ 0.1 ≤ y ∧ y ≤ 60.01) ∨ (phi = 1.9995 ∧ 0.1 ≤ y ∧ y ≤ 8.01) ∨ (phi = 2.003 ∧ y ≤ 0.101) ∨ (phi = 2.03 ∧ y ≤ 0.030001)

namespace Setup

variable {R : Ray} {y v1 v0 plo phi : ℝ} (S : Setup R y v1 v0 plo phi)
include S

theorem here {v : ℝ} (hv : v ∈ Icc v1 v0) : R.Inside v 0.002 := (S.beg.path v hv).1.mono S.beg.lo

theorem Y1 : (1 - 2e-9) * y ≤ R.Y v1 ∧ R.Y v1 ≤ (1 + 2e-9) * y := by
  have := abs_le.1 S.eq
  constructor <;> linarith [this.1, this.2]

theorem y_pos : 0 < y := lt_of_lt_of_le (by norm_num) S.y0
theorem Y1_pos : 0 < R.Y v1 := lt_of_lt_of_le (by norm_num) S.beg.lo

theorem grow {v : ℝ} (hv : v ∈ Icc v1 v0) : R.Y v1 * exp (plo * (v - v1)) ≤ R.Y v ∧
    R.Y v ≤ R.Y v1 * exp (phi * (v - v1)) := by
  have sub (w) (hw : w ∈ Icc v1 v) : w ∈ Icc v1 v0 := ⟨hw.1, hw.2.trans hv.2⟩
  exact ⟨Ray.exp_grow hv.1 (fun w hw => (S.here (sub w hw)).hasDerivAt_Y) (fun w hw => S.lo w (sub w hw)),
    Ray.exp_shrink hv.1 (fun w hw => (S.here (sub w hw)).hasDerivAt_Y) (fun w hw => S.hi w (sub w hw))⟩

theorem Y_pos {v : ℝ} (hv : v ∈ Icc v1 v0) : 0 < R.Y v := lt_of_lt_of_le (by norm_num) (S.here hv).lo

/-- The logarithm of the luminance ratio is about a multiple of the distance. -/
theorem ratio {v : ℝ} (hv : v ∈ Icc v1 v0) : plo * (v - v1) - 3e-9 ≤ log (R.Y v / y) ∧
    log (R.Y v / y) ≤ phi * (v - v1) + 3e-9 := by
  obtain ⟨a, b⟩ := S.grow hv
  obtain ⟨c, d⟩ := S.Y1
  have hy := S.y_pos
  have hY := S.Y_pos hv
  have hY1 := S.Y1_pos
  have e : log (R.Y v / y) = log (R.Y v / R.Y v1) + log (R.Y v1 / y) := by
    rw [← log_mul (by positivity) (by positivity)]; congr 1; field_simp
  have e1 : plo * (v - v1) ≤ log (R.Y v / R.Y v1) := by
    rw [le_log_iff_exp_le (by positivity), le_div_iff₀ hY1]; linarith
  have e2 : log (R.Y v / R.Y v1) ≤ phi * (v - v1) := by
    rw [log_le_iff_le_exp (by positivity), div_le_iff₀ hY1]; linarith
  have e3 : log (R.Y v1 / y) ≤ 3e-9 := by
    have := log_le_sub_one_of_pos (show 0 < R.Y v1 / y by positivity)
    have : R.Y v1 / y ≤ 1 + 2e-9 := by rw [div_le_iff₀ hy]; exact d
    norm_num at *; linarith
  have e4 : -3e-9 ≤ log (R.Y v1 / y) := by
    have := one_sub_inv_le_log_of_pos (show 0 < R.Y v1 / y by positivity)
    have h1 : 1 - 2e-9 ≤ R.Y v1 / y := by rw [le_div_iff₀ hy]; exact c
    have h2 : (R.Y v1 / y)⁻¹ ≤ (1 - 2e-9)⁻¹ := inv_anti₀ (by norm_num) h1
    norm_num at *; linarith
  constructor <;> linarith

/-- The next point of the search. -/
theorem next {v : ℝ} (hv : v ∈ Icc v1 v0) (hs : 0.0019999 ≤ R.Y v - y) :
    v1 + 1.4e-8 ≤ R.after y v ∧ R.after y v ≤ v - 1e-6 ∧
    R.after y v - v1 ≤ (1 - plo / 2) * (v - v1) + plo ^ 2 / 8 * (v - v1) ^ 2 + 5e-9 := by
  unfold Ray.after
  have hy := S.y_pos
  have hY := S.Y_pos hv
  obtain ⟨r1, r2⟩ := S.ratio hv
  have hF : 0 < R.Y v / y := by positivity
  have hF1 : 1 + 0.0019999 / y ≤ R.Y v / y := by
    rw [le_div_iff₀ hy]; field_simp; linarith
  have hu : 0 ≤ v - v1 := sub_nonneg.2 hv.1
  have hu1 : v - v1 ≤ 0.75 := by have := S.u0; have := hv.2; linarith
  have hp := S.plo
  refine ⟨?_, ?_, ?_⟩
  · have l1 (hy1 : 0.1 ≤ y) : 0.0019 / y ≤ log (R.Y v / y) := by
      have := one_sub_inv_le_log_of_pos (show 0 < 1 + 0.0019999 / y by positivity)
      have l2 := log_le_log (by positivity) hF1
      have : 0.0019 / y ≤ 1 - (1 + 0.0019999 / y)⁻¹ := by
        rw [show 1 - (1 + 0.0019999 / y)⁻¹ = 0.0019999 / (y + 0.0019999) by field_simp; ring, div_le_div_iff₀ hy (by positivity)]
        norm_num at *; linarith
      linarith
    have y100 := S.y1
    rcases S.reg with ⟨e, hy0⟩ | ⟨e, hy0, hy1⟩ | ⟨e, hy0, hy1⟩ | ⟨e, hy1⟩ | ⟨e, hy1⟩
    · have g := step_ge hF
      have l1 := l1 hy0
      subst e
      have l3 : 0.000019 ≤ 0.0019 / y := by rw [le_div_iff₀ hy]; norm_num at *; linarith
      norm_num at *; linarith
    · have g := step_ge hF
      have l1 := l1 hy0
      subst e
      have l3 : 0.00003166 ≤ 0.0019 / y := by rw [le_div_iff₀ hy]; norm_num at *; linarith
      norm_num at *; linarith
    · have g := step_ge hF
      have l1 := l1 hy0
      subst e
      have l3 : 0.000237 ≤ 0.0019 / y := by rw [le_div_iff₀ hy]; norm_num at *; linarith
      norm_num at *; linarith
    · have g := step_ge' hF
      subst e
      have l2 := log_le_log (by positivity) hF1
      have l1 : 0.0194 ≤ log (R.Y v / y) := by
        have := one_sub_inv_le_log_of_pos (show 0 < 1 + 0.0019999 / y by positivity)
        have : 0.0194 ≤ 1 - (1 + 0.0019999 / y)⁻¹ := by
          rw [show 1 - (1 + 0.0019999 / y)⁻¹ = 0.0019999 / (y + 0.0019999) by field_simp; ring, le_div_iff₀ (by positivity)]
          norm_num at *; linarith
        linarith
      have l4 : log (R.Y v / y) ≤ 1.6 := by norm_num at *; linarith
      generalize log (R.Y v / y) = l at *
      have k : 0.001 * l ≤ l ^ 2 / 8 / (1 + l ^ 2 / 8) := by
        rw [le_div_iff₀ (by positivity)]
        norm_num at *
        nlinarith
      generalize l ^ 2 / 8 / (1 + l ^ 2 / 8) = w at *
      norm_num at *; linarith
    · have g := step_ge' hF
      subst e
      have l2 := log_le_log (by positivity) hF1
      have l1 : 0.0645 ≤ log (R.Y v / y) := by
        refine le_trans ?_ l2
        rw [le_log_iff_exp_le (by positivity)]
        have : exp 0.0645 ≤ 1.06663 := by
          have := Real.exp_bound (x := 0.0645) (n := 5) (by norm_num [abs_le]) (by norm_num)
          norm_num [Finset.sum_range_succ, Nat.factorial] at this
          have := (abs_le.1 this).2
          norm_num at *; linarith
        have : 1.06663 ≤ 1 + 0.0019999 / y := by
          have : 0.06663 ≤ 0.0019999 / y := by rw [le_div_iff₀ hy]; norm_num at *; linarith
          norm_num at *; linarith
        linarith
      have l4 : log (R.Y v / y) ≤ 1.6 := by norm_num at *; linarith
      generalize log (R.Y v / y) = l at *
      have k : 0.0075 * l ≤ l ^ 2 / 8 / (1 + l ^ 2 / 8) := by
        rw [le_div_iff₀ (by positivity)]
        have : 0.0075 * (1 + l ^ 2 / 8) ≤ l / 8 := by norm_num at *; nlinarith
        nlinarith
      generalize l ^ 2 / 8 / (1 + l ^ 2 / 8) = w at *
      norm_num at *; linarith
  · have h1 : 1.00001999 ≤ R.Y v / y := by
      refine le_trans ?_ hF1
      have : 0.00001999 ≤ 0.0019999 / y := by rw [le_div_iff₀ hy]; have := S.y1; norm_num at *; linarith
      norm_num at *; linarith
    have h2 : 1 / (R.Y v / y) ≤ 1 / 1.00001999 := one_div_le_one_div_of_le (by norm_num) h1
    have := log_le_sub_one_of_pos (show 0 < (1 + 1 / (R.Y v / y)) / 2 by positivity)
    norm_num at *; linarith
  · have := step_le r1 hF
    have h1 : (plo * (v - v1) - 3e-9) ^ 2 ≤ plo ^ 2 * (v - v1) ^ 2 + 1e-16 := by
      have : 0 ≤ plo * (v - v1) := mul_nonneg (by norm_num at hp; linarith [hp.1]) hu
      rw [← mul_pow]
      generalize plo * (v - v1) = w at *
      nlinarith
    generalize log ((1 + 1 / (R.Y v / y)) / 2) = l at *
    generalize (plo * (v - v1) - 3e-9) ^ 2 = w at *
    nlinarith

/-- Above the colour no component is negative. -/
theorem nonneg {v : ℝ} (hv : v ∈ Icc v1 v0) (hs : v1 + 1.3e-8 ≤ v) :
    1.9e-10 * y ≤ R.ch0 v ∧ 1.9e-10 * y ≤ R.ch1 v ∧ 1.9e-10 * y ≤ R.ch2 v := by
  have sub (w) (hw : w ∈ Icc v1 v) : w ∈ Icc v1 v0 := ⟨hw.1, hw.2.trans hv.2⟩
  have hl (w : ℝ) : HasDerivAt (fun w => 0.1 * R.Y v1 * w) (0.1 * R.Y v1) w := by
    simpa using (hasDerivAt_id w).const_mul (0.1 * R.Y v1)
  have hm (w) (hw : w ∈ Icc v1 v) : 0.1 * R.Y v1 ≤ 0.1 * R.Y w := by
    have := (S.beg.path w (sub w hw)).1.lo
    linarith
  have a0 := Ray.diff_le hv.1 (fun w _ => hl w) (fun w hw => (S.here (sub w hw)).hasDerivAt_ch0) (fun w hw => (hm w hw).trans (S.here (sub w hw)).rise0)
  have a1 := Ray.diff_le hv.1 (fun w _ => hl w) (fun w hw => (S.here (sub w hw)).hasDerivAt_ch1) (fun w hw => (hm w hw).trans (S.here (sub w hw)).rise1)
  have a2 := Ray.diff_le hv.1 (fun w _ => hl w) (fun w hw => (S.here (sub w hw)).hasDerivAt_ch2) (fun w hw => (hm w hw).trans (S.here (sub w hw)).rise2)
  have b0 := S.c0; have b1 := S.c1; have b2 := S.c2
  have c := S.Y1.1
  have hy := S.y_pos
  have k : 1.29e-9 * y ≤ 0.1 * R.Y v1 * (v - v1) := by
    have : 0.1 * ((1 - 2e-9) * y) * 1.3e-8 ≤ 0.1 * R.Y v1 * (v - v1) := by
      apply mul_le_mul (by linarith) (by linarith) (by norm_num) (by have := S.Y1_pos; positivity)
    norm_num at *; linarith
  have e : 0.1 * R.Y v1 * v - 0.1 * R.Y v1 * v1 = 0.1 * R.Y v1 * (v - v1) := by ring
  rw [e] at a0 a1 a2
  refine ⟨?_, ?_, ?_⟩ <;> norm_num at * <;> linarith

end Setup

/-- The bound on the distance after one round. -/
noncomputable def contract (plo u : ℝ) : ℝ := (1 - plo / 2) * u + plo ^ 2 / 8 * u ^ 2 + 1e-8

theorem contract_mono {plo u w : ℝ} (hp : plo ≤ 2) (hu : 0 ≤ u) (h : u ≤ w) : contract plo u ≤ contract plo w := by
  unfold contract
  have h1 : (1 - plo / 2) * u ≤ (1 - plo / 2) * w := mul_le_mul_of_nonneg_left h (by linarith)
  have h2 : plo ^ 2 / 8 * u ^ 2 ≤ plo ^ 2 / 8 * w ^ 2 := mul_le_mul_of_nonneg_left (pow_le_pow_left₀ hu h 2) (by positivity)
  linarith

/-- The points a search with at most so many rounds left visits, up to small errors, and where it ends. -/
inductive Steps (R : Ray) (y : ℝ) : ℕ → ℝ → ℝ → Prop
  | stop (n : ℕ) (v : ℝ) : |R.Y v - y| < 0.0020001 → Steps R y n v v
  | last (v : ℝ) : Steps R y 0 v v
  | next (n : ℕ) (v w v' : ℝ) : 0.0019999 ≤ |R.Y v - y| → |w - R.after y v| ≤ 1e-9 → Steps R y n w v' → Steps R y (n + 1) v v'

namespace Setup

variable {R : Ray} {y v1 v0 plo phi : ℝ} (S : Setup R y v1 v0 plo phi)
include S

/-- One round stays above the colour and comes closer. -/
theorem move {v w : ℝ} (hv : v ∈ Icc v1 v0) (ht : 0.0019999 ≤ |R.Y v - y|) (hw : |w - R.after y v| ≤ 1e-9) :
    w ∈ Icc v1 v0 ∧ v1 + 1.3e-8 ≤ w ∧ w - v1 ≤ contract plo (v - v1) := by
  have hup : 0.0019999 ≤ R.Y v - y := by
    rcases le_abs.1 ht with ht | ht
    · exact ht
    · exfalso
      have h1 := (S.beg.path v hv).1.lo
      have h2 := S.Y1.1
      have h3 := S.y1
      have h4 := S.y_pos
      norm_num at *; linarith
  obtain ⟨n1, n2, n3⟩ := S.next hv hup
  obtain ⟨w1, w2⟩ := abs_le.1 hw
  have hv2 := hv.2
  unfold contract
  generalize (1 - plo / 2) * (v - v1) + plo ^ 2 / 8 * (v - v1) ^ 2 = k at *
  generalize R.after y v = a at *
  norm_num at *
  refine ⟨⟨?_, ?_⟩, ?_, ?_⟩ <;> linarith

/-- The search ends at a colour close to the one it looks for. -/
theorem steps {n : ℕ} {v v' : ℝ} (h : Steps R y n v v') : ∀ w, v ∈ Icc v1 v0 → v1 + 1.3e-8 ≤ v → v - v1 ≤ w →
    v' ∈ Icc v1 v0 ∧ v1 + 1.3e-8 ≤ v' ∧ (|R.Y v' - y| < 0.0020001 ∨ v' - v1 ≤ (contract plo)^[n] w) := by
  induction h with
  | stop n v h => exact fun w a b c => ⟨a, b, .inl h⟩
  | last v => exact fun w a b c => ⟨a, b, .inr c⟩
  | next n v u v' ht hu _ ih =>
    intro w a b c
    obtain ⟨m1, m2, m3⟩ := S.move a ht hu
    exact ih (contract plo w) m1 m2 (m3.trans (contract_mono S.plo.2 (sub_nonneg.2 a.1) c))

end Setup

/-- The exact search. -/
theorem Setup.loop {h C y v1 v0 plo phi : ℝ} (hC : 0 < C) (S : Setup (rayOf h C) y v1 v0 plo phi) (n : ℕ) : ∀ v : ℝ, v ∈ Icc v1 v0 → v1 + 1.3e-8 ≤ v →
    ∃ v', Steps (rayOf h C) y n v v' ∧
      findLoop h C y (n + 1) (exp v) = (if (rayOf h C).ch0 v' > 100.01 ∨ (rayOf h C).ch1 v' > 100.01 ∨ (rayOf h C).ch2 v' > 100.01 then 0
        else argbFromLinrgb (⟨(rayOf h C).ch0 v', (rayOf h C).ch1 v', (rayOf h C).ch2 v'⟩ : Vec3 ℝ)) := by
  have z0 : (0.0 : ℝ) = 0 := by norm_num
  have z2 : (2.0 : ℝ) = 2 := by norm_num
  have nn {v : ℝ} (hv : v ∈ Icc v1 v0) (hs : v1 + 1.3e-8 ≤ v) : 0 ≤ (rayOf h C).ch0 v ∧ 0 ≤ (rayOf h C).ch1 v ∧ 0 ≤ (rayOf h C).ch2 v := by
    obtain ⟨p0, p1, p2⟩ := S.nonneg hv hs
    have : 0 ≤ 1.9e-10 * y := mul_nonneg (by norm_num) S.y_pos.le
    exact ⟨this.trans p0, this.trans p1, this.trans p2⟩
  induction n with
  | zero =>
    intro v hv hs
    obtain ⟨p0, p1, p2⟩ := nn hv hs
    refine ⟨v, .last v, ?_⟩
    have hY := S.Y_pos hv
    rw [Ray.Y_eq] at hY
    unfold findLoop
    simp only [linrgb_here hC (S.here hv).toHere, yFromLinrgb, z0]
    rw [if_neg (by push Not; exact ⟨p0, p1, p2⟩), if_neg (not_le.2 hY), if_pos (.inl trivial)]
  | succ n ih =>
    intro v hv hs
    obtain ⟨p0, p1, p2⟩ := nn hv hs
    have hY := S.Y_pos hv
    have hY' := hY
    rw [Ray.Y_eq] at hY'
    have e : findLoop h C y (n + 1 + 1) (exp v) = (if |(rayOf h C).Y v - y| < 0.002 then
        (if (rayOf h C).ch0 v > 100.01 ∨ (rayOf h C).ch1 v > 100.01 ∨ (rayOf h C).ch2 v > 100.01 then 0
        else argbFromLinrgb (⟨(rayOf h C).ch0 v, (rayOf h C).ch1 v, (rayOf h C).ch2 v⟩ : Vec3 ℝ)) else
        findLoop h C y (n + 1) (exp ((rayOf h C).after y v))) := by
      rw [findLoop]
      simp only [linrgb_here hC (S.here hv).toHere, yFromLinrgb, z0, z2, fl_abs]
      rw [if_neg (by push Not; exact ⟨p0, p1, p2⟩), if_neg (not_le.2 hY'), ← Ray.Y_eq]
      simp only [Nat.succ_ne_zero, false_or]
      congr 2
      unfold Ray.after
      rw [next_eq hY, exp_add, exp_log (by have := S.y_pos; positivity)]
    by_cases ht : |(rayOf h C).Y v - y| < 0.002
    · exact ⟨v, .stop _ v (lt_trans ht (by norm_num)), by rw [e, if_pos ht]⟩
    · rw [if_neg ht] at e
      have ht' : 0.0019999 ≤ |(rayOf h C).Y v - y| := le_trans (by norm_num) (not_lt.1 ht)
      obtain ⟨m1, m2, -⟩ := S.move (w := (rayOf h C).after y v) hv ht' (by norm_num)
      obtain ⟨v', a, b⟩ := ih _ m1 m2
      exact ⟨v', .next n v _ v' ht' (by norm_num) a, by rw [e, b]⟩

end Mcu.Lemmas
