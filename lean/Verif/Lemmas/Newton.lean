import Verif.Lemmas.NewtonStart

/-! The exact search converges: after four rounds the luminance is close to the requested one. -/

namespace Mcu.Lemmas

open Mcu.ColorUtils Mcu.MathUtils Mcu.HctSolver Mcu.Spec Real

/-! ### One round, as a statement about the ratio of the luminance to the requested one -/

theorem step_above {F F' σ : ℝ} (hF : 1 ≤ F) (hσ : 0 < σ) (h2 : σ ^ 2 = (1 + 1 / F) / 2) (lo : F * σ ^ 5 ≤ F') (hi : F' ≤ F * σ ^ 3) :
    F' * (8 * F) ≤ (F + 1) * (3 * F + 1) ∧ (F + 1) ^ 3 ≤ F' * (2 * F * (3 * F + 1)) := by
  have hF0 : 0 < F := by linarith
  have e : 2 * F * σ ^ 2 = F + 1 := by rw [h2]; field_simp
  have h1 : 2 * σ ≤ 1 + σ ^ 2 := by nlinarith [sq_nonneg (σ - 1)]
  constructor
  · calc F' * (8 * F) ≤ F * σ ^ 3 * (8 * F) := by gcongr
      _ = (2 * F * σ ^ 2) * (2 * F * (2 * σ)) := by ring
      _ ≤ (2 * F * σ ^ 2) * (2 * F * (1 + σ ^ 2)) := by gcongr
      _ = (2 * F * σ ^ 2) * (2 * F + 2 * F * σ ^ 2) := by ring
      _ = _ := by rw [e]; ring
  · have h3 : 2 * σ ^ 2 * σ ≤ σ * (σ * (1 + σ ^ 2)) := by
      have := mul_le_mul_of_nonneg_left h1 (sq_nonneg σ); linarith
    calc (F + 1) ^ 3 = (2 * F * σ ^ 2) ^ 3 := by rw [e]
      _ = 4 * F ^ 3 * σ ^ 5 * (2 * σ) := by ring
      _ ≤ 4 * F ^ 3 * σ ^ 5 * (1 + σ ^ 2) := by gcongr
      _ = F * σ ^ 5 * (2 * F * (2 * F + 2 * F * σ ^ 2)) := by ring
      _ ≤ F' * (2 * F * (2 * F + 2 * F * σ ^ 2)) := by gcongr
      _ = _ := by rw [e]; ring

theorem step_below {F F' σ : ℝ} (hF0 : 0 < F) (hσ : 0 < σ) (h2 : σ ^ 2 = (1 + 1 / F) / 2) (lo : F * σ ^ 3 ≤ F') (hi : F' ≤ F * σ ^ 5) :
    F' * (16 * F ^ 2) ≤ (F + 1) ^ 2 * (3 * F + 1) ∧ (F + 1) ^ 2 ≤ F' * (3 * F + 1) := by
  have e : 2 * F * σ ^ 2 = F + 1 := by rw [h2]; field_simp
  have h1 : 2 * σ ≤ 1 + σ ^ 2 := by nlinarith [sq_nonneg (σ - 1)]
  constructor
  · calc F' * (16 * F ^ 2) ≤ F * σ ^ 5 * (16 * F ^ 2) := by gcongr
      _ = (2 * F * σ ^ 2) ^ 2 * (2 * F * (2 * σ)) := by ring
      _ ≤ (2 * F * σ ^ 2) ^ 2 * (2 * F * (1 + σ ^ 2)) := by gcongr
      _ = (2 * F * σ ^ 2) ^ 2 * (2 * F + 2 * F * σ ^ 2) := by ring
      _ = _ := by rw [e]; ring
  · calc (F + 1) ^ 2 = (2 * F * σ ^ 2) ^ 2 := by rw [e]
      _ = 2 * F ^ 2 * σ ^ 3 * (2 * σ) := by ring
      _ ≤ 2 * F ^ 2 * σ ^ 3 * (1 + σ ^ 2) := by gcongr
      _ = F * σ ^ 3 * (2 * F + 2 * F * σ ^ 2) := by ring
      _ ≤ F' * (2 * F + 2 * F * σ ^ 2) := by gcongr
      _ = _ := by rw [e]; ring

/-- The relation between the ratios of two consecutive rounds. -/
def Round (F F' : ℝ) : Prop := 0 < F ∧ 0 < F' ∧ ∃ σ : ℝ, 0 < σ ∧ σ ^ 2 = (1 + 1 / F) / 2 ∧
  (1 ≤ F → F * σ ^ 5 ≤ F' ∧ F' ≤ F * σ ^ 3) ∧ (F ≤ 1 → F * σ ^ 3 ≤ F' ∧ F' ≤ F * σ ^ 5)

/-- Interval arithmetic for one round. -/
theorem Round.interval {F F' a b a' b' : ℝ} (h : Round F F') (ha : a ≤ F) (hb : F ≤ b) (ha0 : 1 / 3 ≤ a) (ha1 : a ≤ 1)
    (h1 : (b + 1) * (3 * b + 1) ≤ 8 * b * b') (h2 : (a + 1) ^ 2 * (3 * a + 1) ≤ 16 * a ^ 2 * b')
    (h3 : a' * (3 * a + 1) ≤ (a + 1) ^ 2) (h4 : ∀ F, 1 ≤ F → F ≤ b → a' * (2 * F * (3 * F + 1)) ≤ (F + 1) ^ 3) :
    a' ≤ F' ∧ F' ≤ b' := by
  obtain ⟨hF, hF', σ, hσ, e, hA, hB⟩ := h
  have ha00 : 0 < a := by linarith
  rcases le_total 1 F with h | h
  · obtain ⟨x, y⟩ := step_above h hσ e (hA h).1 (hA h).2
    constructor
    · have := h4 F h hb
      have hp : 0 < 2 * F * (3 * F + 1) := by positivity
      exact le_of_mul_le_mul_right (this.trans y) hp
    · have hb0 : 0 < b := by linarith
      have hm : (F + 1) * (3 * F + 1) * b ≤ (b + 1) * (3 * b + 1) * F := by
        have h5 : 0 ≤ (b - F) * (3 * F * b - 1) := mul_nonneg (by linarith) (by nlinarith)
        nlinarith
      have h6 : F' * (8 * F) * b ≤ 8 * b * b' * F :=
        (mul_le_mul_of_nonneg_right x hb0.le).trans (hm.trans (mul_le_mul_of_nonneg_right h1 hF.le))
      have hp : 0 < 8 * F * b := by positivity
      refine le_of_mul_le_mul_right ?_ hp
      linarith
  · obtain ⟨x, y⟩ := step_below hF hσ e (hB h).1 (hB h).2
    constructor
    · have hm : (a + 1) ^ 2 * (3 * F + 1) ≤ (F + 1) ^ 2 * (3 * a + 1) := by
        have h5 : 0 ≤ (F - a) * (3 * F * a + F + a - 1) := mul_nonneg (by linarith) (by nlinarith)
        nlinarith
      have hp : 0 < (3 * F + 1) * (3 * a + 1) := by positivity
      refine le_of_mul_le_mul_right ?_ hp
      calc a' * ((3 * F + 1) * (3 * a + 1)) = a' * (3 * a + 1) * (3 * F + 1) := by ring
        _ ≤ (a + 1) ^ 2 * (3 * F + 1) := by gcongr
        _ ≤ (F + 1) ^ 2 * (3 * a + 1) := hm
        _ ≤ F' * (3 * F + 1) * (3 * a + 1) := by gcongr
        _ = _ := by ring
    · have hm : (F + 1) ^ 2 * (3 * F + 1) * a ^ 2 ≤ (a + 1) ^ 2 * (3 * a + 1) * F ^ 2 := by
        have h5 : 0 ≤ (F - a) * ((5 * (F * a) - 3 * (F * a) * (F * a)) + (F + a)) := by
          apply mul_nonneg (by linarith)
          have : F * a ≤ 1 := by nlinarith
          have : 0 < F * a := by positivity
          nlinarith
        nlinarith
      have hp : 0 < 16 * F ^ 2 * a ^ 2 := by positivity
      refine le_of_mul_le_mul_right ?_ hp
      calc F' * (16 * F ^ 2 * a ^ 2) = F' * (16 * F ^ 2) * a ^ 2 := by ring
        _ ≤ (F + 1) ^ 2 * (3 * F + 1) * a ^ 2 := by gcongr
        _ ≤ (a + 1) ^ 2 * (3 * a + 1) * F ^ 2 := hm
        _ ≤ 16 * a ^ 2 * b' * F ^ 2 := by gcongr
        _ = _ := by ring

/-- Four rounds from a good start. -/
theorem four_rounds {F0 F1 F2 F3 F4 : ℝ} (r0 : Round F0 F1) (r1 : Round F1 F2) (r2 : Round F2 F3) (r3 : Round F3 F4)
    (h : 0.69 ≤ F0) : (F0 ≤ 2.6 → 0.989 ≤ F4 ∧ F4 ≤ 1.011) ∧ (F0 ≤ 7.5 → 0.945 ≤ F4 ∧ F4 ≤ 1.067) := by
  have low (F : ℝ) (hF : 1 ≤ F) : 0.945 * (2 * F * (3 * F + 1)) ≤ (F + 1) ^ 3 := by
    norm_num
    nlinarith [mul_nonneg (by linarith : (0:ℝ) ≤ F) (sq_nonneg (F - 1.5)), sq_nonneg (F - 1.5)]
  have low' (F : ℝ) (hF : 1 ≤ F) : 0.93 * (2 * F * (3 * F + 1)) ≤ (F + 1) ^ 3 := by
    have := low F hF
    have : 0 < 2 * F * (3 * F + 1) := by positivity
    norm_num at *; linarith
  constructor
  · intro hb
    obtain ⟨a1, b1⟩ := r0.interval (a' := 0.93) (b' := 1.53) h hb (by norm_num) (by norm_num) (by norm_num) (by norm_num)
      (by norm_num) (fun F hF _ => low' F hF)
    obtain ⟨a2, b2⟩ := r1.interval (a' := 0.945) (b' := 1.156) a1 b1 (by norm_num) (by norm_num) (by norm_num) (by norm_num)
      (by norm_num) (fun F hF _ => low F hF)
    obtain ⟨a3, b3⟩ := r2.interval (a' := 0.97) (b' := 1.042) a2 b2 (by norm_num) (by norm_num) (by norm_num) (by norm_num)
      (by norm_num) (fun F hF hF' => by
        norm_num at hF' ⊢
        nlinarith [mul_nonneg (sub_nonneg.2 hF) (sub_nonneg.2 hF'), mul_nonneg (mul_nonneg (sub_nonneg.2 hF) (sub_nonneg.2 hF')) (sub_nonneg.2 hF)])
    exact r3.interval (a' := 0.989) (b' := 1.011) a3 b3 (by norm_num) (by norm_num) (by norm_num) (by norm_num)
      (by norm_num) (fun F hF hF' => by
        norm_num at hF' ⊢
        nlinarith [mul_nonneg (sub_nonneg.2 hF) (sub_nonneg.2 hF'), mul_nonneg (mul_nonneg (sub_nonneg.2 hF) (sub_nonneg.2 hF')) (sub_nonneg.2 hF)])
  · intro hb
    obtain ⟨a1, b1⟩ := r0.interval (a' := 0.93) (b' := 3.33) h hb (by norm_num) (by norm_num) (by norm_num) (by norm_num)
      (by norm_num) (fun F hF _ => low' F hF)
    obtain ⟨a2, b2⟩ := r1.interval (a' := 0.945) (b' := 1.788) a1 b1 (by norm_num) (by norm_num) (by norm_num) (by norm_num)
      (by norm_num) (fun F hF _ => low F hF)
    obtain ⟨a3, b3⟩ := r2.interval (a' := 0.945) (b' := 1.2425) a2 b2 (by norm_num) (by norm_num) (by norm_num) (by norm_num)
      (by norm_num) (fun F hF _ => low F hF)
    exact r3.interval (a' := 0.945) (b' := 1.067) a3 b3 (by norm_num) (by norm_num) (by norm_num) (by norm_num)
      (by norm_num) (fun F hF _ => low F hF)

/-! ### The rounds of the search -/

/-- A round of the search that goes on or returns a colour: no negative component, positive luminance. -/
def Visited (h C j : ℝ) : Prop := (∀ i, 0 ≤ (linrgbOfJ h C j).get i) ∧ 0 < luminance (linrgbOfJ h C j)

theorem Visited.near {h C j : ℝ} (hC : 0 < C) (hj : 0 < j) (hv : Visited h C j) :
    NearGamut ((rayOf h C).Ar (log j)) ((rayOf h C).Ag (log j)) ((rayOf h C).Ab (log j)) ∧
      luminance (linrgbOfJ h C j) = (rayOf h C).lum wR wG wB (log j) := by
  have := visited_near (h := h) hC (log j) (by rw [exp_log hj]; exact hv.1) (by rw [exp_log hj]; exact hv.2)
  rw [exp_log hj] at this
  exact ⟨this.1, this.2.1⟩

/-- The next lightness tried. -/
theorem next_eq {j f y : ℝ} (hf : 0 < f) : j - (f - y) * j / (2 * f) = j * ((1 + 1 / (f / y)) / 2) := by
  field_simp; ring

/-- The denominator stays positive when the lightness more than halves. -/
theorem den_next {R : Ray} (h : R.Ok) {v v' : ℝ} (hn : NearGamut (R.Ar v) (R.Ag v) (R.Ab v)) (hd : 0 < R.den v)
    (hv : v - log 2 ≤ v') : 0 < R.den v' := by
  have hp := Ray.P_pos h v
  have hp1 := h.p1
  have hT := Ray.T_pos h v
  have hT' := Ray.T_pos h v'
  have h1 : 23 * R.p1 ≤ 1.6 * R.den v := by
    have := Ray.slow_le hn hd.ne'
    have h2 : 23 * R.p1 / R.den v * (R.P v + 0.305) ≤ 1.6 * (R.P v + 0.305) := by norm_num at *; linarith
    have h3 := le_of_mul_le_mul_right h2 (by positivity)
    rwa [div_le_iff₀ hd] at h3
  have h2 : R.T v' ≤ 1.5 * R.T v := by
    have e : R.T v' = R.T v * exp (1 / 1.8 * (v - v')) := by
      unfold Ray.T; rw [mul_assoc, ← exp_add]; congr 2; ring
    rw [e, mul_comm]
    apply mul_le_mul_of_nonneg_right _ hT.le
    calc exp (1 / 1.8 * (v - v')) ≤ exp (log 2 * (5 / 9)) := by
          apply exp_le_exp.2
          have : v - v' ≤ log 2 := by linarith
          norm_num; linarith
      _ = (2 : ℝ) ^ (((5 : ℕ) : ℝ) / ((9 : ℕ) : ℝ)) := by
          rw [rpow_def_of_pos (by norm_num)]; norm_num
      _ ≤ 1.5 := rpow_le_of_le_pow (by norm_num) (by norm_num) (by norm_num) (by norm_num)
  have e1 : R.den v = 23 * R.p1 + R.T v * R.d := rfl
  have e2 : R.den v' = 23 * R.p1 + R.T v' * R.d := rfl
  rcases le_total 0 R.d with h3 | h3
  · rw [e2]; positivity
  · have := mul_le_mul_of_nonpos_right h2 h3
    rw [e2]
    norm_num at *; linarith

theorem round_of {h C y j j' : ℝ} (hC : 0 < C) (hy : 0 < y) (hj : 0 < j) (hv : Visited h C j) (hd : 0 < (rayOf h C).den (log j))
    (e : j' = j - (luminance (linrgbOfJ h C j) - y) * j / (2 * luminance (linrgbOfJ h C j)))
    (hv' : Visited h C j') (h1 : j ≤ 148.4) (h2 : j' ≤ 148.4) :
    0 < (rayOf h C).den (log j') ∧ Round (luminance (linrgbOfJ h C j) / y) (luminance (linrgbOfJ h C j') / y) := by
  rw [next_eq hv.2] at e
  have hF : 0 < luminance (linrgbOfJ h C j) / y := div_pos hv.2 hy
  have hF' : 0 < luminance (linrgbOfJ h C j') / y := div_pos hv'.2 hy
  have hok : (rayOf h C).Ok := rayOf_ok hC
  obtain ⟨n1, l1⟩ := hv.near hC hj
  have hj' : 0 < j' := by rw [e]; positivity
  obtain ⟨n2, l2⟩ := hv'.near hC hj'
  rw [l1] at e hF ⊢
  rw [l2] at hF' ⊢
  have p1 := ray_P_small h C hj h1
  have p2 := ray_P_small h C hj' h2
  set R := rayOf h C with hR
  set F := R.lum wR wG wB (log j) / y with hFd
  set F' := R.lum wR wG wB (log j') / y with hFd'
  have hd' : 0 < R.den (log j') := by
    refine den_next hok n1 hd ?_
    rw [← log_div hj.ne' (by norm_num)]
    apply log_le_log (by positivity)
    rw [e]
    have : 0 < 1 / F := by positivity
    nlinarith
  refine ⟨hd', hF, hF', exp ((log j' - log j) / 2), exp_pos _, ?_, ?_, ?_⟩
  · rw [← exp_nat_mul]
    rw [show ((2 : ℕ) : ℝ) * ((log j' - log j) / 2) = log j' - log j by push_cast; ring, exp_sub, exp_log hj, exp_log hj', e]
    field_simp
  · intro h3
    have hle : j' ≤ j := by
      rw [e]
      have : 1 / F ≤ 1 := by rw [div_le_one hF]; exact h3
      nlinarith
    obtain ⟨g1, g2⟩ := Ray.growth hok weights (log_le_log hj' hle) hd' hd n2 n1 p1
    have key (z : ℝ) : exp (z * (log j - log j')) * exp (z * (log j' - log j)) = 1 := by
      rw [← exp_add, ← exp_zero]; congr 1; ring
    constructor
    · rw [hFd, hFd', ← exp_nat_mul, div_mul_eq_mul_div]
      apply div_le_div_of_nonneg_right _ hy.le
      rw [show ((5 : ℕ) : ℝ) * ((log j' - log j) / 2) = 5 / 2 * (log j' - log j) by push_cast; ring]
      have := mul_le_mul_of_nonneg_right g2 (exp_pos (5 / 2 * (log j' - log j))).le
      rwa [mul_assoc _ (exp _) (exp _), key, mul_one] at this
    · rw [hFd, hFd', ← exp_nat_mul, div_mul_eq_mul_div]
      apply div_le_div_of_nonneg_right _ hy.le
      rw [show ((3 : ℕ) : ℝ) * ((log j' - log j) / 2) = 3 / 2 * (log j' - log j) by push_cast; ring]
      have := mul_le_mul_of_nonneg_right g1 (exp_pos (3 / 2 * (log j' - log j))).le
      rwa [mul_assoc _ (exp _) (exp _), key, mul_one] at this
  · intro h3
    have hle : j ≤ j' := by
      rw [e]
      have : 1 ≤ 1 / F := by rw [le_div_iff₀ hF]; linarith
      nlinarith
    obtain ⟨g1, g2⟩ := Ray.growth hok weights (log_le_log hj hle) hd hd' n1 n2 p2
    constructor
    · rw [hFd, hFd', ← exp_nat_mul, div_mul_eq_mul_div]
      apply div_le_div_of_nonneg_right _ hy.le
      rw [show ((3 : ℕ) : ℝ) * ((log j' - log j) / 2) = 3 / 2 * (log j' - log j) by push_cast; ring]
      exact g1
    · rw [hFd, hFd', ← exp_nat_mul, div_mul_eq_mul_div]
      apply div_le_div_of_nonneg_right _ hy.le
      rw [show ((5 : ℕ) : ℝ) * ((log j' - log j) / 2) = 5 / 2 * (log j' - log j) by push_cast; ring]
      exact g2

/-- The next lightness is positive and does not grow by more than the ratio allows. -/
theorem next_le {h C y j a m : ℝ} (hy : 0 < y) (hj : 0 < j) (hv : Visited h C j) (ha : 0 < a)
    (hF : a ≤ luminance (linrgbOfJ h C j) / y) (hm : 1 + 1 / a ≤ 2 * m) :
    0 < j - (luminance (linrgbOfJ h C j) - y) * j / (2 * luminance (linrgbOfJ h C j)) ∧
    j - (luminance (linrgbOfJ h C j) - y) * j / (2 * luminance (linrgbOfJ h C j)) ≤ j * m := by
  rw [next_eq hv.2]
  have hF0 : 0 < luminance (linrgbOfJ h C j) / y := div_pos hv.2 hy
  refine ⟨by positivity, ?_⟩
  have : 1 / (luminance (linrgbOfJ h C j) / y) ≤ 1 / a := one_div_le_one_div_of_le ha hF
  apply mul_le_mul_of_nonneg_left _ hj.le
  linarith

/-- After four rounds the luminance is close to the requested one. -/
theorem newton_close {h C y : ℝ} {J : ℕ → ℝ} (hC : 0 < C) (hy : 1.1e-5 ≤ y) (hy1 : y ≤ 100) (hJ0 : J 0 = sqrt y * 11)
    (hJ : ∀ k, J (k + 1) = J k - (luminance (linrgbOfJ h C (J k)) - y) * J k / (2 * luminance (linrgbOfJ h C (J k))))
    (hv : ∀ m, m ≤ 4 → Visited h C (J m)) :
    (1 / 2 ≤ y → 0.989 * y ≤ luminance (linrgbOfJ h C (J 4)) ∧ luminance (linrgbOfJ h C (J 4)) ≤ 1.011 * y) ∧
    0.945 * y ≤ luminance (linrgbOfJ h C (J 4)) ∧ luminance (linrgbOfJ h C (J 4)) ≤ 1.067 * y := by
  have hy0 : 0 < y := by norm_num at hy; linarith
  have v0 := hv 0 (by norm_num); have v1 := hv 1 (by norm_num); have v2 := hv 2 (by norm_num)
  have v3 := hv 3 (by norm_num); have v4 := hv 4 (by norm_num)
  obtain ⟨s1, s2, s3, s4⟩ := start_near hC hy0 hy1 (hJ0 ▸ v0).1 (hJ0 ▸ v0).2
  rw [← hJ0] at s1 s2 s3 s4
  have e1 := hJ 0; have e2 := hJ 1; have e3 := hJ 2; have e4 := hJ 3
  norm_num only at e1 e2 e3 e4
  have j0 : 0 < J 0 := by have := sqrt_pos.2 hy0; rw [hJ0]; positivity
  have j0' : J 0 ≤ 110 := by
    rw [hJ0]
    have : sqrt y ≤ 10 := by rw [sqrt_le_left (by norm_num)]; norm_num; exact hy1
    linarith
  have f0 : 0.69 ≤ luminance (linrgbOfJ h C (J 0)) / y := by rwa [le_div_iff₀ hy0]
  have f0' : luminance (linrgbOfJ h C (J 0)) / y ≤ 7.5 := by rw [div_le_iff₀ hy0]; exact s3 hy
  have low (F : ℝ) (hF : 1 ≤ F) : 0.945 * (2 * F * (3 * F + 1)) ≤ (F + 1) ^ 3 := by
    norm_num
    nlinarith [mul_nonneg (by linarith : (0:ℝ) ≤ F) (sq_nonneg (F - 1.5)), sq_nonneg (F - 1.5)]
  have low' (F : ℝ) (hF : 1 ≤ F) : 0.93 * (2 * F * (3 * F + 1)) ≤ (F + 1) ^ 3 := by
    have := low F hF
    have : 0 < 2 * F * (3 * F + 1) := by positivity
    norm_num at *; linarith
  have hok : (rayOf h C).Ok := rayOf_ok hC
  -- first round
  obtain ⟨j1, j1'⟩ := next_le (m := 1.22465) hy0 j0 v0 (by norm_num) f0 (by norm_num)
  rw [← e1] at j1 j1'
  have d0 : 0 < (rayOf h C).den (log (J 0)) := by
    by_cases hd : (rayOf h C).den (log (J 0)) = 0
    · exfalso
      have hF := s4 hd
      have hle : J 1 ≤ J 0 := by
        rw [e1]
        have : 0 ≤ (luminance (linrgbOfJ h C (J 0)) - y) * J 0 / (2 * luminance (linrgbOfJ h C (J 0))) :=
          div_nonneg (mul_nonneg (by linarith) j0.le) (by linarith)
        linarith
      have hlt : J 1 < J 0 := by
        refine lt_of_le_of_ne hle ?_
        rw [e1]
        have : 0 < (luminance (linrgbOfJ h C (J 0)) - y) * J 0 / (2 * luminance (linrgbOfJ h C (J 0))) :=
          div_pos (mul_pos (by linarith) j0) (by linarith)
        linarith
      have hT : (rayOf h C).T (log (J 0)) < (rayOf h C).T (log (J 1)) := by
        unfold Ray.T
        apply mul_lt_mul_of_pos_left _ hok.T0
        apply exp_lt_exp.2
        have := log_lt_log j1 hlt
        norm_num; linarith
      have hd' : (rayOf h C).d < 0 := by
        by_contra hc
        push Not at hc
        have h1 := mul_nonneg (Ray.T_pos hok (log (J 0))).le hc
        have h2 := hok.p1
        unfold Ray.den at hd
        linarith
      have h1 := mul_lt_mul_of_neg_right hT hd'
      have h2 : (rayOf h C).den (log (J 1)) < 0 := by unfold Ray.den at hd ⊢; linarith
      have := Ray.den_pos hok (v1.near hC j1).1 h2.ne
      linarith
    · exact Ray.den_pos hok (v0.near hC j0).1 hd
  have b1 : J 1 ≤ 134.72 := by norm_num at *; linarith
  obtain ⟨d1, r0⟩ := round_of hC hy0 j0 v0 d0 e1 v1 (by norm_num; linarith) (by norm_num at *; linarith)
  obtain ⟨f1, f1'⟩ := r0.interval (a' := 0.93) (b' := 3.33) f0 f0' (by norm_num) (by norm_num) (by norm_num) (by norm_num)
    (by norm_num) (fun F hF _ => low' F hF)
  obtain ⟨j2, j2'⟩ := next_le (m := 1.03764) hy0 j1 v1 (by norm_num) f1 (by norm_num)
  rw [← e2] at j2 j2'
  have b2 : J 2 ≤ 139.8 := by norm_num at *; linarith
  obtain ⟨d2, r1⟩ := round_of hC hy0 j1 v1 d1 e2 v2 (by norm_num at *; linarith) (by norm_num at *; linarith)
  obtain ⟨f2, f2'⟩ := r1.interval (a' := 0.945) (b' := 1.788) f1 f1' (by norm_num) (by norm_num) (by norm_num) (by norm_num)
    (by norm_num) (fun F hF _ => low F hF)
  obtain ⟨j3, j3'⟩ := next_le (m := 1.02911) hy0 j2 v2 (by norm_num) f2 (by norm_num)
  rw [← e3] at j3 j3'
  have b3 : J 3 ≤ 143.9 := by norm_num at *; linarith
  obtain ⟨d3, r2⟩ := round_of hC hy0 j2 v2 d2 e3 v3 (by norm_num at *; linarith) (by norm_num at *; linarith)
  obtain ⟨f3, f3'⟩ := r2.interval (a' := 0.945) (b' := 1.2425) f2 f2' (by norm_num) (by norm_num) (by norm_num) (by norm_num)
    (by norm_num) (fun F hF _ => low F hF)
  obtain ⟨j4, j4'⟩ := next_le (m := 1.02911) hy0 j3 v3 (by norm_num) f3 (by norm_num)
  rw [← e4] at j4 j4'
  obtain ⟨d4, r3⟩ := round_of hC hy0 j3 v3 d3 e4 v4 (by norm_num at *; linarith) (by norm_num at *; linarith)
  obtain ⟨k1, k2⟩ := four_rounds r0 r1 r2 r3 f0
  rw [div_le_iff₀ hy0] at k1
  simp only [le_div_iff₀ hy0, div_le_iff₀ hy0] at k1 k2
  exact ⟨fun hh => k1 (s2 hh), k2 (s3 hy)⟩

end Mcu.Lemmas
