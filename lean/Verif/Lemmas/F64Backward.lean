import Verif.Lemmas.F64Core

/-! From the computed responses back to the ray. -/

namespace Mcu.Lemmas

open Mcu.Ieee Props Props.Binary64 MathUtils ColorUtils HctSolver Real

/-- Responses a little inside `NearGamut`. -/
structure Inside (r g b : ℝ) : Prop where
  pos : 0 < g
  r_lo : 0.9105 * g ≤ r
  r_hi : r ≤ 1.3525 * g
  b_lo : 0.4705 * g ≤ b
  b_hi : b ≤ 2.6595 * g

/-- The computed `gamma` of responses near the gamut. -/
theorem gamma_small {p γ c s r g b : ℝ} (h : Inside r g b) (p0 : 0 < p) (unit : 0.99 ≤ |c| + |s|)
    (hr : |1403 * r - (460 * p + 451 * (γ * c) + 288 * (γ * s))| ≤ 1 / 10 ^ 9 * (p + |γ|))
    (hg : |1403 * g - (460 * p - 891 * (γ * c) - 261 * (γ * s))| ≤ 1 / 10 ^ 9 * (p + |γ|))
    (hb : |1403 * b - (460 * p - 220 * (γ * c) - 6300 * (γ * s))| ≤ 1 / 10 ^ 9 * (p + |γ|)) :
    |γ| ≤ 0.32 * p ∧ p ≤ 4 * g := by
  have e : |γ| * (|c| + |s|) = |γ * c| + |γ * s| := by rw [abs_mul, abs_mul]; ring
  have e' : |γ| * 0.99 ≤ |γ * c| + |γ * s| := by rw [← e]; exact mul_le_mul_of_nonneg_left unit (abs_nonneg _)
  obtain ⟨h1, h2, h3, h4, h5⟩ := h
  have n := abs_nonneg γ
  generalize γ * c = X at *
  generalize γ * s = Y at *
  generalize |γ| = G at *
  rw [abs_le] at hr hg hb
  have bX : |X| ≤ 0.18 * p + 1 / 10 ^ 6 * G := by
    rw [abs_le]; norm_num at *; constructor <;> linarith
  have bY : |Y| ≤ 0.135 * p + 1 / 10 ^ 6 * G := by
    rw [abs_le]; norm_num at *; constructor <;> linarith
  have bG : G ≤ 0.32 * p := by norm_num at *; linarith
  refine ⟨bG, ?_⟩
  norm_num at *; linarith

theorem back_aux {P p w g r b x1 x2 y1 y2 : ℝ} (hp : -(1 / 10 ^ 11 * P) ≤ p - P ∧ p - P ≤ 1 / 10 ^ 11 * P) (bp : p ≤ 4 * g) (bw : w ≤ p)
    (gc : |x1 - x2| ≤ 2 / 10 ^ 10 * p * 1.001) (gs : |y1 - y2| ≤ 2 / 10 ^ 10 * p * 1.001)
    (hr : |1403 * r - (460 * p + 451 * x2 + 288 * y2)| ≤ 1 / 10 ^ 9 * (p + w))
    (hg : |1403 * g - (460 * p - 891 * x2 - 261 * y2)| ≤ 1 / 10 ^ 9 * (p + w))
    (hb : |1403 * b - (460 * p - 220 * x2 - 6300 * y2)| ≤ 1 / 10 ^ 9 * (p + w)) :
    |(460 * P + 451 * x1 + 288 * y1) / 1403 - r| ≤ 1 / 10 ^ 7 * g ∧ |(460 * P - 891 * x1 - 261 * y1) / 1403 - g| ≤ 1 / 10 ^ 7 * g ∧
      |(460 * P - 220 * x1 - 6300 * y1) / 1403 - b| ≤ 1 / 10 ^ 7 * g := by
  rw [abs_le] at gc gs hr hg hb
  obtain ⟨gc1, gc2⟩ := gc
  obtain ⟨gs1, gs2⟩ := gs
  obtain ⟨f11, f12⟩ := hr
  obtain ⟨f21, f22⟩ := hg
  obtain ⟨f31, f32⟩ := hb
  obtain ⟨q1, q2⟩ := hp
  norm_num at *
  refine ⟨?_, ?_, ?_⟩ <;> rw [abs_le] <;> constructor <;> linarith

/-- The point of the ray and the computed responses. -/
theorem back {R : Ray} {v p D N γ r g b : ℝ} (hok : R.Ok) (h : Inside r g b) (bc : |R.c| ≤ 1.001) (bs : |R.s| ≤ 1.001)
    (unit : 0.99 ≤ |R.c| + |R.s|) (hP : 0.0078 ≤ R.P v) (hp : |p - R.P v| ≤ 1 / 10 ^ 11 * R.P v)
    (hD : |D - R.den v| ≤ 2 / 10 ^ 9 * (R.T v + R.p1)) (hN : |N - 23 * (R.P v + 0.305) * R.T v| ≤ 3 / 10 ^ 11 * (23 * (R.P v + 0.305) * R.T v))
    (D0 : D ≠ 0) (hγ : |γ - N / D| ≤ |N / D| * (2 / 10 ^ 16) + 1 / 10 ^ 72)
    (hr : |1403 * r - (460 * p + 451 * (γ * R.c) + 288 * (γ * R.s))| ≤ 1 / 10 ^ 9 * (p + |γ|))
    (hg : |1403 * g - (460 * p - 891 * (γ * R.c) - 261 * (γ * R.s))| ≤ 1 / 10 ^ 9 * (p + |γ|))
    (hb : |1403 * b - (460 * p - 220 * (γ * R.c) - 6300 * (γ * R.s))| ≤ 1 / 10 ^ 9 * (p + |γ|)) :
    R.den v ≠ 0 ∧ |R.Ar v - r| ≤ 1 / 10 ^ 7 * g ∧ |R.Ag v - g| ≤ 1 / 10 ^ 7 * g ∧ |R.Ab v - b| ≤ 1 / 10 ^ 7 * g := by
  have hp' := abs_le.1 hp
  have p0 : 0 < p := by norm_num at *; linarith
  obtain ⟨bγ, bp⟩ := gamma_small h p0 unit hr hg hb
  have T0 := Ray.T_pos hok v
  have p1 := hok.p1
  have E0 : 0 < |D| := abs_pos.2 D0
  -- the numerator
  set N0 := 23 * (R.P v + 0.305) * R.T v with hN0
  have hPP : 0 < R.P v + 0.305 := by norm_num at *; linarith
  have N00 : 0 < N0 := by positivity
  have hN' := abs_le.1 hN
  have Np : 0 < N := by norm_num at *; linarith
  have ν : |N / D| ≤ 0.3201 * p := by
    have h1 : |N / D| ≤ |γ| + |γ - N / D| := by
      have := abs_sub_abs_le_abs_sub (N / D) γ
      rw [abs_sub_comm] at this
      linarith
    generalize |N / D| = z at *
    generalize |γ| = w at *
    generalize |γ - N / D| = u at *
    norm_num at *; linarith
  have νe : |N / D| * |D| = N := by rw [← abs_mul, div_mul_cancel₀ _ D0, abs_of_pos Np]
  have hN1 : N ≤ 0.3201 * p * |D| := by rw [← νe]; exact mul_le_mul_of_nonneg_right ν E0.le
  -- T against D
  have hT : R.T v ≤ 0.014 * |D| := by
    have h1 : 0.3201 * p * |D| ≤ 0.3202 * R.P v * |D| := mul_le_mul_of_nonneg_right (by norm_num at *; linarith) E0.le
    have h2 : R.P v * |D| ≤ (R.P v + 0.305) * |D| := mul_le_mul_of_nonneg_right (by norm_num) E0.le
    have h3 : (R.P v + 0.305) * (22 * R.T v) ≤ (R.P v + 0.305) * (0.307 * |D|) := by
      have e : N0 = 23 * ((R.P v + 0.305) * R.T v) := by rw [hN0]; ring
      have e2 : (R.P v + 0.305) * (22 * R.T v) = 22 * ((R.P v + 0.305) * R.T v) := by ring
      have e3 : (R.P v + 0.305) * (0.307 * |D|) = 0.307 * ((R.P v + 0.305) * |D|) := by ring
      rw [e2, e3]
      rw [mul_assoc] at h1 hN1
      have e4 : 0.3202 * R.P v * |D| = 0.3202 * (R.P v * |D|) := by ring
      rw [e4] at h1
      generalize (R.P v + 0.305) * |D| = x1 at *
      generalize R.P v * |D| = x2 at *
      generalize p * |D| = x3 at *
      generalize (R.P v + 0.305) * R.T v = x4 at *
      have : 0 < x4 := by linarith
      norm_num at *; nlinarith
    have h4 := le_of_mul_le_mul_left h3 hPP
    norm_num at *; linarith
  -- p1 against D
  have hd : |R.T v * R.d| ≤ R.T v * 119.2 := by
    rw [abs_mul, abs_of_pos T0]
    apply mul_le_mul_of_nonneg_left _ T0.le
    unfold Ray.d
    rw [abs_le] at *
    norm_num at *; constructor <;> linarith
  have eden : R.den v = 23 * R.p1 + R.T v * R.d := rfl
  have hp1 : R.p1 ≤ 0.13 * |D| := by
    have h1 := le_abs_self D
    have h2 := neg_abs_le D
    rw [abs_le] at hD hd
    rw [eden] at hD
    generalize R.T v * R.d = td at *
    generalize |D| = E at *
    norm_num at *; linarith
  have hDD : |D - R.den v| ≤ 4 / 10 ^ 10 * |D| := by
    refine hD.trans ?_
    norm_num at *; linarith
  have den0 : R.den v ≠ 0 := by
    intro h0
    rw [h0, sub_zero] at hDD
    norm_num at hDD; linarith
  refine ⟨den0, ?_⟩
  -- gamma
  have egam : R.gam v * R.den v = N0 := by
    unfold Ray.gam; rw [div_mul_cancel₀ _ den0]
  have hgam : |R.gam v - N / D| ≤ 4 / 10 ^ 10 * |R.gam v| + 4 / 10 ^ 11 * |N / D| := by
    have e : (R.gam v - N / D) * D = R.gam v * (D - R.den v) + (N0 - N) := by
      rw [sub_mul, div_mul_cancel₀ _ D0, mul_sub, egam]; ring
    have h1 : |R.gam v - N / D| * |D| ≤ |R.gam v| * (4 / 10 ^ 10 * |D|) + 4 / 10 ^ 11 * N := by
      rw [← abs_mul, e]
      refine (abs_add_le _ _).trans (add_le_add ?_ ?_)
      · rw [abs_mul]; exact mul_le_mul_of_nonneg_left hDD (abs_nonneg _)
      · rw [abs_sub_comm]
        refine hN.trans ?_
        norm_num at *; linarith
    have e2 : 4 / 10 ^ 11 * N = 4 / 10 ^ 11 * (|N / D| * |D|) := by rw [νe]
    rw [e2] at h1
    refine le_of_mul_le_mul_right ?_ E0
    linarith
  have g1 : |R.gam v| ≤ 0.3202 * p := by
    have := abs_sub_abs_le_abs_sub (R.gam v) (N / D)
    generalize |R.gam v| = z at *
    generalize |N / D| = w at *
    generalize |R.gam v - N / D| = u at *
    norm_num at *; linarith
  have g2 : |R.gam v - γ| ≤ 2 / 10 ^ 10 * p := by
    have : |R.gam v - γ| ≤ |R.gam v - N / D| + |γ - N / D| := by
      rw [abs_sub_comm γ]; exact abs_sub_le _ _ _
    generalize |R.gam v| = z at *
    generalize |N / D| = w at *
    generalize |R.gam v - N / D| = u at *
    generalize |γ - N / D| = u' at *
    generalize |R.gam v - γ| = u'' at *
    norm_num at *; linarith
  have gc := abs_mul_le g2 bc
  have gs := abs_mul_le g2 bs
  rw [sub_mul] at gc gs
  have ar : R.Ar v = (460 * R.P v + 451 * (R.gam v * R.c) + 288 * (R.gam v * R.s)) / 1403 := by unfold Ray.Ar; ring
  have ag : R.Ag v = (460 * R.P v - 891 * (R.gam v * R.c) - 261 * (R.gam v * R.s)) / 1403 := by unfold Ray.Ag; ring
  have ab : R.Ab v = (460 * R.P v - 220 * (R.gam v * R.c) - 6300 * (R.gam v * R.s)) / 1403 := by unfold Ray.Ab; ring
  rw [ar, ag, ab]
  exact back_aux hp' bp (bγ.trans (by norm_num; linarith)) gc gs hr hg hb

end Mcu.Lemmas
