import Verif.Lemmas.F64SelfAim

/-! The responses on a ray whose constants are close to those computed from a colour. -/

namespace Mcu.Lemmas

open HctSolver Real

theorem back_part {ρ Y g c a A K M : ℝ} (ρ0 : 0 < ρ) (Y0 : 0 < Y) (ρ1 : ρ ≤ 0.633 * Y) (hgam : |g - ρ| ≤ 1.1 / 10 ^ 7 * ρ) (hc : |c * ρ - a| ≤ 3 / 10 ^ 8 * ρ)
    (ha : |a - A| ≤ 5 / 10 ^ 14 * Y) (hK : |a| ≤ K * Y) (K0 : 11 * K + 2 ≤ M) : |g * c - A| ≤ M / 10 ^ 8 * Y := by
  have h1 : |(g - ρ) * c| ≤ 1.1 / 10 ^ 7 * (|a| + 3 / 10 ^ 8 * ρ) := by
    rw [abs_mul]
    have m := mul_le_mul_of_nonneg_right hgam (abs_nonneg c)
    have : ρ * |c| ≤ |a| + 3 / 10 ^ 8 * ρ := by
      rw [← abs_of_pos ρ0, ← abs_mul, abs_of_pos ρ0, mul_comm ρ c]
      have := abs_add_le (c * ρ - a) a
      rw [sub_add_cancel] at this
      linarith
    have := mul_le_mul_of_nonneg_left this (show (0 : ℝ) ≤ 1.1 / 10 ^ 7 by norm_num)
    linarith
  have e : g * c - A = (g - ρ) * c + (c * ρ - a) + (a - A) := by ring
  have h2 := abs_add_three ((g - ρ) * c) (c * ρ - a) (a - A)
  rw [e]
  have h3 := mul_le_mul_of_nonneg_right K0 Y0.le
  have h4 : M / 10 ^ 8 * Y = M * Y / 10 ^ 8 := by ring
  rw [h4]
  have h5 : (11 * K + 2) * Y = 11 * (K * Y) + 2 * Y := by ring
  rw [h5] at h3
  generalize (g - ρ) * c = D at *
  generalize M * Y = MY at *
  generalize K * Y = KY at *
  norm_num at ρ1 hc ha h1 h3 ⊢
  linarith

set_option maxHeartbeats 3000000 in
/-- The responses on a ray whose constants are close to those computed from a colour are close to those of the colour. -/
theorem back_point {R : Ray} {v a b ρ t q : ℝ} {w : Vec3 ℝ} (Y0 : 0 < w.x1) (l1 : 0.9099 * w.x1 ≤ w.x0) (l2 : w.x0 ≤ 1.3531 * w.x1) (l3 : 0.4699 * w.x1 ≤ w.x2) (l4 : w.x2 ≤ 2.6601 * w.x1)
    (ha : |a - opA w| ≤ 5 / 10 ^ 14 * w.x1) (hb : |b - opB w| ≤ 5 / 10 ^ 14 * w.x1) (hρ : ρ = Real.sqrt (a * a + b * b)) (ρ0 : 0 < ρ)
    (hc : |R.c * ρ - a| ≤ 3 / 10 ^ 8 * ρ) (hs : |R.s * ρ - b| ≤ 3 / 10 ^ 8 * ρ)
    (hP : |R.P v - opP2 w| ≤ 4 / 10 ^ 9 * opP2 w) (hT : |R.T v - t| ≤ 3 / 10 ^ 8 * t)
    (ht : |t - q * ρ / (opU w + 0.305)| ≤ 4.5 / 10 ^ 13 * (q * ρ / (opU w + 0.305))) (q0 : 0 < q) (hq : |R.p1 - q| ≤ 1.2 / 10 ^ 8 * q) :
    0 < R.den v ∧ |R.Ar v - w.x0| ≤ 5 / 10 ^ 8 * w.x1 ∧ |R.Ag v - w.x1| ≤ 7 / 10 ^ 8 * w.x1 ∧ |R.Ab v - w.x2| ≤ 3 / 10 ^ 7 * w.x1 := by
  have ki := op_inverse w
  have ku := opU_eq w
  have A1 : |opA w| ≤ 0.5051 * w.x1 := by unfold opA; rw [abs_le]; norm_num at Y0 l1 l2 l3 l4 ⊢; constructor <;> linarith only [Y0, l1, l2, l3, l4]
  have B1 : |opB w| ≤ 0.3792 * w.x1 := by unfold opB; rw [abs_le]; norm_num at Y0 l1 l2 l3 l4 ⊢; constructor <;> linarith only [Y0, l1, l2, l3, l4]
  have p0 : 2.84 * w.x1 ≤ opP2 w := by unfold opP2; norm_num at Y0 l1 l2 l3 l4 ⊢; linarith only [Y0, l1, l2, l3, l4]
  have p3 : opP2 w ≤ 3.85 * w.x1 := by unfold opP2; norm_num at Y0 l1 l2 l3 l4 ⊢; linarith only [Y0, l1, l2, l3, l4]
  have u1 : opU w ≤ 1.6 * opP2 w := by unfold opU opP2; norm_num at Y0 l1 l2 l3 l4 ⊢; linarith only [Y0, l1, l2, l3, l4]
  have u0 : 0 < opU w := by unfold opU; norm_num at Y0 l1 l2 l3 l4 ⊢; linarith only [Y0, l1, l2, l3, l4]
  generalize hA : opA w = A at *
  generalize hB : opB w = B at *
  generalize hp : opP2 w = p at *
  generalize hu : opU w = u at *
  clear hA hB hp hu
  obtain ⟨kx, ky, kz⟩ := ki
  generalize w.x0 = X at *
  generalize w.x1 = Y at *
  generalize w.x2 = Z at *
  have a1 : |a| ≤ 0.5052 * Y := by
    have h1 := abs_le.1 ha; have h2 := abs_le.1 A1
    rw [abs_le]; norm_num at h1 h2 ⊢; constructor <;> linarith only [h1.1, h1.2, h2.1, h2.2, Y0]
  have b1 : |b| ≤ 0.3793 * Y := by
    have h1 := abs_le.1 hb; have h2 := abs_le.1 B1
    rw [abs_le]; norm_num at h1 h2 ⊢; constructor <;> linarith only [h1.1, h1.2, h2.1, h2.2, Y0]
  have ρ1 : ρ ≤ 0.633 * Y := by
    rw [hρ]
    apply Real.sqrt_le_iff.2 ⟨by positivity, ?_⟩
    rw [← abs_mul_abs_self a, ← abs_mul_abs_self b]
    have m1 := mul_le_mul a1 a1 (abs_nonneg _) (by positivity)
    have m2 := mul_le_mul b1 b1 (abs_nonneg _) (by positivity)
    have m3 := mul_pos Y0 Y0
    have e1 : 0.5052 * Y * (0.5052 * Y) = 0.5052 * 0.5052 * (Y * Y) := by ring
    have e2 : 0.3793 * Y * (0.3793 * Y) = 0.3793 * 0.3793 * (Y * Y) := by ring
    have e3 : (0.633 * Y) ^ 2 = 0.633 * 0.633 * (Y * Y) := by ring
    rw [e1] at m1; rw [e2] at m2; rw [e3]
    norm_num at m1 m2 ⊢
    linarith only [m1, m2, m3]
  have ppos : 0 < p := by norm_num at p0; linarith
  have Upos : 0 < u + 0.305 := by positivity
  -- the saturation term
  have q1 : 0 < R.p1 := by have := abs_le.1 hq; norm_num at this; linarith
  have hT2 : |R.T v * (u + 0.305) - R.p1 * ρ| ≤ 4.3 / 10 ^ 8 * (R.p1 * ρ) := by
    have s1 := rel_trans hT ht (by positivity) (by norm_num) (η := 3.001 / 10 ^ 8) (by norm_num)
    have s2 := rel_symm hq q0 (by norm_num) (η := 1.21 / 10 ^ 8) (by norm_num)
    have s3 : |q * ρ / (u + 0.305) - R.p1 * ρ / (u + 0.305)| ≤ 1.21 / 10 ^ 8 * (R.p1 * ρ / (u + 0.305)) := by
      rw [show q * ρ / (u + 0.305) - R.p1 * ρ / (u + 0.305) = (q - R.p1) * (ρ / (u + 0.305)) by ring, abs_mul, abs_of_pos (show 0 < ρ / (u + 0.305) by positivity)]
      have := mul_le_mul_of_nonneg_right s2 (show 0 ≤ ρ / (u + 0.305) by positivity)
      refine this.trans (le_of_eq (by ring))
    have s4 := rel_trans s1 s3 (by positivity) (by norm_num) (η := 4.3 / 10 ^ 8) (by norm_num)
    have := mul_le_mul_of_nonneg_right s4 Upos.le
    have e : R.T v * (u + 0.305) - R.p1 * ρ = (R.T v - R.p1 * ρ / (u + 0.305)) * (u + 0.305) := by field_simp
    rw [e, abs_mul, abs_of_pos Upos]
    refine this.trans (le_of_eq ?_)
    field_simp
  have D0 : 0 < R.p1 * ρ := by positivity
  have eD : 23 * (R.p1 * ρ) = 23 * (R.T v * (u + 0.305)) - 23 * (R.T v * (u + 0.305) - R.p1 * ρ) := by ring
  have hρden : ρ * R.den v = 23 * (R.p1 * ρ) + R.T v * (11 * (R.c * ρ) + 108 * (R.s * ρ)) := by
    unfold Ray.den Ray.d; ring
  generalize R.p1 * ρ = D at *
  have hE := abs_le.1 hT2
  have TU : 0 < R.T v * (u + 0.305) := by norm_num at hE; linarith
  have T0 : 0 < R.T v := pos_of_mul_pos_left TU Upos.le
  -- the denominator
  have hf : |11 * (R.c * ρ - A) + 108 * (R.s * ρ - B)| ≤ 2.27 / 10 ^ 6 * Y := by
    have h1 := abs_le.1 hc; have h2 := abs_le.1 hs; have h3 := abs_le.1 ha; have h4 := abs_le.1 hb
    rw [abs_le]; norm_num at h1 h2 h3 h4 ρ1 ⊢; constructor <;> linarith only [h1.1, h1.2, h2.1, h2.2, h3.1, h3.2, h4.1, h4.2, ρ1]
  have e1 : ρ * R.den v - R.T v * (23 * (p + 0.305)) = R.T v * (11 * (R.c * ρ - A) + 108 * (R.s * ρ - B)) - 23 * (R.T v * (u + 0.305) - D) := by
    rw [hρden, eD, ku]; ring
  have hden : |ρ * R.den v - R.T v * (23 * (p + 0.305))| ≤ 1.05 / 10 ^ 7 * (R.T v * (23 * (p + 0.305))) := by
    rw [e1]
    have h1 : |R.T v * (11 * (R.c * ρ - A) + 108 * (R.s * ρ - B))| ≤ R.T v * (2.27 / 10 ^ 6 * Y) := by
      rw [abs_mul, abs_of_pos T0]; exact mul_le_mul_of_nonneg_left hf T0.le
    have h2 : |R.T v * (u + 0.305) - D| ≤ 4.3001 / 10 ^ 8 * (R.T v * (u + 0.305)) := by
      refine hT2.trans ?_
      norm_num at hE ⊢; linarith
    have h3 : 2.27 / 10 ^ 6 * Y + 23 * (4.3001 / 10 ^ 8 * (u + 0.305)) ≤ 1.05 / 10 ^ 7 * (23 * (p + 0.305)) := by norm_num at p0 u1 ⊢; linarith only [p0, u1, Y0]
    have h4 := mul_le_mul_of_nonneg_left h3 T0.le
    have h5 := abs_sub (R.T v * (11 * (R.c * ρ - A) + 108 * (R.s * ρ - B))) (23 * (R.T v * (u + 0.305) - D))
    rw [abs_mul 23, abs_of_pos (show (0 : ℝ) < 23 by norm_num)] at h5
    linarith only [h1, h2, h4, h5]
  have N0 : 0 < R.T v * (23 * (p + 0.305)) := by positivity
  have ρd : 0 < ρ * R.den v := by have := abs_le.1 hden; norm_num at this N0 ⊢; linarith
  have d0 : 0 < R.den v := pos_of_mul_pos_right ρd ρ0.le
  have hN : |23 * (R.P v + 0.305) * R.T v - R.T v * (23 * (p + 0.305))| ≤ 4 / 10 ^ 9 * (R.T v * (23 * (p + 0.305))) := by
    rw [show 23 * (R.P v + 0.305) * R.T v - R.T v * (23 * (p + 0.305)) = R.T v * 23 * (R.P v - p) by ring, abs_mul, abs_of_pos (show 0 < R.T v * 23 by positivity)]
    have h1 : |R.P v - p| ≤ 4 / 10 ^ 9 * (p + 0.305) := hP.trans (by norm_num)
    have := mul_le_mul_of_nonneg_left h1 (show 0 ≤ R.T v * 23 by positivity)
    linarith
  have hg := rel_div hN hden N0 N0 (by norm_num) (η := 1.1 / 10 ^ 7) (by norm_num)
  rw [div_self N0.ne', mul_one] at hg
  have eg : R.gam v = ρ * (23 * (R.P v + 0.305) * R.T v / (ρ * R.den v)) := by
    unfold Ray.gam; field_simp
  have hgam : |R.gam v - ρ| ≤ 1.1 / 10 ^ 7 * ρ := by
    rw [eg, show ∀ k : ℝ, ρ * k - ρ = ρ * (k - 1) from fun k => by ring, abs_mul, abs_of_pos ρ0]
    have := mul_le_mul_of_nonneg_left hg ρ0.le
    linarith
  -- the opponent terms
  have hA' := back_part ρ0 Y0 ρ1 hgam hc ha a1 (M := 7.6) (by norm_num)
  have hB' := back_part ρ0 Y0 ρ1 hgam hs hb b1 (M := 6.2) (by norm_num)
  have gA := abs_le.1 hA'; have gB := abs_le.1 hB'; have gP := abs_le.1 hP
  refine ⟨d0, ?_, ?_, ?_⟩
  · unfold Ray.Ar
    rw [show (451 * R.c + 288 * R.s) * R.gam v = 451 * (R.gam v * R.c) + 288 * (R.gam v * R.s) by ring, abs_le]
    norm_num at kx gA gB gP p3 ⊢; constructor <;> linarith only [kx, gA.1, gA.2, gB.1, gB.2, gP.1, gP.2, p3]
  · unfold Ray.Ag
    rw [show (-891 * R.c - 261 * R.s) * R.gam v = -891 * (R.gam v * R.c) - 261 * (R.gam v * R.s) by ring, abs_le]
    norm_num at ky gA gB gP p3 ⊢; constructor <;> linarith only [ky, gA.1, gA.2, gB.1, gB.2, gP.1, gP.2, p3]
  · unfold Ray.Ab
    rw [show (-220 * R.c - 6300 * R.s) * R.gam v = -220 * (R.gam v * R.c) - 6300 * (R.gam v * R.s) by ring, abs_le]
    norm_num at kz gA gB gP p3 ⊢; constructor <;> linarith only [kz, gA.1, gA.2, gB.1, gB.2, gP.1, gP.2, p3]

end Mcu.Lemmas
