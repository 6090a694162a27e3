import Verif.Lemmas.Elasticity
import Mathlib.Analysis.SpecialFunctions.ExpDeriv
import Mathlib.Analysis.Calculus.Deriv.MeanValue

/-! The luminance of the colours of one hue and chroma as a function of the logarithm of the lightness. -/

namespace Mcu.Lemmas

open Real

/-- One hue and chroma: cosine and sine of the hue and the constants of the appearance model. -/
structure Ray where
  c : ℝ
  s : ℝ
  P0 : ℝ
  q : ℝ
  T0 : ℝ
  p1 : ℝ

namespace Ray

variable (R : Ray)

/-- What is assumed of the constants. -/
structure Ok : Prop where
  P0 : 0 < R.P0
  q : 0.7591 ≤ R.q ∧ R.q ≤ 0.7592
  T0 : 0 < R.T0
  p1 : 0 < R.p1

/-- The achromatic response. -/
noncomputable def P (v : ℝ) : ℝ := R.P0 * exp (R.q * v)

/-- The saturation term. -/
noncomputable def T (v : ℝ) : ℝ := R.T0 * exp (-(1 / 1.8 * v))

noncomputable def d : ℝ := 11 * R.c + 108 * R.s

noncomputable def den (v : ℝ) : ℝ := 23 * R.p1 + R.T v * R.d

noncomputable def gam (v : ℝ) : ℝ := 23 * (R.P v + 0.305) * R.T v / R.den v

noncomputable def Ar (v : ℝ) : ℝ := (460 * R.P v + (451 * R.c + 288 * R.s) * R.gam v) / 1403
noncomputable def Ag (v : ℝ) : ℝ := (460 * R.P v + (-891 * R.c - 261 * R.s) * R.gam v) / 1403
noncomputable def Ab (v : ℝ) : ℝ := (460 * R.P v + (-220 * R.c - 6300 * R.s) * R.gam v) / 1403

/-- The luminance. -/
noncomputable def lum (wr wg wb v : ℝ) : ℝ := wr * unadapt (R.Ar v) + wg * unadapt (R.Ag v) - wb * unadapt (R.Ab v)

variable {R}

theorem P_pos (h : R.Ok) (v : ℝ) : 0 < R.P v := mul_pos h.P0 (exp_pos _)
theorem T_pos (h : R.Ok) (v : ℝ) : 0 < R.T v := mul_pos h.T0 (exp_pos _)

theorem P_mono (h : R.Ok) {v w : ℝ} (hv : v ≤ w) : R.P v ≤ R.P w := by
  unfold P
  apply mul_le_mul_of_nonneg_left _ h.P0.le
  apply exp_le_exp.2
  apply mul_le_mul_of_nonneg_left hv
  have := h.q.1; norm_num at this ⊢; linarith

theorem T_anti (h : R.Ok) {v w : ℝ} (hv : v ≤ w) : R.T w ≤ R.T v := by
  unfold T
  apply mul_le_mul_of_nonneg_left _ h.T0.le
  apply exp_le_exp.2
  have : 1 / 1.8 * v ≤ 1 / 1.8 * w := mul_le_mul_of_nonneg_left hv (by norm_num)
  linarith

theorem achromatic_eq (v : ℝ) : achromatic (R.Ar v) (R.Ag v) (R.Ab v) = R.P v := by
  unfold achromatic Ar Ag Ab; norm_num; ring

/-- How much the saturation slows down: two expressions. -/
theorem den_eq {v : ℝ} (hd : R.den v ≠ 0) :
    23 * R.p1 / R.den v * (R.P v + 0.305) = R.Ar v + R.Ag v + 1.05 * R.Ab v + 0.305 := by
  have e : R.Ar v + R.Ag v + 1.05 * R.Ab v = R.P v - R.d * R.gam v / 23 := by
    unfold Ar Ag Ab d; norm_num; ring
  rw [e]
  unfold gam
  have h1 : 23 * R.p1 = R.den v - R.T v * R.d := by unfold den; ring
  rw [h1]
  field_simp
  ring

theorem den_pos (h : R.Ok) {v : ℝ} (hn : NearGamut (R.Ar v) (R.Ag v) (R.Ab v)) (hd : R.den v ≠ 0) : 0 < R.den v := by
  have e := den_eq hd
  have := hn.pos; have := hn.r_pos; have := hn.b_pos; have := P_pos h v; have := h.p1
  have h1 : 0 < 23 * R.p1 / R.den v * (R.P v + 0.305) := by rw [e]; positivity
  have h2 : 0 < 23 * R.p1 / R.den v := by
    by_contra hc
    push Not at hc
    have : 0 < R.P v + 0.305 := by positivity
    nlinarith
  by_contra hc
  push Not at hc
  have : 23 * R.p1 / R.den v ≤ 0 := div_nonpos_of_nonneg_of_nonpos (by positivity) hc
  linarith

/-- The slowing down is at most 1.6. -/
theorem slow_le {v : ℝ} (hn : NearGamut (R.Ar v) (R.Ag v) (R.Ab v)) (hd : R.den v ≠ 0) :
    23 * R.p1 / R.den v * (R.P v + 0.305) ≤ 1.6 * R.P v + 0.305 := by
  rw [den_eq hd, ← achromatic_eq]
  unfold achromatic
  have := hn.pos; have := hn.r_lo; have := hn.b_hi; have := hn.b_lo
  norm_num at *; linarith

/-- How much slower than the achromatic response the chromatic one grows. -/
noncomputable def G (R : Ray) (v : ℝ) : ℝ := R.q * (0.305 / (R.P v + 0.305)) + 1 / 1.8 * (23 * R.p1 / R.den v)

theorem G_bounds (h : R.Ok) {v : ℝ} (hn : NearGamut (R.Ar v) (R.Ag v) (R.Ab v)) (hd : R.den v ≠ 0) :
    0 ≤ R.G v ∧ R.G v ≤ 1.315 := by
  have hp := P_pos h v
  have hden := den_pos h hn hd
  have hq := h.q
  have h1 := h.p1
  have hpp : 0 < R.P v + 0.305 := by positivity
  have hq0 : 0 < R.q := by norm_num at hq ⊢; linarith [hq.1]
  constructor
  · unfold G; positivity
  · have e : R.G v = (R.q * 0.305 + 1 / 1.8 * (23 * R.p1 / R.den v * (R.P v + 0.305))) / (R.P v + 0.305) := by
      unfold G; field_simp
    rw [e, div_le_iff₀ hpp]
    have := slow_le hn hd
    have := hq.2
    generalize 23 * R.p1 / R.den v * (R.P v + 0.305) = z at *
    norm_num at *; linarith

theorem hasDerivAt_P (v : ℝ) : HasDerivAt R.P (R.q * R.P v) v := by
  have := (((hasDerivAt_id v).const_mul R.q).exp).const_mul R.P0
  refine HasDerivAt.congr_deriv (f := R.P) this ?_
  simp only [P, id]; ring

theorem hasDerivAt_T (v : ℝ) : HasDerivAt R.T (-(1 / 1.8) * R.T v) v := by
  have := ((((hasDerivAt_id v).const_mul (1 / 1.8 : ℝ)).neg).exp).const_mul R.T0
  refine HasDerivAt.congr_deriv (f := R.T) this ?_
  simp only [T, id, Pi.neg_apply]; ring

theorem hasDerivAt_gam (h : R.Ok) {v : ℝ} (hd : R.den v ≠ 0) :
    HasDerivAt R.gam (R.gam v * (R.q - R.G v)) v := by
  have hP := hasDerivAt_P (R := R) v
  have hT := hasDerivAt_T (R := R) v
  have hden : HasDerivAt R.den (-(1 / 1.8) * R.T v * R.d) v := (hT.mul_const R.d).const_add (23 * R.p1)
  have := (((hP.add_const 0.305).const_mul 23).mul hT).div hden hd
  refine HasDerivAt.congr_deriv (f := R.gam) this ?_
  simp only [Pi.mul_apply]
  have hpp : R.P v + 0.305 ≠ 0 := by have := P_pos h v; positivity
  unfold G gam
  have h1 : 23 * R.p1 = R.den v - R.T v * R.d := by unfold den; ring
  rw [h1]
  field_simp
  ring

theorem hasDerivAt_A (h : R.Ok) {v : ℝ} (hd : R.den v ≠ 0) (m : ℝ) :
    HasDerivAt (fun v => (460 * R.P v + m * R.gam v) / 1403)
      (R.q * (R.P v / 3.05) + ((460 * R.P v + m * R.gam v) / 1403 - R.P v / 3.05) * (R.q - R.G v)) v := by
  have := (((hasDerivAt_P (R := R) v).const_mul 460).add ((hasDerivAt_gam h hd).const_mul m)).div_const 1403
  refine HasDerivAt.congr_deriv (f := fun v => (460 * R.P v + m * R.gam v) / 1403) this ?_
  norm_num; ring

theorem hasDerivAt_unadapt {A : ℝ → ℝ} {v A' : ℝ} (h : HasDerivAt A A' v) (h0 : 0 < A v) (h1 : A v < 400) :
    HasDerivAt (fun v => unadapt (A v)) (unadapt (A v) * (1 / 0.42) * (400 / (400 - A v)) * (A' / A v)) v := by
  have h2 : 0 < 400 - A v := by linarith
  have hb : 0 < 27.13 * A v / (400 - A v) := by positivity
  have hf : HasDerivAt (fun v => 27.13 * A v / (400 - A v))
      ((27.13 * A' * (400 - A v) - 27.13 * A v * (-A')) / (400 - A v) ^ 2) v :=
    (h.const_mul 27.13).div (h.const_sub 400) h2.ne'
  have := hf.rpow_const (p := (1 / 0.42 : ℝ)) (.inl hb.ne')
  refine HasDerivAt.congr_deriv (f := fun v => unadapt (A v)) this ?_
  rw [Real.rpow_sub_one hb.ne']
  unfold unadapt
  generalize (27.13 * A v / (400 - A v)) ^ (1 / 0.42 : ℝ) = z
  field_simp
  ring

theorem hasDerivAt_x (h : R.Ok) {v : ℝ} (hd : R.den v ≠ 0) (m : ℝ) (h0 : 0 < (460 * R.P v + m * R.gam v) / 1403)
    (h1 : (460 * R.P v + m * R.gam v) / 1403 < 400) :
    HasDerivAt (fun v => unadapt ((460 * R.P v + m * R.gam v) / 1403))
      (unadapt ((460 * R.P v + m * R.gam v) / 1403) *
        rate R.q (R.G v) (R.P v) ((460 * R.P v + m * R.gam v) / 1403) / 0.42) v := by
  refine HasDerivAt.congr_deriv (hasDerivAt_unadapt (hasDerivAt_A h hd m) h0 h1) ?_
  generalize hA : (460 * R.P v + m * R.gam v) / 1403 = A at *
  unfold rate
  have h2 : 0 < 400 - A := by linarith
  field_simp
  ring

theorem hasDerivAt_lum (h : R.Ok) {v : ℝ} (hn : NearGamut (R.Ar v) (R.Ag v) (R.Ab v)) (hp : R.P v ≤ 40)
    (hd : R.den v ≠ 0) (wr wg wb : ℝ) :
    HasDerivAt (R.lum wr wg wb) ((wr * unadapt (R.Ar v) * rate R.q (R.G v) (R.P v) (R.Ar v)
      + wg * unadapt (R.Ag v) * rate R.q (R.G v) (R.P v) (R.Ag v)
      - wb * unadapt (R.Ab v) * rate R.q (R.G v) (R.P v) (R.Ab v)) / 0.42) v := by
  have hp' : achromatic (R.Ar v) (R.Ag v) (R.Ab v) ≤ 40 := by rw [achromatic_eq]; exact hp
  have a := hn.r_small hp'
  have b := hn.g_small hp'
  have c := hn.b_small hp'
  have h1 := (hasDerivAt_x h hd (451 * R.c + 288 * R.s) hn.r_pos (show R.Ar v < 400 by norm_num at *; linarith)).const_mul wr
  have h2 := (hasDerivAt_x h hd (-891 * R.c - 261 * R.s) hn.pos (show R.Ag v < 400 by norm_num at *; linarith)).const_mul wg
  have h3 := (hasDerivAt_x h hd (-220 * R.c - 6300 * R.s) hn.b_pos (show R.Ab v < 400 by norm_num at *; linarith)).const_mul wb
  refine HasDerivAt.congr_deriv (f := R.lum wr wg wb) ((h1.add h2).sub h3) ?_
  unfold Ar Ag Ab
  ring

/-- Between two lightnesses whose colours are near the gamut all colours are. -/
theorem between (h : R.Ok) {v1 v v2 : ℝ} (h1 : v1 ≤ v) (h2 : v ≤ v2) (hd1 : 0 < R.den v1) (hd2 : 0 < R.den v2)
    (n1 : NearGamut (R.Ar v1) (R.Ag v1) (R.Ab v1)) (n2 : NearGamut (R.Ar v2) (R.Ag v2) (R.Ab v2)) :
    0 < R.den v ∧ NearGamut (R.Ar v) (R.Ag v) (R.Ab v) := by
  have t1 := T_anti h h1
  have t2 := T_anti h h2
  have hT := T_pos h v; have hT1 := T_pos h v1; have hT2 := T_pos h v2
  have hP := P_pos h v; have hP1 := P_pos h v1; have hP2 := P_pos h v2
  have q1 := P_mono h h1
  have q2 := P_mono h h2
  have hp1 := h.p1
  have hd : 0 < R.den v := by
    unfold den at *
    rcases le_total 0 R.d with hd | hd
    · positivity
    · nlinarith
  refine ⟨hd, ?_⟩
  -- the saturation relative to the achromatic response
  have key {a b : ℝ} (ha : 0 < R.den a) (hb : 0 < R.den b) (hPa : 0 < R.P a) (hPb : 0 < R.P b) (hTb : 0 < R.T b)
      (hT : R.T b ≤ R.T a) (hPab : R.P a ≤ R.P b) : R.gam b / R.P b ≤ R.gam a / R.P a := by
    have e (x : ℝ) (hx : 0 < R.P x) : R.gam x / R.P x = 23 * (1 + 0.305 / R.P x) * (R.T x / R.den x) := by
      unfold gam; field_simp
    rw [e a hPa, e b hPb]
    have e1 : 0.305 / R.P b ≤ 0.305 / R.P a := div_le_div_of_nonneg_left (by norm_num) hPa hPab
    have e2 : R.T b / R.den b ≤ R.T a / R.den a := by
      rw [div_le_div_iff₀ hb ha]
      unfold den
      nlinarith
    have : 0 < 0.305 / R.P b := by positivity
    exact mul_le_mul (by linarith) e2 (by positivity) (by positivity)
  have s2 := key hd hd2 hP hP2 hT2 t2 q2
  have s1 := key hd1 hd hP1 hP hT t1 q1
  -- a linear condition that holds at the ends holds between
  have lin (α β γ : ℝ) (a1 : 0 ≤ α * R.Ar v1 + β * R.Ag v1 + γ * R.Ab v1) (a2 : 0 ≤ α * R.Ar v2 + β * R.Ag v2 + γ * R.Ab v2) :
      0 ≤ α * R.Ar v + β * R.Ag v + γ * R.Ab v := by
    obtain ⟨A, B, hAB⟩ : ∃ A B : ℝ, ∀ x, 0 < R.P x → α * R.Ar x + β * R.Ag x + γ * R.Ab x = R.P x * (A + B * (R.gam x / R.P x)) := by
      refine ⟨(α + β + γ) * 460 / 1403, (α * (451 * R.c + 288 * R.s) + β * (-891 * R.c - 261 * R.s) + γ * (-220 * R.c - 6300 * R.s)) / 1403, fun x hx => ?_⟩
      unfold Ar Ag Ab
      field_simp
      ring
    rw [hAB _ hP1] at a1
    rw [hAB _ hP2] at a2
    rw [hAB _ hP]
    have b1 := nonneg_of_mul_nonneg_right a1 hP1
    have b2 := nonneg_of_mul_nonneg_right a2 hP2
    refine mul_nonneg hP.le ?_
    rcases le_total 0 B with hB | hB
    · nlinarith
    · nlinarith
  have c1 := lin 1 (-0.91) 0 (by linarith [n1.r_lo]) (by linarith [n2.r_lo])
  have c2 := lin (-1) 1.353 0 (by linarith [n1.r_hi]) (by linarith [n2.r_hi])
  have c3 := lin 0 (-0.47) 1 (by linarith [n1.b_lo]) (by linarith [n2.b_lo])
  have c4 := lin 0 2.66 (-1) (by linarith [n1.b_hi]) (by linarith [n2.b_hi])
  refine ⟨?_, by linarith, by linarith, by linarith, by linarith⟩
  have e := achromatic_eq (R := R) v
  unfold achromatic at e
  norm_num at *; linarith

/-- The luminance grows at least as the power 3/2 and at most as the power 5/2 of the lightness. -/
theorem growth (h : R.Ok) {wr wg wb : ℝ} (hw : Weights wr wg wb) {v1 v2 : ℝ} (h12 : v1 ≤ v2) (hd1 : 0 < R.den v1)
    (hd2 : 0 < R.den v2) (n1 : NearGamut (R.Ar v1) (R.Ag v1) (R.Ab v1)) (n2 : NearGamut (R.Ar v2) (R.Ag v2) (R.Ab v2))
    (hp : R.P v2 ≤ 40) :
    R.lum wr wg wb v1 * exp (3 / 2 * (v2 - v1)) ≤ R.lum wr wg wb v2 ∧
    R.lum wr wg wb v2 ≤ R.lum wr wg wb v1 * exp (5 / 2 * (v2 - v1)) := by
  have hD (v : ℝ) (hv : v ∈ Set.Icc v1 v2) : ∃ D, HasDerivAt (R.lum wr wg wb) D v ∧
      3 / 2 * R.lum wr wg wb v ≤ D ∧ D ≤ 5 / 2 * R.lum wr wg wb v := by
    obtain ⟨hd, hn⟩ := between h hv.1 hv.2 hd1 hd2 n1 n2
    have hP : R.P v ≤ 40 := (P_mono h hv.2).trans hp
    refine ⟨_, hasDerivAt_lum h hn hP hd.ne' wr wg wb, ?_⟩
    have := rate_bounds hn (by rw [achromatic_eq]; exact hP) hw h.q (G_bounds h hn hd.ne')
    rw [achromatic_eq] at this
    obtain ⟨a, b⟩ := this
    unfold lum
    rw [le_div_iff₀ (by norm_num), div_le_iff₀ (by norm_num)]
    constructor
    · norm_num at a ⊢; linarith
    · norm_num at b ⊢; linarith
  have hE (k v : ℝ) : HasDerivAt (fun v => exp (-(k * v))) (-k * exp (-(k * v))) v := by
    have := (((hasDerivAt_id v).const_mul k).neg).exp
    refine HasDerivAt.congr_deriv (f := fun v => exp (-(k * v))) this ?_
    simp only [id, Pi.neg_apply]; ring
  have hF (k v : ℝ) (hv : v ∈ Set.Icc v1 v2) : ∃ D, HasDerivAt (fun v => R.lum wr wg wb v * exp (-(k * v)))
      ((D - k * R.lum wr wg wb v) * exp (-(k * v))) v ∧ 3 / 2 * R.lum wr wg wb v ≤ D ∧ D ≤ 5 / 2 * R.lum wr wg wb v := by
    obtain ⟨D, a, b⟩ := hD v hv
    refine ⟨D, ?_, b⟩
    refine HasDerivAt.congr_deriv (f := fun v => R.lum wr wg wb v * exp (-(k * v))) (a.mul (hE k v)) ?_
    ring
  have hC (k : ℝ) : ContinuousOn (fun v => R.lum wr wg wb v * exp (-(k * v))) (Set.Icc v1 v2) := fun v hv =>
    (hF k v hv).choose_spec.1.continuousAt.continuousWithinAt
  have i1 : v1 ∈ Set.Icc v1 v2 := ⟨le_rfl, h12⟩
  have i2 : v2 ∈ Set.Icc v1 v2 := ⟨h12, le_rfl⟩
  have sub : ∀ v ∈ interior (Set.Icc v1 v2), v ∈ Set.Icc v1 v2 := fun v hv => interior_subset hv
  have e (k : ℝ) : exp (-(k * v1)) = exp (-(k * v2)) * exp (k * (v2 - v1)) := by
    rw [← exp_add]; ring_nf
  constructor
  · have m := monotoneOn_of_deriv_nonneg (convex_Icc v1 v2) (hC (3 / 2))
      (fun v hv => (hF (3 / 2) v (sub v hv)).choose_spec.1.differentiableAt.differentiableWithinAt) (fun v hv => by
        obtain ⟨D, a, b⟩ := hF (3 / 2) v (sub v hv)
        rw [a.deriv]
        exact mul_nonneg (by linarith [b.1]) (exp_pos _).le)
    have := m i1 i2 h12
    simp only at this
    rw [e] at this
    have hp := exp_pos (-(3 / 2 * v2))
    nlinarith
  · have m := antitoneOn_of_deriv_nonpos (convex_Icc v1 v2) (hC (5 / 2))
      (fun v hv => (hF (5 / 2) v (sub v hv)).choose_spec.1.differentiableAt.differentiableWithinAt) (fun v hv => by
        obtain ⟨D, a, b⟩ := hF (5 / 2) v (sub v hv)
        rw [a.deriv]
        exact mul_nonpos_of_nonpos_of_nonneg (by linarith [b.2]) (exp_pos _).le)
    have := m i1 i2 h12
    simp only at this
    rw [e] at this
    have hp := exp_pos (-(5 / 2 * v2))
    nlinarith

end Ray

end Mcu.Lemmas
