import Verif.Lemmas.SelfRound
import Verif.Lemmas.SelfRay
import Verif.Lemmas.F64CamNear

/-! Every colour but black and white is a target the search can aim at. -/

namespace Mcu.Lemmas

open Mcu.ColorUtils Mcu.MathUtils Mcu.HctSolver Props Props.Binary64 Real

/-- A colour with a channel that is not 255. -/
def NotWhite (argb : Int) : Prop := ¬ (redFromArgb argb = 255 ∧ greenFromArgb argb = 255 ∧ blueFromArgb argb = 255)

theorem lin_code {c : ℤ} (h0 : 0 ≤ c) (h1 : c ≤ 255) : (linearized c : ℝ) ≤ 99.2 ∨ c = 255 := by
  rcases lt_or_eq_of_le h1 with h | h
  · left
    have : (linearized c : ℝ) ≤ linearized 254 := c10_strictMono.monotone (show c ≤ 254 by omega)
    refine this.trans ?_
    rw [linearized_large (by norm_num)]
    have : gpow ((254 : ℤ) / 255) ≤ 0.992 := by
      unfold gpow; rw [e24]
      exact rpow_le_of_le_pow (by norm_num) (by norm_num) (by norm_num) (by norm_num)
    norm_num at this ⊢; linarith
  · right; exact h

theorem lin_Code {c : ℤ} (h0 : 0 ≤ c) (h1 : c ≤ 255) : Aim.Code (linearized c : ℝ) := by
  rcases lin_code h0 h1 with h | h
  · exact Or.inl h
  · subst h; exact Or.inr c10_endpoints.2

/-- A mixture with positive weights is strictly below the one of white. -/
theorem mix_white {argb : Int} (h : NotWhite argb) {a b c : ℝ} (a0 : 0.0277 ≤ a) (b0 : 0.0277 ≤ b) (c0 : 0.0277 ≤ c) :
    a * (linearized (redFromArgb argb) : ℝ) + b * linearized (greenFromArgb argb) + c * linearized (blueFromArgb argb) ≤
      100 * (a + b + c) - 0.022 := by
  obtain ⟨hr, hg, hb⟩ := channel_range argb
  have r1 := (linearized_range _ hr.1 hr.2).2
  have g1 := (linearized_range _ hg.1 hg.2).2
  have b1 := (linearized_range _ hb.1 hb.2).2
  norm_num at a0 b0 c0
  have m {x y : ℝ} (hx : 0.0277 ≤ x) (hy : y ≤ 99.2) : x * y ≤ 100 * x - 0.022 := by
    norm_num at hx hy ⊢
    nlinarith
  have p1 := mul_le_mul_of_nonneg_left r1 (show 0 ≤ a by linarith)
  have p2 := mul_le_mul_of_nonneg_left g1 (show 0 ≤ b by linarith)
  have p3 := mul_le_mul_of_nonneg_left b1 (show 0 ≤ c by linarith)
  rcases lin_code hr.1 hr.2 with h1 | h1
  · have := m (x := a) (by norm_num; linarith) h1
    norm_num at this ⊢; linarith
  rcases lin_code hg.1 hg.2 with h2 | h2
  · have := m (x := b) (by norm_num; linarith) h2
    norm_num at this ⊢; linarith
  rcases lin_code hb.1 hb.2 with h3 | h3
  · have := m (x := c) (by norm_num; linarith) h3
    norm_num at this ⊢; linarith
  exact absurd ⟨h1, h2, h3⟩ h

theorem cone_mono {fl c d : ℝ} (hf : 0 < fl) (hc : 0 ≤ c) (h : c ≤ d) : cone fl c ≤ cone fl d := by
  unfold cone
  have hd := hc.trans h
  have q : (fl * c / 100) ^ (0.42 : ℝ) ≤ (fl * d / 100) ^ (0.42 : ℝ) := by gcongr
  have q0 : 0 ≤ (fl * c / 100) ^ (0.42 : ℝ) := by positivity
  generalize (fl * c / 100) ^ (0.42 : ℝ) = x at *
  generalize (fl * d / 100) ^ (0.42 : ℝ) = y at *
  rw [div_le_div_iff₀ (by positivity) (by have := q0.trans q; positivity)]
  nlinarith

/-- The responses of a colour of the gamut keep their proportions. -/
theorem near_argb {argb : Int} (h : NotBlack argb) : NearGamut (conesR argb).x0 (conesR argb).x1 (conesR argb).x2 := by
  obtain ⟨c0, c1, c2⟩ := cones_pos h
  obtain ⟨b0, b1, b2⟩ := raw_bounds h
  obtain ⟨d0, d1, d2⟩ := rgbD_bounds
  have hv := sRgb_pos
  have hf : 0 < vcR.fl := hv.fl
  obtain ⟨hr, hg, hb⟩ := channel_range argb
  have hr' := linearized_range _ hr.1 hr.2
  have hg' := linearized_range _ hg.1 hg.2
  have hb' := linearized_range _ hb.1 hb.2
  have p0 : 0 < (rawR argb).x0 := lt_of_lt_of_le (by norm_num) b0.1
  have p1 : 0 < (rawR argb).x1 := lt_of_lt_of_le (by norm_num) b1.1
  have p2 : 0 < (rawR argb).x2 := lt_of_lt_of_le (by norm_num) b2.1
  have u0 : unadapt (conesR argb).x0 = vcR.fl * (vcR.rgbD.x0 * (rawR argb).x0) / 100 := by
    rw [conesR_eq]; exact unadapt_cone hf (mul_pos hv.d0 p0)
  have u1 : unadapt (conesR argb).x1 = vcR.fl * (vcR.rgbD.x1 * (rawR argb).x1) / 100 := by
    rw [conesR_eq]; exact unadapt_cone hf (mul_pos hv.d1 p1)
  have u2 : unadapt (conesR argb).x2 = vcR.fl * (vcR.rgbD.x2 * (rawR argb).x2) / 100 := by
    rw [conesR_eq]; exact unadapt_cone hf (mul_pos hv.d2 p2)
  have e := rawCones_argb argb
  simp only at e
  have e0 : (rawR argb).x0 = 0.30269915328759 * (linearized (redFromArgb argb) : ℝ) + 0.6023803116433 * linearized (greenFromArgb argb) + 0.07047346329738 * linearized (blueFromArgb argb) := by
    unfold rawR; rw [e]
  have e1 : (rawR argb).x1 = 0.15374913599554 * (linearized (redFromArgb argb) : ℝ) + 0.77736002827076 * linearized (greenFromArgb argb) + 0.08535981854956 * linearized (blueFromArgb argb) := by
    unfold rawR; rw [e]
  have e2 : (rawR argb).x2 = 0.02796570007202 * (linearized (redFromArgb argb) : ℝ) + 0.14784523135458 * linearized (greenFromArgb argb) + 0.90895832236388 * linearized (blueFromArgb argb) := by
    unfold rawR; rw [e]
  have scale {d c d' c' m : ℝ} (hh : d * c ≤ m * (d' * c')) : vcR.fl * (d * c) / 100 ≤ m * (vcR.fl * (d' * c') / 100) := by
    have := mul_le_mul_of_nonneg_left hh hf.le
    linarith
  have mixed {d c d' c' dl dh m : ℝ} (hd : d ≤ dh) (hd' : dl ≤ d') (hc : 0 ≤ c) (hc' : 0 ≤ c') (hm : 0 ≤ m) (hh : dh * c ≤ m * (dl * c')) : d * c ≤ m * (d' * c') :=
    (mul_le_mul_of_nonneg_right hd hc).trans (hh.trans (mul_le_mul_of_nonneg_left (mul_le_mul_of_nonneg_right hd' hc') hm))
  have lt0 : (conesR argb).x0 < 400 := lt_of_le_of_lt c0.2 (by norm_num)
  have lt1 : (conesR argb).x1 < 400 := lt_of_le_of_lt c1.2 (by norm_num)
  have lt2 : (conesR argb).x2 < 400 := lt_of_le_of_lt c2.2 (by norm_num)
  have q0 : 0 < (conesR argb).x0 := lt_of_lt_of_le (by norm_num) c0.1
  have q1 : 0 < (conesR argb).x1 := lt_of_lt_of_le (by norm_num) c1.1
  have q2 : 0 < (conesR argb).x2 := lt_of_lt_of_le (by norm_num) c2.1
  have r0 := hr'.1; have r1 := hg'.1; have r2 := hb'.1
  refine ⟨q1, ?_, ?_, ?_, ?_⟩
  · have := response_le (m := 1.2517) (k := 1 / 0.91) q1 lt1 q0 lt0 (by norm_num) (by norm_num)
      (by rw [u0, u1]
          refine scale (mixed d1.2.le d0.1.le p1.le p0.le (by norm_num) ?_)
          rw [e0, e1]; norm_num; linarith) (by norm_num)
    norm_num at this ⊢; linarith
  · exact response_le (m := 2.054) (k := 1.353) q0 lt0 q1 lt1 (by norm_num) (by norm_num)
      (by rw [u0, u1]
          refine scale (mixed d0.2.le d1.1.le p0.le p1.le (by norm_num) ?_)
          rw [e0, e1]; norm_num; linarith) (by norm_num)
  · have := response_le (m := 6.03) (k := 1 / 0.47) q1 lt1 q2 lt2 (by norm_num) (by norm_num)
      (by rw [u1, u2]
          refine scale (mixed d1.2.le d2.1.le p1.le p2.le (by norm_num) ?_)
          rw [e1, e2]; norm_num; linarith) (by norm_num)
    norm_num at this ⊢; linarith
  · exact response_le (m := 10.26) (k := 2.66) q2 lt2 q1 lt1 (by norm_num) (by norm_num)
      (by rw [u1, u2]
          refine scale (mixed d2.2.le d1.1.le p2.le p1.le (by norm_num) ?_)
          rw [e1, e2]; norm_num; linarith) (by norm_num)

/-! ### The chroma is not negligible -/

theorem cone_ge {fl d q t a : ℝ} (hf : 0 < fl) (hd : 0 < d) (hq : 0 < q) (ht : 0 ≤ t) (h : t ≤ fl * d / 100) (hqt : q ^ 50 ≤ t ^ 21) (ha : a * (q + 27.13) ≤ 400 * q) (a0 : 0 ≤ a)
    (a4 : a ≤ 400) : a ≤ cone fl d := by
  have hx : 0 < fl * d / 100 := by positivity
  have hp : q ≤ (fl * d / 100) ^ (0.42 : ℝ) := by
    rw [show (0.42 : ℝ) = ((21 : ℕ) : ℝ) / ((50 : ℕ) : ℝ) by norm_num]
    exact le_rpow_of_pow_le (by norm_num) hq.le hx.le (hqt.trans (pow_le_pow_left₀ ht h 21))
  unfold cone
  generalize (fl * d / 100) ^ (0.42 : ℝ) = p at *
  rw [le_div_iff₀ (by have := hq.trans_le hp; positivity)]
  nlinarith

theorem cones_ge {argb : Int} (h : NotBlack argb) : 0.1 ≤ (conesR argb).x0 ∧ 0.1 ≤ (conesR argb).x1 ∧ 0.07 ≤ (conesR argb).x2 := by
  obtain ⟨b0, b1, b2⟩ := raw_bounds h
  obtain ⟨d0, d1, d2⟩ := rgbD_bounds
  have fb := fl_bounds
  have hv := sRgb_pos
  have lower {f d c f0 d0 c0 : ℝ} (hf : f0 < f) (hd : d0 < d) (hc : c0 ≤ c) (hf0 : 0 < f0) (hd0 : 0 < d0) (hc0 : 0 < c0) : f0 * (d0 * c0) / 100 ≤ f * (d * c) / 100 := by
    have := hf.le; have := hd.le
    have : 0 < f := hf0.trans hf
    have : 0 < d := hd0.trans hd
    gcongr
  rw [conesR_eq]
  refine ⟨?_, ?_, ?_⟩
  · exact cone_ge (q := 0.0072) hv.fl (mul_pos hv.d0 (lt_of_lt_of_le (by norm_num) b0.1)) (by norm_num) (by norm_num) (lower fb.1 d0.1 b0.1 (by norm_num) (by norm_num) (by norm_num)) (by norm_num) (by norm_num) (by norm_num) (by norm_num)
  · exact cone_ge (q := 0.0072) hv.fl (mul_pos hv.d1 (lt_of_lt_of_le (by norm_num) b1.1)) (by norm_num) (by norm_num) (lower fb.1 d1.1 b1.1 (by norm_num) (by norm_num) (by norm_num)) (by norm_num) (by norm_num) (by norm_num) (by norm_num)
  · exact cone_ge (q := 0.0048) hv.fl (mul_pos hv.d2 (lt_of_lt_of_le (by norm_num) b2.1)) (by norm_num) (by norm_num) (lower fb.1 d2.1 b2.1 (by norm_num) (by norm_num) (by norm_num)) (by norm_num) (by norm_num) (by norm_num) (by norm_num)

theorem t_ge {argb : Int} (h : NotBlack argb) : 0.0034 ≤ tTerm (conesR argb) vcR := by
  obtain ⟨q0, -⟩ := p1_bounds (Cam16.hueDegrees (opA (conesR argb)) (opB (conesR argb)))
  obtain ⟨u0, u1, -⟩ := opU_bounds h
  have r0 := rho_ge h
  obtain ⟨c0, c1, c2⟩ := cones_ge h
  unfold tTerm
  generalize 50000 / 13 * (1 / 4 * eccentricity (Cam16.hueDegrees (opA (conesR argb)) (opB (conesR argb)))) * vcR.nC * vcR.ncb = P at *
  generalize opU (conesR argb) = U at *
  generalize rho (conesR argb) = R at *
  generalize hS : (conesR argb).x0 + (conesR argb).x1 + (conesR argb).x2 = S at *
  have s0 : 0.27 ≤ S := by rw [← hS]; norm_num at *; linarith
  have a := mul_le_mul q0 r0 (by norm_num at s0 ⊢; linarith) (by linarith)
  generalize P * R = M at *
  clear hS
  norm_num at *
  rw [le_div_iff₀ (by linarith)]; linarith

theorem kappa_ge : 0.84 ≤ kappaV vcR := by
  obtain ⟨L, hS⟩ := sound_exists
  have := (nr_kappa hS.pow).real (in_scale hS.pow) (by norm_num) (by norm_num)
  norm_num at this ⊢
  linarith

theorem jbase_ge {argb : Int} (h : NotBlack argb) : 0.01 ≤ opP2 (conesR argb) * vcR.nbb / vcR.aw := by
  obtain ⟨c0, c1, c2⟩ := cones_ge h
  obtain ⟨n0, n1⟩ := nbbR
  obtain ⟨a0, a1⟩ := awR
  have p0 : 0.3 ≤ opP2 (conesR argb) := by unfold opP2; norm_num at *; linarith
  have ap : 0 < vcR.aw := lt_of_lt_of_le (by norm_num) a0
  have q0 := mul_le_mul p0 n0 (by norm_num) (le_trans (by norm_num) p0)
  generalize opP2 (conesR argb) * vcR.nbb = q at *
  norm_num at *
  rw [le_div_iff₀ ap]; linarith

/-- Every colour but black has a chroma above the threshold of the solver. -/
theorem chroma_ge {argb : Int} (h : NotBlack argb) : 0.0002 ≤ (Cam16.fromInt argb : Cam16 ℝ).chroma := by
  have e : (Cam16.fromInt argb : Cam16 ℝ).chroma = alphaTerm (conesR argb) vcR * Real.sqrt (jR argb / 100.0) := cam_chroma
  have j0 : 0.0021 ≤ jR argb / 100.0 := by
    have b0 := jbase_ge h
    obtain ⟨e0, e1⟩ := czR
    unfold jR
    generalize opP2 (conesR argb) * vcR.nbb / vcR.aw = x at *
    generalize vcR.c * vcR.z = e at *
    rw [mul_div_cancel_left₀ _ (by norm_num)]
    norm_num at b0 e0 e1
    have h1 : (0.01 : ℝ) ^ e ≤ x ^ e := rpow_le_rpow (by norm_num) (by norm_num; linarith) (by linarith)
    refine le_trans ?_ h1
    have h2 : (0.01 : ℝ) ^ ((4 : ℕ) / (3 : ℕ) : ℝ) ≤ (0.01 : ℝ) ^ e := rpow_le_rpow_of_exponent_ge (by norm_num) (by norm_num) (by norm_num; linarith)
    refine le_trans ?_ h2
    exact le_rpow_of_pow_le (by norm_num) (by norm_num) (by norm_num) (by norm_num)
  have s0 : 0.045 ≤ Real.sqrt (jR argb / 100.0) := Real.le_sqrt_of_sq_le (le_trans (by norm_num) j0)
  have t0 : 0.0059 ≤ tTerm (conesR argb) vcR ^ (0.9 : ℝ) := by
    have := t_ge h
    have tp : 0 < tTerm (conesR argb) vcR := lt_of_lt_of_le (by norm_num) this
    rw [show (0.9 : ℝ) = ((9 : ℕ) : ℝ) / ((10 : ℕ) : ℝ) by norm_num]
    exact le_rpow_of_pow_le (by norm_num) (by norm_num) tp.le (le_trans (by norm_num) (pow_le_pow_left₀ (by norm_num) this 9))
  have k0 := kappa_ge
  rw [e]
  unfold alphaTerm
  have m := mul_le_mul (mul_le_mul t0 k0 (by norm_num) (le_trans (by norm_num) t0)) s0 (by norm_num) (mul_nonneg (le_trans (by norm_num) t0) (le_trans (by norm_num) k0))
  exact le_trans (by norm_num) m

/-! ### The lightness is at most that of white -/

theorem opP_white {argb : Int} (h : NotWhite argb) : opP2 (conesR argb) ≤ pWhite := by
  have hv := sRgb_pos
  have hc := cones_of_argb argb
  have e := rawCones_argb argb
  simp only at e
  have w : (rawR argb).x0 ≤ (wpCones whitePointD65).x0 ∧ (rawR argb).x1 ≤ (wpCones whitePointD65).x1 ∧ (rawR argb).x2 ≤ (wpCones whitePointD65).x2 := by
    unfold rawR
    rw [e]
    refine ⟨?_, ?_, ?_⟩
    · refine (mix_white h (by norm_num) (by norm_num) (by norm_num)).trans ?_
      simp only [wpCones, whitePointD65]; norm_num
    · refine (mix_white h (by norm_num) (by norm_num) (by norm_num)).trans ?_
      simp only [wpCones, whitePointD65]; norm_num
    · refine (mix_white h (by norm_num) (by norm_num) (by norm_num)).trans ?_
      simp only [wpCones, whitePointD65]; norm_num
  have m0 : cone vc0.fl (vc0.rgbD.x0 * (rawR argb).x0) ≤ cone vc0.fl (vc0.rgbD.x0 * (wpCones whitePointD65).x0) :=
    cone_mono hv.fl (mul_nonneg hv.d0.le hc.c0) (mul_le_mul_of_nonneg_left w.1 hv.d0.le)
  have m1 : cone vc0.fl (vc0.rgbD.x1 * (rawR argb).x1) ≤ cone vc0.fl (vc0.rgbD.x1 * (wpCones whitePointD65).x1) :=
    cone_mono hv.fl (mul_nonneg hv.d1.le hc.c1) (mul_le_mul_of_nonneg_left w.2.1 hv.d1.le)
  have m2 : cone vc0.fl (vc0.rgbD.x2 * (rawR argb).x2) ≤ cone vc0.fl (vc0.rgbD.x2 * (wpCones whitePointD65).x2) :=
    cone_mono hv.fl (mul_nonneg hv.d2.le hc.c2) (mul_le_mul_of_nonneg_left w.2.2 hv.d2.le)
  rw [pWhite_eq, conesR_eq]
  show (40.0 * cone vc0.fl (vc0.rgbD.x0 * (rawR argb).x0) + 20.0 * cone vc0.fl (vc0.rgbD.x1 * (rawR argb).x1) + cone vc0.fl (vc0.rgbD.x2 * (rawR argb).x2)) / 20.0 ≤ _
  norm_num
  linarith

theorem j_white {argb : Int} (h : NotWhite argb) (hb : NotBlack argb) : jR argb ≤ 100 := by
  have := opP_white h
  have hv := sRgb_pos
  have b0 := jbase_ge hb
  have b1 : opP2 (conesR argb) * vcR.nbb / vcR.aw ≤ 1 := by
    unfold pWhite at this
    rw [div_le_one hv.aw]
    rwa [le_div_iff₀ hv.nbb] at this
  have := rpow_le_one (le_trans (by norm_num) b0) b1 (mul_nonneg hv.c.le hv.z.le)
  unfold jR
  norm_num at this ⊢
  linarith

theorem j_pos' {argb : Int} (hb : NotBlack argb) : 0 < jR argb := by
  have b0 := jbase_ge hb
  have : 0 < opP2 (conesR argb) * vcR.nbb / vcR.aw := lt_of_lt_of_le (by norm_num) b0
  unfold jR
  positivity

/-! ### The target -/

/-- The relative luminance of a colour. -/
noncomputable def lumR (argb : Int) : ℝ :=
  0.2126 * linearized (redFromArgb argb) + 0.7152 * linearized (greenFromArgb argb) + 0.0722 * linearized (blueFromArgb argb)

theorem aim_argb {argb : Int} (hb : NotBlack argb) (hw : NotWhite argb) :
    Aim (rayOf ((Cam16.fromInt argb : Cam16 ℝ).hue / 180 * π) (Cam16.fromInt argb : Cam16 ℝ).chroma) pWhite (log (sqrt (lumR argb) * 11))
      (Cam16.fromInt argb : Cam16 ℝ).j (lumR argb)
      (linearized (redFromArgb argb)) (linearized (greenFromArgb argb)) (linearized (blueFromArgb argb)) := by
  have hC : 0 < (Cam16.fromInt argb : Cam16 ℝ).chroma := lt_of_lt_of_le (by norm_num) (chroma_ge hb)
  have ej : (Cam16.fromInt argb : Cam16 ℝ).j = jR argb := rfl
  have hj : 0 < (Cam16.fromInt argb : Cam16 ℝ).j := by rw [ej]; exact j_pos' hb
  obtain ⟨s0, s1, s2, sd, sP⟩ := self_ray (cones_of_argb argb) hC hj
  have s0 : (rayOf ((Cam16.fromInt argb : Cam16 ℝ).hue / 180 * π) (Cam16.fromInt argb : Cam16 ℝ).chroma).Ar (log (Cam16.fromInt argb : Cam16 ℝ).j) = (conesR argb).x0 := s0
  have s1 : (rayOf ((Cam16.fromInt argb : Cam16 ℝ).hue / 180 * π) (Cam16.fromInt argb : Cam16 ℝ).chroma).Ag (log (Cam16.fromInt argb : Cam16 ℝ).j) = (conesR argb).x1 := s1
  have s2 : (rayOf ((Cam16.fromInt argb : Cam16 ℝ).hue / 180 * π) (Cam16.fromInt argb : Cam16 ℝ).chroma).Ab (log (Cam16.fromInt argb : Cam16 ℝ).j) = (conesR argb).x2 := s2
  have sP : (rayOf ((Cam16.fromInt argb : Cam16 ℝ).hue / 180 * π) (Cam16.fromInt argb : Cam16 ℝ).chroma).P (log (Cam16.fromInt argb : Cam16 ℝ).j) = opP2 (conesR argb) := sP
  obtain ⟨b0, b1, b2⟩ := raw_bounds hb
  have hv := sRgb_pos
  have u0 : unadapt (conesR argb).x0 = vcR.fl * (vcR.rgbD.x0 * (rawR argb).x0) / 100 := by
    rw [conesR_eq]; exact unadapt_cone hv.fl (mul_pos hv.d0 (lt_of_lt_of_le (by norm_num) b0.1))
  have u1 : unadapt (conesR argb).x1 = vcR.fl * (vcR.rgbD.x1 * (rawR argb).x1) / 100 := by
    rw [conesR_eq]; exact unadapt_cone hv.fl (mul_pos hv.d1 (lt_of_lt_of_le (by norm_num) b1.1))
  have u2 : unadapt (conesR argb).x2 = vcR.fl * (vcR.rgbD.x2 * (rawR argb).x2) / 100 := by
    rw [conesR_eq]; exact unadapt_cone hv.fl (mul_pos hv.d2 (lt_of_lt_of_le (by norm_num) b2.1))
  have e := rawCones_argb argb
  simp only at e
  unfold rawR at u0 u1 u2
  rw [e] at u0 u1 u2
  obtain ⟨hr, hg, hbl⟩ := channel_range argb
  have hr' := linearized_range _ hr.1 hr.2
  have hg' := linearized_range _ hg.1 hg.2
  have hb' := linearized_range _ hbl.1 hbl.2
  obtain ⟨m0, m1, m2⟩ := solver_matrix hr'.1 hg'.1 hb'.1
  dsimp only at u0 u1 u2
  have ylo : 0.00209 ≤ lumR argb := by
    have s := lin_sum' hb
    have := hr'.1; have := hg'.1; have := hb'.1
    unfold lumR
    norm_num at s ⊢
    linarith
  have y0 : 0 ≤ lumR argb := by norm_num at ylo; linarith
  refine ⟨rayOf_white _ _, hj, ⟨rayOf_ok hC, ?_, sd, ?_⟩, ?_, ?_, ?_, hr'.1, hr'.2, hg'.1, hg'.2, hb'.1, hb'.2, ?_, ylo, ?_, ?_, ?_⟩
  · rw [s0, s1, s2]; exact near_argb hb
  · rw [sP]; exact (opP_white hw).trans (pWhite_le.trans (by norm_num))
  · unfold Ray.ch0 Ray.lum
    rw [s0, s1, s2, u0, u1, u2]; exact m0.trans (mul_le_mul_of_nonneg_right (by norm_num) y0)
  · unfold Ray.ch1 Ray.lum
    rw [s0, s1, s2, u0, u1, u2]; exact m1.trans (mul_le_mul_of_nonneg_right (by norm_num) y0)
  · unfold Ray.ch2 Ray.lum
    rw [s0, s1, s2, u0, u1, u2]; exact m2.trans (mul_le_mul_of_nonneg_right (by norm_num) y0)
  · unfold lumR; rw [sub_self, abs_zero]; unfold lumR at y0; positivity
  · have := hr'.2; have := hg'.2; have := hb'.2
    unfold lumR; norm_num; linarith
  · rw [ej]; exact (j_white hw hb).trans (by norm_num)
  · norm_num

/-- The search for a colour, with exact arithmetic. -/
theorem Aim.exact {h C j y r g b : ℝ} (hC : 0 < C) (A : Aim (rayOf h C) pWhite (log (sqrt y * 11)) j y r g b)
    (hr : Aim.Code r) (hg : Aim.Code g) (hb : Aim.Code b) : ∃ L0 L1 L2 : ℝ, findResultByJ h C y = argbFromLinrgb (⟨L0, L1, L2⟩ : Vec3 ℝ) ∧
      Aim.Fair L0 r ∧ Aim.Fair L1 g ∧ Aim.Fair L2 b := by
  obtain ⟨plo, phi, S, F⟩ := A.found hr hg hb
  have hs : 0 < sqrt y := sqrt_pos.2 A.y0
  obtain ⟨v, st, res⟩ := S.loop hC 4 (log (sqrt y * 11)) (Set.right_mem_Icc.2 S.beg.le) A.above
  obtain ⟨-, -, g0, g1, g2⟩ := F v st
  have f0 := g0.fair (L := (rayOf h C).ch0 v) (by norm_num)
  have f1 := g1.fair (L := (rayOf h C).ch1 v) (by norm_num)
  have f2 := g2.fair (L := (rayOf h C).ch2 v) (by norm_num)
  refine ⟨_, _, _, ?_, f0, f1, f2⟩
  have z : (11.0 : ℝ) = 11 := by norm_num
  rw [if_neg, exp_log (by positivity)] at res
  · unfold findResultByJ
    rw [fl_sqrt, z, ← res]
  · push Not
    exact ⟨f0.top, f1.top, f2.top⟩

end Mcu.Lemmas
