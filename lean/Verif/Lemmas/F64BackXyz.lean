import Verif.Lemmas.F64Back
import Verif.Lemmas.F64Lab

/-! From CAM16 coordinates close to those of a colour back to the colour, in IEEE-754 binary64. -/

namespace Mcu.Lemmas

open Mcu.Ieee Props Props.Binary64 MathUtils ColorUtils HctSolver Real

variable {L : Libm}

local notation "𝔻" => F64 L

/-- The saturation term, as the conversion to XYZ computes it. -/
noncomputable def tBack (C j : 𝔻) : 𝔻 := Fl.powf (C / Fl.sqrt (j / 100.0) / Fl.powf (1.64 - Fl.powf 0.29 (vc64 L).backgroundYToWhitePointY) 0.73) (1.0 / 0.9)

/-- One stimulus, as the conversion to XYZ computes it. -/
noncomputable def stimOf (x d : 𝔻) : 𝔻 := Cam16.invCone x (vc64 L).fl / d

theorem xyz64_eq {c : Cam16 𝔻} (hc : (c.chroma == (0.0 : 𝔻)) = false) (hj : (c.j == (0.0 : 𝔻)) = false) :
    c.xyzInViewingConditions (vc64 L) =
      (fun r g b : 𝔻 => (⟨1.86206786 * r - 1.01125463 * g + 0.14918677 * b, 0.38752654 * r + 0.62144744 * g - 0.00897398 * b, (-0.01584150) * r - 0.03412294 * g + 1.04996444 * b⟩ : Vec3 𝔻))
      (stimOf (respR (p2Of c.j) (gammaWith (radOf c) c.j (tBack c.chroma c.j) * Fl.cos (radOf c)) (gammaWith (radOf c) c.j (tBack c.chroma c.j) * Fl.sin (radOf c))) (vc64 L).rgbD.x0)
      (stimOf (respG (p2Of c.j) (gammaWith (radOf c) c.j (tBack c.chroma c.j) * Fl.cos (radOf c)) (gammaWith (radOf c) c.j (tBack c.chroma c.j) * Fl.sin (radOf c))) (vc64 L).rgbD.x1)
      (stimOf (respB (p2Of c.j) (gammaWith (radOf c) c.j (tBack c.chroma c.j) * Fl.cos (radOf c)) (gammaWith (radOf c) c.j (tBack c.chroma c.j) * Fl.sin (radOf c))) (vc64 L).rgbD.x2) := by
  simp only [Cam16.xyzInViewingConditions, hc, hj, Bool.or_self, Bool.false_eq_true, if_false]
  rfl

theorem Fine.tBack (hL : L.PowOk) {hr C j : 𝔻} (h : Fine hr C) {a : ℝ} (hj : Is j a) (h0 : 0.002 ≤ a) (h1 : a ≤ 150) :
    Rl (tBack C j) ((ray64 hr C).T (log a)) (2.1 / 10 ^ 13) := by
  have ha : 0 < a := by norm_num at h0; linarith
  rw [ray64_T hL h.toSetting ha]
  obtain ⟨s0, s1⟩ := sqrt_range h0 h1
  obtain ⟨κ, iκ, κ1, κ2⟩ := in_scale hL
  have κp : 0 < κ := by norm_num at κ1; linarith
  have kk : Rl (kOf L) (1 / κ) (1.1 / 10 ^ 15) := (l1 (L := L)).rl.div iκ.rl one_pos κp le_rfl le_rfl (by rw [le_div_iff₀ κp]; norm_num at *; linarith) (by rw [div_le_iff₀ κp]; norm_num at *; linarith) (by norm_num) _ (by norm_num)
  obtain ⟨k, ik, hk⟩ := kk
  obtain ⟨k', ik', k1, k2⟩ := in_k hL
  obtain rfl := ik.unique ik'
  rw [ik.2]
  have hs : 0 < Real.sqrt (a / 100) := lt_of_lt_of_le (by norm_num) s0
  have ic : Is C (Dbl.val C) := ⟨h.fin, rfl⟩
  have c0 := h.lo
  have c1 := h.hi
  generalize Dbl.val C = x at *
  have x0 : 0 < x := lt_of_lt_of_le (by norm_num) c0
  have r1 := (rl_hundredth hj h0 h1).sqrt (by norm_num) (by norm_num) (le_trans (by norm_num) s0) (s1.trans (by norm_num)) (2 / 10 ^ 15) (by norm_num)
  have b1 : 1 / 10 ^ 4 / 1.25 ≤ x / Real.sqrt (a / 100) := div_le_div₀ x0.le c0 hs s1
  have b2 : x / Real.sqrt (a / 100) ≤ 1000 / 0.004 := div_le_div₀ (by norm_num) c1 (by norm_num) s0
  have l : 8 / 10 ^ 5 ≤ x / Real.sqrt (a / 100) * k := by
    have h3 : x / Real.sqrt (a / 100) * 1 ≤ x / Real.sqrt (a / 100) * k := mul_le_mul_of_nonneg_left k1 (by positivity)
    norm_num at *; linarith
  have u : x / Real.sqrt (a / 100) * k ≤ 300000 := by
    have h3 : x / Real.sqrt (a / 100) * k ≤ 1000 / 0.004 * 1.2 := mul_le_mul b2 k2 (by linarith) (by norm_num)
    refine h3.trans ?_
    norm_num
  have r2 := ic.rl.div r1 x0 hs le_rfl (by norm_num) (le_trans (by norm_num) b1) (b2.trans (by norm_num)) (by norm_num) (4 / 10 ^ 15) (by norm_num)
  have yp : 0 < x / Real.sqrt (a / 100) := by positivity
  generalize x / Real.sqrt (a / 100) = y at *
  have r3 := r2.div iκ.rl yp κp (by norm_num) le_rfl (by
      rw [le_div_iff₀ κp]; refine le_trans ?_ b1; refine (mul_le_mul_of_nonneg_left κ2 (by norm_num)).trans ?_; norm_num)
    (by rw [div_le_iff₀ κp]; refine b2.trans ((show (1000 / 0.004 : ℝ) ≤ 10 ^ 119 * 0.85 by norm_num).trans (mul_le_mul_of_nonneg_left κ1 (by norm_num)))) (by norm_num) (6 / 10 ^ 15) (by norm_num)
  obtain ⟨w, iw, hw⟩ := r3
  have e : |y / κ - y * k| ≤ 1.2 / 10 ^ 15 * (y * k) := by
    have := rel_symm hk (by positivity) (by norm_num) (η := 1.2 / 10 ^ 15) (by norm_num)
    rw [show y / κ - y * k = y * (1 / κ - k) by ring, abs_mul, abs_of_pos yp]
    refine (mul_le_mul_of_nonneg_left this yp.le).trans (le_of_eq (by ring))
  have r4 : Rl (C / Fl.sqrt (j / 100.0) / Fl.powf (1.64 - Fl.powf 0.29 (vc64 L).backgroundYToWhitePointY) 0.73) (y * k) (7.3 / 10 ^ 15) :=
    ⟨w, iw, rel_trans hw e (by positivity) (by norm_num) (by norm_num)⟩
  exact r4.powT hL ap_ninth' (by norm_num) (le_trans (by norm_num) l) (u.trans (by norm_num)) (by norm_num) (by norm_num)
    (log_within 6 (le_trans (by norm_num) l) (u.trans (by norm_num))) _ (by norm_num) (by norm_num)

/-- One stimulus. -/
theorem stim_back (hL : L.PowOk) {x d : 𝔻} {A d' raw ε : ℝ} (hx : Rl x A ε) (hd : Nr d d' (1 / 10 ^ 12) 1) (h0 : 0.05 ≤ A) (h1 : A ≤ 39) (hε : ε ≤ 8 / 10 ^ 7) (d1 : d' ≤ 2) (raw1 : raw ≤ 110) (raw0 : 0.0008 ≤ raw)
    (e : unadapt A = vcR.fl * (d' * raw) / 100) : Ap (stimOf x d) raw (3.4 * ε * raw + 1 / 10 ^ 9) := by
  have A0 : 0 < A := lt_of_lt_of_le (by norm_num) h0
  obtain ⟨α, iα, hα⟩ := hx
  have ε0 : 0 ≤ ε := by
    by_contra hh
    push Not at hh
    have := (abs_nonneg _).trans hα
    nlinarith
  have hα' := abs_le.1 hα
  have k : ε * A ≤ 8 / 10 ^ 7 * A := mul_le_mul_of_nonneg_right hε A0.le
  obtain ⟨hs, ⟨w, iw, hw⟩, -, -⟩ := unpow_sharp hL iα (by norm_num at *; linarith) (by norm_num at *; linarith)
  have t := unadapt_tiny A0 h1 hα (hε.trans (by norm_num))
  have u0 := unadapt_pos A0 (by linarith)
  have t2 := rel_trans hw t u0 (by norm_num) (η := 2.68 * ε + 2.8 / 10 ^ 13) (by norm_num at hε ⊢; linarith)
  have rw' : Rl (Fl.powf (baseOf (Fl.abs x)) (1.0 / 0.42)) (unadapt A) (2.68 * ε + 2.8 / 10 ^ 13) := ⟨w, iw, t2⟩
  have i1 : Is (Fl.ofInt 1 : 𝔻) 1 := by simpa using is_ofInt (L := L) (n := 1) (by norm_num)
  have l100' : Nr (100.0 : 𝔻) (100.0 : ℝ) (1 / 10 ^ 15) 2 := nr_lit 2 (by norm_num) (by norm_num) (by norm_num)
  have f := l100'.div (nr_fl hL) (1.2 / 10 ^ 12) (by norm_num) (by norm_num) (by norm_num)
  have f' := (i1.nr 1 (by norm_num) (by norm_num)).mul f (1.3 / 10 ^ 12) (by norm_num) (by norm_num) (by norm_num)
  have hv := sRgb_pos
  have hf : 0 < vcR.fl := hv.fl
  have hfb : vcR.fl ≤ 1 := by
    have := (nr_fl hL).real (in_fl hL) (by norm_num) (by norm_num)
    norm_num at this ⊢; linarith
  have hfb' : 0.3 ≤ vcR.fl := by
    have := (nr_fl hL).real (in_fl hL) (by norm_num) (by norm_num)
    norm_num at this ⊢; linarith
  have d0 : 0 < d' := hd.pos
  have rp : 0 < raw := lt_of_lt_of_le (by norm_num) raw0
  have q1 : (1 : ℝ) * (100.0 / vcR.fl) * unadapt A = d' * raw := by rw [e]; norm_num; field_simp
  have q2 : d' * raw / d' = raw := by field_simp
  have dl := hd.lo
  have m0 : 1 / 10 ^ 1 * 0.0008 ≤ d' * raw := mul_le_mul dl raw0 (by norm_num) d0.le
  have m1 : d' * raw ≤ 2 * 110 := mul_le_mul d1 raw1 rp.le (by norm_num)
  have g := f'.rl.mul rw' f'.pos u0 (by norm_num) (by positivity) (by rw [q1]; exact le_trans (by norm_num) m0) (by rw [q1]; exact m1.trans (by norm_num))
    (by norm_num at hε ⊢; linarith) (2.69 * ε + 2 / 10 ^ 12) (by norm_num at hε ⊢; linarith)
  rw [q1] at g
  have st := g.div hd.rl (by positivity) d0 (by positivity) (by norm_num) (by rw [q2]; exact le_trans (by norm_num) raw0) (by rw [q2]; exact raw1.trans (by norm_num)) (by norm_num at hε ⊢; linarith) (3.4 * ε + 5 / 10 ^ 12) (by norm_num; linarith)
  rw [q2] at st
  obtain ⟨z, iz, hz⟩ := st
  have iz : Is (stimOf x d) z := by
    have : stimOf x d = Fl.ofInt (signum x) * (100.0 / (vc64 L).fl) * Fl.powf (baseOf (Fl.abs x)) (1.0 / 0.42) / d := rfl
    rw [this, hs]; exact iz
  refine ⟨z, iz, hz.trans ?_⟩
  rw [add_mul]
  norm_num at raw1 ⊢; linarith

/-- The literal inverse of the cone matrix. -/
theorem cones_back (argb : Int) : |(unCones (rawR argb)).x0 - (xyzFromArgb argb : Vec3 ℝ).x0| ≤ 2 / 10 ^ 5 ∧ |(unCones (rawR argb)).x1 - (xyzFromArgb argb : Vec3 ℝ).x1| ≤ 2 / 10 ^ 5 ∧
    |(unCones (rawR argb)).x2 - (xyzFromArgb argb : Vec3 ℝ).x2| ≤ 2 / 10 ^ 5 := by
  obtain ⟨hr, hg, hb⟩ := channel_range argb
  have hr' := linearized_range _ hr.1 hr.2
  have hg' := linearized_range _ hg.1 hg.2
  have hb' := linearized_range _ hb.1 hb.2
  simp only [rawR, unCones, rawCones, xyzFromArgb, matrixMultiply, srgbToXyz]
  generalize (linearized (redFromArgb argb) : ℝ) = r at *
  generalize (linearized (greenFromArgb argb) : ℝ) = g at *
  generalize (linearized (blueFromArgb argb) : ℝ) = b at *
  norm_num
  refine ⟨?_, ?_, ?_⟩ <;> rw [abs_le] <;> constructor <;> linarith [hr'.1, hr'.2, hg'.1, hg'.2, hb'.1, hb'.2]

set_option maxHeartbeats 800000 in
/-- Coordinates close to those computed for a colour give back the colour. -/
theorem back_near (hS : L.Sound) (hT : L.TempOk) {argb : Int} (h : NotBlack argb) {c : Cam16 𝔻} (hc : CloseTo L argb c) : c.toInt = 0xFF000000 + argb % 2 ^ 24 := by
  have hL := hS.pow
  have hE := hS.exp
  obtain ⟨fine, a, ia, a0, a1, hh, e0, e1, e2⟩ := back_fine hS hT h hc
  have a0' : 0.002 ≤ a := le_trans (by norm_num) a0
  have a1' : a ≤ 150 := a1.trans (by norm_num)
  have t := fine.tBack hL ia a0' a1'
  obtain ⟨-, T0, T1⟩ := fine.t hL ia a0' a1'
  obtain ⟨q0, q1, q2⟩ := fine.resp_of hL hE ia a0' (a1.trans (by norm_num)) t T0 T1 hh
  obtain ⟨g0, g1, g2⟩ := cones_ge h
  have g := near_slack h
  have pw := opP_le argb
  unfold opP2 at pw
  have s0 : (conesR argb).x0 ≤ 39 := by norm_num at pw g0 g1 g2 ⊢; linarith
  have s1 : (conesR argb).x1 ≤ 39 := by norm_num at pw g0 g1 g2 ⊢; linarith
  have s2 : (conesR argb).x2 ≤ 39 := by norm_num at pw g0 g1 g2 g ⊢; linarith
  have go {x : 𝔻} {A B ε δ : ℝ} (hx : Rl x A ε) (hA : |A - B| ≤ δ * B) (B0 : 0 < B) (ε0 : 0 ≤ ε) (ε1 : ε ≤ 1 / 10 ^ 11) (δ1 : δ ≤ 1) : Rl x B (δ + 1 / 10 ^ 10) := by
    obtain ⟨w, iw, hw⟩ := hx
    refine ⟨w, iw, rel_trans hw hA B0 ε0 ?_⟩
    nlinarith
  have r0 := go q0 e0 (lt_of_lt_of_le (by norm_num) g0) (by norm_num) (by norm_num) (by norm_num)
  have r1 := go q1 e1 (lt_of_lt_of_le (by norm_num) g1) (by norm_num) (by norm_num) (by norm_num)
  have r2 := go q2 e2 (lt_of_lt_of_le (by norm_num) g2) (by norm_num) (by norm_num) (by norm_num)
  clear go
  have hv := sRgb_pos
  obtain ⟨b0, b1, b2⟩ := raw_bounds h
  obtain ⟨d0, d1, d2⟩ := nr_rgbD hE
  have u0 : unadapt (conesR argb).x0 = vcR.fl * (vcR.rgbD.x0 * (rawR argb).x0) / 100 := by
    rw [conesR_eq]; exact unadapt_cone hv.fl (mul_pos hv.d0 (lt_of_lt_of_le (by norm_num) b0.1))
  have u1 : unadapt (conesR argb).x1 = vcR.fl * (vcR.rgbD.x1 * (rawR argb).x1) / 100 := by
    rw [conesR_eq]; exact unadapt_cone hv.fl (mul_pos hv.d1 (lt_of_lt_of_le (by norm_num) b1.1))
  have u2 : unadapt (conesR argb).x2 = vcR.fl * (vcR.rgbD.x2 * (rawR argb).x2) / 100 := by
    rw [conesR_eq]; exact unadapt_cone hv.fl (mul_pos hv.d2 (lt_of_lt_of_le (by norm_num) b2.1))
  obtain ⟨D0, D1, D2⟩ := rgbD_bounds
  have w0 := stim_back hL r0 d0 (le_trans (by norm_num) g0) s0 (by norm_num) (by norm_num at D0 ⊢; linarith) (b0.2.trans (by norm_num)) (le_trans (by norm_num) b0.1) u0
  have w1 := stim_back hL r1 d1 (le_trans (by norm_num) g1) s1 (by norm_num) (by norm_num at D1 ⊢; linarith) (b1.2.trans (by norm_num)) (le_trans (by norm_num) b1.1) u1
  have w2 := stim_back hL r2 d2 (le_trans (by norm_num) g2) s2 (by norm_num) (by norm_num at D2 ⊢; linarith) (b2.2.trans (by norm_num)) (le_trans (by norm_num) b2.1) u2
  have w0 := w0.weaken (ε := 3 / 10 ^ 5) (by norm_num at b0 ⊢; linarith [b0.2])
  have w1 := w1.weaken (ε := 4 / 10 ^ 5) (by norm_num at b1 ⊢; linarith [b1.2])
  have w2 := w2.weaken (ε := 2.7 / 10 ^ 4) (by norm_num at b2 ⊢; linarith [b2.2])
  have cz : (c.chroma == (0.0 : 𝔻)) = false := by
    have i : Is c.chroma (Dbl.val c.chroma) := ⟨fine.fin, rfl⟩
    rw [Bool.eq_false_iff, Ne, i.beq_iff l0']
    exact (lt_of_lt_of_le (by norm_num) fine.lo).ne'
  have jz : (c.j == (0.0 : 𝔻)) = false := by
    rw [Bool.eq_false_iff, Ne, ia.beq_iff l0']
    exact (lt_of_lt_of_le (by norm_num) a0).ne'
  have B0 : |(rawR argb).x0| ≤ 98 := abs_le.2 ⟨by linarith [b0.1], b0.2⟩
  have B1 : |(rawR argb).x1| ≤ 102 := abs_le.2 ⟨by linarith [b1.1], b1.2⟩
  have B2 : |(rawR argb).x2| ≤ 109 := abs_le.2 ⟨by linarith [b2.1], b2.2⟩
  obtain ⟨z0, z1, z2⟩ := cones_back argb
  simp only [Cam16.toInt, Cam16.viewed]
  have fin {x : 𝔻} {s t η δ : ℝ} (hx : Ap x s η) (ht : |s - t| ≤ δ) (hη : η + δ ≤ 5 / 10 ^ 4) : Ap x t (5 / 10 ^ 4) := by
    obtain ⟨v, iv, hv⟩ := hx
    refine ⟨v, iv, ?_⟩
    have := abs_add_le (v - s) (s - t)
    rw [sub_add_sub_cancel] at this
    linarith
  rw [xyz64_eq cz jz]
  clear u0 u1 u2 r0 r1 r2 q0 q1 q2 e0 e1 e2 T0 T1 hh
  dsimp only
  generalize stimOf _ (vc64 L).rgbD.x0 = R at *
  generalize stimOf _ (vc64 L).rgbD.x1 = G at *
  generalize stimOf _ (vc64 L).rgbD.x2 = B at *
  unfold unCones at z0 z1 z2
  dsimp only at z0 z1 z2
  have lit {m e : ℕ} (hb : |(OfScientific.ofScientific m true e : ℝ)| ≤ 1000) := ap_lit_sharp (L := L) (m := m) (s := true) (e := e) hb
  generalize (rawR argb).x0 = ρr at *
  generalize (rawR argb).x1 = ρg at *
  generalize (rawR argb).x2 = ρb at *
  refine argbFromXyz_near hL argb (fin (δ := 2 / 10 ^ 5) (η := 3 / 10 ^ 4) ?_ z0 (by norm_num)) (fin (δ := 2 / 10 ^ 5) (η := 3 / 10 ^ 4) ?_ z1 (by norm_num)) (fin (δ := 2 / 10 ^ 5) (η := 3 / 10 ^ 4) ?_ z2 (by norm_num))
  · have p0 := (lit (m := 186206786) (e := 8) (by norm_num [abs_le])).mulS w0 1.9 98 200 (6 / 10 ^ 5) (by norm_num [abs_le]) B0 (by norm_num) (by norm_num) (by norm_num)
    have p1 := (lit (m := 101125463) (e := 8) (by norm_num [abs_le])).mulS w1 1.1 102 200 (5 / 10 ^ 5) (by norm_num [abs_le]) B1 (by norm_num) (by norm_num) (by norm_num)
    have p2 := (lit (m := 14918677) (e := 8) (by norm_num [abs_le])).mulS w2 0.15 109 200 (5 / 10 ^ 5) (by norm_num [abs_le]) B2 (by norm_num) (by norm_num) (by norm_num)
    have a0 := abs_le.1 B0; have a1 := abs_le.1 B1; have a2 := abs_le.1 B2
    have d := p0.subS p1 1000 (1.2 / 10 ^ 4) (by rw [← le_sub_iff_add_le, ← le_sub_iff_add_le, abs_le]; norm_num; constructor <;> linarith) (by norm_num) (by norm_num)
    exact d.addS p2 1000 _ (by rw [← le_sub_iff_add_le, ← le_sub_iff_add_le, abs_le]; norm_num; constructor <;> linarith) (by norm_num) (by norm_num)
  · have p0 := (lit (m := 38752654) (e := 8) (by norm_num [abs_le])).mulS w0 0.4 98 200 (3 / 10 ^ 5) (by norm_num [abs_le]) B0 (by norm_num) (by norm_num) (by norm_num)
    have p1 := (lit (m := 62144744) (e := 8) (by norm_num [abs_le])).mulS w1 0.7 102 200 (5 / 10 ^ 5) (by norm_num [abs_le]) B1 (by norm_num) (by norm_num) (by norm_num)
    have p2 := (lit (m := 897398) (e := 8) (by norm_num [abs_le])).mulS w2 0.01 109 200 (5 / 10 ^ 5) (by norm_num [abs_le]) B2 (by norm_num) (by norm_num) (by norm_num)
    have a0 := abs_le.1 B0; have a1 := abs_le.1 B1; have a2 := abs_le.1 B2
    have d := p0.addS p1 1000 (1.2 / 10 ^ 4) (by rw [← le_sub_iff_add_le, ← le_sub_iff_add_le, abs_le]; norm_num; constructor <;> linarith) (by norm_num) (by norm_num)
    exact d.subS p2 1000 _ (by rw [← le_sub_iff_add_le, ← le_sub_iff_add_le, abs_le]; norm_num; constructor <;> linarith) (by norm_num) (by norm_num)
  · have p0 := (lit (m := 1584150) (e := 8) (by norm_num [abs_le])).negS.mulS w0 0.02 98 200 (3 / 10 ^ 6) (by norm_num [abs_le]) B0 (by norm_num) (by norm_num) (by norm_num)
    have p1 := (lit (m := 3412294) (e := 8) (by norm_num [abs_le])).mulS w1 0.04 102 200 (3 / 10 ^ 6) (by norm_num [abs_le]) B1 (by norm_num) (by norm_num) (by norm_num)
    have p2 := (lit (m := 104996444) (e := 8) (by norm_num [abs_le])).mulS w2 1.05 109 200 (2.85 / 10 ^ 4) (by norm_num [abs_le]) B2 (by norm_num) (by norm_num) (by norm_num)
    have a0 := abs_le.1 B0; have a1 := abs_le.1 B1; have a2 := abs_le.1 B2
    have d := p0.subS p1 1000 (7 / 10 ^ 6) (by rw [← le_sub_iff_add_le, ← le_sub_iff_add_le, abs_le]; norm_num; constructor <;> linarith) (by norm_num) (by norm_num)
    exact d.addS p2 1000 _ (by rw [← le_sub_iff_add_le, ← le_sub_iff_add_le, abs_le]; norm_num; constructor <;> linarith) (by norm_num) (by norm_num)

end Mcu.Lemmas
