import Verif.Lemmas.F64SelfTerms

/-! The achromatic response and the saturation term at the lightness the code computes, in IEEE-754 binary64. -/

namespace Mcu.Lemmas

open Mcu.Ieee Props Props.Binary64 MathUtils ColorUtils HctSolver Real

variable {L : Libm}

local notation "𝔻" => F64 L

theorem jR_ge {argb : Int} (h : NotBlack argb) : 0.211 ≤ jR argb := by
  have b0 := jbase_ge h
  obtain ⟨e0, e1⟩ := czR
  unfold jR
  generalize opP2 (conesR argb) * vcR.nbb / vcR.aw = x at *
  generalize vcR.c * vcR.z = e at *
  norm_num at b0 e0 e1
  have h1 : (0.01 : ℝ) ^ e ≤ x ^ e := rpow_le_rpow (by norm_num) (by norm_num; linarith) (by linarith)
  have h2 : (0.01 : ℝ) ^ ((4 : ℕ) / (3 : ℕ) : ℝ) ≤ (0.01 : ℝ) ^ e := rpow_le_rpow_of_exponent_ge (by norm_num) (by norm_num) (by norm_num; linarith)
  have h3 : 0.00215 ≤ (0.01 : ℝ) ^ ((4 : ℕ) / (3 : ℕ) : ℝ) := le_rpow_of_pow_le (by norm_num) (by norm_num) (by norm_num) (by norm_num)
  have := h3.trans (h2.trans h1)
  generalize x ^ e = w at *
  norm_num at *; linarith

/-- The computed lightness. -/
theorem j_self (hL : L.PowOk) (hE : L.ExpOk) {argb : Int} (h : NotBlack argb) (hw : NotWhite argb) :
    Is (j64 L argb) (Dbl.val (j64 L argb)) ∧ 0.21 ≤ Dbl.val (j64 L argb) ∧ Dbl.val (j64 L argb) ≤ 100.001 := by
  obtain ⟨i, e⟩ := (nr_j hL hE h).val
  have j0 := jR_ge h
  have j1 := j_white hw h
  have e := abs_le.1 e
  refine ⟨i, ?_, ?_⟩ <;> norm_num at * <;> linarith

theorem pWhite_lt : pWhite ≤ 29.4999 := by
  rw [pWhite_eq]
  obtain ⟨f1, f2⟩ := fl_d16
  obtain ⟨⟨a1, a2⟩, ⟨b1, b2⟩, ⟨c1, c2⟩⟩ := rgbD_d16
  have w0 : 97.55 ≤ (wpCones whitePointD65).x0 ∧ (wpCones whitePointD65).x0 ≤ 97.5553 := by
    simp only [wpCones, whitePointD65]; norm_num
  have w1 : 101.64 ≤ (wpCones whitePointD65).x1 ∧ (wpCones whitePointD65).x1 ≤ 101.6469 := by
    simp only [wpCones, whitePointD65]; norm_num
  have w2 : 108.47 ≤ (wpCones whitePointD65).x2 ∧ (wpCones whitePointD65).x2 ≤ 108.477 := by
    simp only [wpCones, whitePointD65]; norm_num
  have r := product_bounds (t1 := 0.67) (t2 := 0.6713) ⟨f1, f2⟩ ⟨a1, a2⟩ w0 (by norm_num) (by norm_num) (by norm_num)
    (by norm_num) (by norm_num) (by norm_num) (by norm_num)
  have g := product_bounds (t1 := 0.672) (t2 := 0.6731) ⟨f1, f2⟩ ⟨b1, b2⟩ w1 (by norm_num) (by norm_num) (by norm_num)
    (by norm_num) (by norm_num) (by norm_num) (by norm_num)
  have b := product_bounds (t1 := 0.674) (t2 := 0.6762) ⟨f1, f2⟩ ⟨c1, c2⟩ w2 (by norm_num) (by norm_num) (by norm_num)
    (by norm_num) (by norm_num) (by norm_num) (by norm_num)
  generalize cone vc0.fl (vc0.rgbD.x0 * (wpCones whitePointD65).x0) = x at *
  generalize cone vc0.fl (vc0.rgbD.x1 * (wpCones whitePointD65).x1) = y at *
  generalize cone vc0.fl (vc0.rgbD.x2 * (wpCones whitePointD65).x2) = z at *
  norm_num at r g b ⊢
  linarith [r.2, g.2, b.2]

/-- The achromatic response of every colour, white included. -/
theorem opP_le (argb : Int) : opP2 (conesR argb) ≤ 29.4999 := by
  have hv := sRgb_pos
  have hc := cones_of_argb argb
  have e := rawCones_argb argb
  simp only at e
  obtain ⟨hr, hg, hb⟩ := channel_range argb
  have hr' := linearized_range _ hr.1 hr.2
  have hg' := linearized_range _ hg.1 hg.2
  have hb' := linearized_range _ hb.1 hb.2
  obtain ⟨f1, f2⟩ := fl_d16
  obtain ⟨⟨a1, a2⟩, ⟨b1, b2⟩, ⟨c1, c2⟩⟩ := rgbD_d16
  have w : (rawR argb).x0 ≤ 97.5553 ∧ (rawR argb).x1 ≤ 101.6469 ∧ (rawR argb).x2 ≤ 108.477 := by
    unfold rawR
    rw [e]
    generalize (linearized (redFromArgb argb) : ℝ) = r at *
    generalize (linearized (greenFromArgb argb) : ℝ) = g at *
    generalize (linearized (blueFromArgb argb) : ℝ) = b at *
    dsimp only
    norm_num
    refine ⟨?_, ?_, ?_⟩ <;> linarith [hr'.2, hg'.2, hb'.2]
  have m0 : cone vc0.fl (vc0.rgbD.x0 * (rawR argb).x0) ≤ cone vc0.fl (vc0.rgbD.x0 * 97.5553) :=
    cone_mono hv.fl (mul_nonneg hv.d0.le hc.c0) (mul_le_mul_of_nonneg_left w.1 hv.d0.le)
  have m1 : cone vc0.fl (vc0.rgbD.x1 * (rawR argb).x1) ≤ cone vc0.fl (vc0.rgbD.x1 * 101.6469) :=
    cone_mono hv.fl (mul_nonneg hv.d1.le hc.c1) (mul_le_mul_of_nonneg_left w.2.1 hv.d1.le)
  have m2 : cone vc0.fl (vc0.rgbD.x2 * (rawR argb).x2) ≤ cone vc0.fl (vc0.rgbD.x2 * 108.477) :=
    cone_mono hv.fl (mul_nonneg hv.d2.le hc.c2) (mul_le_mul_of_nonneg_left w.2.2 hv.d2.le)
  have r := product_bounds (t1 := 0.67) (t2 := 0.6713) (w := 97.5553) ⟨f1, f2⟩ ⟨a1, a2⟩ ⟨le_rfl, le_rfl⟩ (by norm_num) (by norm_num) (by norm_num)
    (by norm_num) (by norm_num) (by norm_num) (by norm_num)
  have g := product_bounds (t1 := 0.672) (t2 := 0.6731) (w := 101.6469) ⟨f1, f2⟩ ⟨b1, b2⟩ ⟨le_rfl, le_rfl⟩ (by norm_num) (by norm_num) (by norm_num)
    (by norm_num) (by norm_num) (by norm_num) (by norm_num)
  have b := product_bounds (t1 := 0.674) (t2 := 0.6762) (w := 108.477) ⟨f1, f2⟩ ⟨c1, c2⟩ ⟨le_rfl, le_rfl⟩ (by norm_num) (by norm_num) (by norm_num)
    (by norm_num) (by norm_num) (by norm_num) (by norm_num)
  rw [conesR_eq]
  show (40.0 * cone vc0.fl (vc0.rgbD.x0 * (rawR argb).x0) + 20.0 * cone vc0.fl (vc0.rgbD.x1 * (rawR argb).x1) + cone vc0.fl (vc0.rgbD.x2 * (rawR argb).x2)) / 20.0 ≤ _
  generalize cone vc0.fl (vc0.rgbD.x0 * 97.5553) = x at *
  generalize cone vc0.fl (vc0.rgbD.x1 * 101.6469) = y at *
  generalize cone vc0.fl (vc0.rgbD.x2 * 108.477) = z at *
  norm_num at r g b ⊢
  linarith [r.2, g.2, b.2]

theorem wRatio_ge (hL : L.PowOk) (hE : L.ExpOk) : 29.4 ≤ wRatio L := (wRatio_bounds hL hE).1

theorem pWhite_gt : 29.39 ≤ pWhite := by
  obtain ⟨L, hS⟩ := sound_exists
  have hv := sRgb_pos
  obtain ⟨-, ea⟩ := (nr_aw hS.pow hS.exp).val
  obtain ⟨-, eb⟩ := (nr_nbb hS.pow).val
  have := rel_div ea eb (show 0 < vcR.aw from hv.aw) (show 0 < vcR.nbb from hv.nbb) (by norm_num) (η := 1 / 10 ^ 10) (by norm_num)
  have e : vcR.aw / vcR.nbb = pWhite := rfl
  rw [e] at this
  have l := wRatio_ge hS.pow hS.exp
  have p := pWhite_lt
  have := abs_le.1 this
  unfold wRatio at l
  norm_num at *
  linarith

/-- The exact lightness of every colour, white included. -/
theorem jR_le {argb : Int} (h : NotBlack argb) : jR argb ≤ 100.6 := by
  have hv := sRgb_pos
  have p1 := opP_le argb
  have pw := pWhite_gt
  have b0 := jbase_ge h
  obtain ⟨e0, e1⟩ := czR
  have b1 : opP2 (conesR argb) * vcR.nbb / vcR.aw ≤ 1.004 := by
    rw [div_le_iff₀ hv.aw]
    have e : vcR.aw = pWhite * vcR.nbb := by unfold pWhite; have := hv.nbb.ne'; field_simp
    rw [e, ← mul_assoc]
    refine mul_le_mul_of_nonneg_right ?_ hv.nbb.le
    norm_num at *; linarith
  unfold jR
  generalize opP2 (conesR argb) * vcR.nbb / vcR.aw = x at *
  generalize vcR.c * vcR.z = e at *
  norm_num at e0 e1
  have h1 : x ^ e ≤ (1.004 : ℝ) ^ e := rpow_le_rpow (le_trans (by norm_num) b0) b1 (by linarith)
  have h2 : (1.004 : ℝ) ^ e ≤ (1.004 : ℝ) ^ ((4 : ℕ) / (3 : ℕ) : ℝ) := rpow_le_rpow_of_exponent_le (by norm_num) (by norm_num; linarith)
  have h3 : (1.004 : ℝ) ^ ((4 : ℕ) / (3 : ℕ) : ℝ) ≤ 1.0054 := rpow_le_of_le_pow (by norm_num) (by norm_num) (by norm_num) (by norm_num)
  have := h1.trans (h2.trans h3)
  generalize x ^ e = w at *
  norm_num at *; linarith

theorem j_any (hL : L.PowOk) (hE : L.ExpOk) {argb : Int} (h : NotBlack argb) :
    Is (j64 L argb) (Dbl.val (j64 L argb)) ∧ 0.21 ≤ Dbl.val (j64 L argb) ∧ Dbl.val (j64 L argb) ≤ 101 := by
  obtain ⟨i, e⟩ := (nr_j hL hE h).val
  have j0 := jR_ge h
  have j1 := jR_le h
  have e := abs_le.1 e
  refine ⟨i, ?_, ?_⟩ <;> norm_num at * <;> linarith

theorem wRatio_le (hL : L.PowOk) (hE : L.ExpOk) : wRatio L ≤ 29.5 := by
  have hv := sRgb_pos
  obtain ⟨-, ea⟩ := (nr_aw hL hE).val
  obtain ⟨-, eb⟩ := (nr_nbb hL).val
  have ha : 0 < vcR.aw := hv.aw
  have hb : 0 < vcR.nbb := hv.nbb
  have := rel_div ea eb ha hb (by norm_num) (η := 1 / 10 ^ 10) (by norm_num)
  have p := pWhite_lt
  have e : vcR.aw / vcR.nbb = pWhite := rfl
  rw [e] at this
  have := abs_le.1 this
  unfold wRatio
  norm_num at *
  linarith

/-! ### The achromatic response -/

/-- Raising to a power and to its approximate inverse. -/
theorem back_power {x j e q : ℝ} (x0 : 0.008 ≤ x) (x1 : x ≤ 10) (hj : |j / 100 - x ^ e| ≤ 1.19 / 10 ^ 13 * x ^ e) (q0 : 0 ≤ q) (q1 : q ≤ 0.7592) (hq : |e * q - 1| ≤ 3.5 / 10 ^ 15) :
    |(j / 100) ^ q - x| ≤ 1.3 / 10 ^ 13 * x := by
  have xp : 0 < x := by norm_num at x0; linarith
  have s1 := rpow_tiny (w := q) (e := q) (δ := 0) (M := |log (x ^ e)|) (η := 9.1 / 10 ^ 14) (rpow_pos_of_pos xp e) hj (by simp) q0 (by norm_num) le_rfl (by norm_num at q1 ⊢; linarith) (by norm_num)
  rw [← rpow_mul xp.le] at s1
  have s2 := rpow_tiny (v := x) (t := x) (w := e * q) (e := 1) (ε := 0) (η := 2.7 / 10 ^ 14) xp (by simp) hq (by norm_num) (by norm_num)
    (log_within 3 (by norm_num at x0 ⊢; linarith) (x1.trans (by norm_num))) (by norm_num) (by norm_num)
  rw [rpow_one] at s2
  exact rel_trans s1 s2 xp (by norm_num) (by norm_num)

set_option maxHeartbeats 800000 in
theorem P_self (hL : L.PowOk) (hE : L.ExpOk) {argb : Int} (h : NotBlack argb) {hr C : 𝔻} :
    |(ray64 hr C).P (log (Dbl.val (j64 L argb))) - opP2 (conesV L argb)| ≤ 1.3 / 10 ^ 13 * opP2 (conesV L argb) := by
  obtain ⟨ij, j0, j1⟩ := j_any hL hE h
  have jp : 0 < Dbl.val (j64 L argb) := by norm_num at j0; linarith
  rw [ray64_P hr C jp]
  have s := sound_cones hL hE h
  have np := s.op
  obtain ⟨-, -, -, y0, y1, z1', z2', z3', z4'⟩ := s
  have p0 : 0.25 ≤ opP2 (conesV L argb) := by unfold opP2; norm_num at *; linarith
  have p1 : opP2 (conesV L argb) ≤ 60 := by unfold opP2; norm_num at *; linarith
  have wb := wRatio_bounds hL hE
  obtain ⟨A, iA, A1, A2⟩ := in_aw hL hE
  obtain ⟨B, iB, B1, B2⟩ := in_nbb hL
  obtain ⟨c, ic, c1, c2⟩ := in_c (L := L)
  obtain ⟨z, iz, z1, z2⟩ := in_z (L := L)
  have iq : Is (qOf L) (ray64 hr C).q := ⟨(in_q (L := L)).choose_spec.1.1, rfl⟩
  have hA := iA.nr 2 (by norm_num at *; linarith) (by norm_num at *; linarith)
  have hB := iB.nr 1 (by norm_num at *; linarith) (by norm_num at *; linarith)
  have hc := ic.nr 1 (by norm_num at *; linarith) (by norm_num at *; linarith)
  have hz := iz.nr 1 (by norm_num at *; linarith) (by norm_num at *; linarith)
  have ew : wRatio L = A / B := by unfold wRatio; rw [iA.2, iB.2]
  have a0 : 0 < A := hA.pos
  have b0 : 0 < B := hB.pos
  -- the base of the power
  have base := (np.mul hB (9.1 / 10 ^ 15) (by norm_num) (by norm_num) (by norm_num)).div hA (1.2 / 10 ^ 14) (by norm_num) (by norm_num) (by norm_num)
  have eb : opP2 (conesV L argb) * B / A = opP2 (conesV L argb) / wRatio L := by rw [ew]; field_simp
  rw [eb] at base
  have w0 : 0 < wRatio L := by norm_num at wb; linarith [wb.1]
  generalize opP2 (conesV L argb) = p at *
  have t0 : 0.008 ≤ p / wRatio L := by rw [le_div_iff₀ w0]; norm_num at *; linarith
  have t1 : p / wRatio L ≤ 10 := by rw [div_le_iff₀ w0]; norm_num at *; linarith
  have tp : 0 < p / wRatio L := by norm_num at t0; linarith
  have eP : p = wRatio L * (p / wRatio L) := by field_simp
  -- the exponent
  have he := hc.mul hz (1.1 / 10 ^ 15) (by norm_num) (by norm_num) (by norm_num)
  obtain ⟨ie, ee⟩ := he.val
  have hq := (((l1 (L := L)).nr 0 (by norm_num) (by norm_num)).div hc (1.1 / 10 ^ 15) (by norm_num) (by norm_num) (by norm_num)).div hz (2.3 / 10 ^ 15) (by norm_num) (by norm_num) (by norm_num)
  obtain ⟨-, eq⟩ := hq.val
  change |(ray64 hr C).q - _| ≤ _ at eq
  have hok : 0.7591 ≤ (ray64 hr C).q ∧ (ray64 hr C).q ≤ 0.7592 := by
    obtain ⟨q, iq', q1, q2⟩ := in_q (L := L)
    rw [iq.unique iq']; exact ⟨q1, q2⟩
  generalize (ray64 hr C).q = q at *
  have hcz : 1.317 ≤ c * z ∧ c * z ≤ 1.318 := by
    constructor
    · have := mul_le_mul c1 z1 (by norm_num) (le_trans (by norm_num) c1); norm_num at *; linarith
    · have := mul_le_mul c2 z2 hz.pos.le (by norm_num); norm_num at *; linarith
  have czp : 0 < c * z := by norm_num at hcz; linarith [hcz.1]
  have prod : |Dbl.val ((vc64 L).c * (vc64 L).z) * q - 1| ≤ 3.5 / 10 ^ 15 := by
    have := rel_mul ee eq (mul_pos hc.pos hz.pos) (div_pos (div_pos one_pos hc.pos) hz.pos) (η := 3.5 / 10 ^ 15) (by norm_num)
    have e1 : c * z * (1 / c / z) = 1 := by have := hc.pos.ne'; have := hz.pos.ne'; field_simp
    rw [e1, mul_one] at this
    exact this
  generalize Dbl.val ((vc64 L).c * (vc64 L).z) = e at *
  have ee' := abs_le.1 ee
  have e0 : 1.31 ≤ e := by norm_num at *; linarith [hcz.1, hcz.2]
  have e1 : e ≤ 1.32 := by norm_num at *; linarith [hcz.1, hcz.2]
  -- the power
  have ae : Ap ((vc64 L).c * (vc64 L).z) e 0 := ⟨e, ie, by simp⟩
  have pw := base.rl.powT hL ae (by norm_num) (by norm_num at t0 ⊢; linarith) (t1.trans (by norm_num)) (by norm_num at e0; linarith) (by norm_num at e1 ⊢; linarith)
    (log_within 3 (by norm_num at t0 ⊢; linarith) (t1.trans (by norm_num))) (1.17 / 10 ^ 13) (by norm_num at e1 ⊢; linarith) (by norm_num at e1 ⊢; linarith)
  have l100' : Is (100.0 : 𝔻) 100 := l100
  have pe0 : 0.001 ≤ (p / wRatio L) ^ e := by
    have h1 : (0.008 : ℝ) ^ e ≤ (p / wRatio L) ^ e := rpow_le_rpow (by norm_num) t0 (by norm_num at e0; linarith)
    have h2 : (0.008 : ℝ) ^ ((4 : ℕ) / (3 : ℕ) : ℝ) ≤ (0.008 : ℝ) ^ e := rpow_le_rpow_of_exponent_ge (by norm_num) (by norm_num) (by norm_num at *; linarith)
    have h3 : 0.001 ≤ (0.008 : ℝ) ^ ((4 : ℕ) / (3 : ℕ) : ℝ) := le_rpow_of_pow_le (by norm_num) (by norm_num) (by norm_num) (by norm_num)
    exact h3.trans (h2.trans h1)
  have pe1 : (p / wRatio L) ^ e ≤ 1000 := by
    have h1 : (p / wRatio L) ^ e ≤ (10 : ℝ) ^ e := rpow_le_rpow tp.le t1 (by norm_num at e0; linarith)
    have h2 : (10 : ℝ) ^ e ≤ (10 : ℝ) ^ (3 : ℝ) := rpow_le_rpow_of_exponent_le (by norm_num) (by norm_num at e1; linarith)
    refine h1.trans (h2.trans ?_)
    norm_num
  have pep : 0 < (p / wRatio L) ^ e := by positivity
  have jj := l100'.rl.mul pw (by norm_num) pep le_rfl (by norm_num) (le_trans (by norm_num) (mul_le_mul_of_nonneg_left pe0 (show (0:ℝ) ≤ 100 by norm_num)))
    ((mul_le_mul_of_nonneg_left pe1 (show (0:ℝ) ≤ 100 by norm_num)).trans (by norm_num)) (by norm_num) (1.19 / 10 ^ 13) (by norm_num)
  obtain ⟨j, ijj, hj⟩ := jj
  have ijj : Is (j64 L argb) j := ijj
  rw [ijj.2]
  have hj2 : |j / 100 - (p / wRatio L) ^ e| ≤ 1.19 / 10 ^ 13 * (p / wRatio L) ^ e := by
    rw [show j / 100 - (p / wRatio L) ^ e = (j - 100 * (p / wRatio L) ^ e) / 100 by ring, abs_div, abs_of_pos (show (0:ℝ) < 100 by norm_num)]
    rw [div_le_iff₀ (by norm_num)]
    linarith
  have q0 : 0 ≤ q := by norm_num at hok; linarith [hok.1]
  have s3 := back_power t0 t1 hj2 q0 hok.2 prod
  generalize p / wRatio L = t at *
  rw [eP, ← mul_sub, abs_mul, abs_of_pos w0]
  have := mul_le_mul_of_nonneg_left s3 w0.le
  linarith

/-! ### The saturation term -/

/-- The chroma the code computes. -/
noncomputable def chr64 (L : Libm) (argb : Int) : F64 L := alpha64 L argb * Fl.sqrt (j64 L argb / 100.0)

theorem t_le {argb : Int} (h : NotBlack argb) : tTerm (conesR argb) vcR ≤ 1320 := by
  obtain ⟨-, q1⟩ := p1_bounds (Cam16.hueDegrees (opA (conesR argb)) (opB (conesR argb)))
  obtain ⟨g0, l1, l2, l3, l4⟩ := near_argb h
  have r1 : rho (conesR argb) ≤ 0.632 * (conesR argb).x1 := by
    have a1 : |opA (conesR argb)| ≤ 0.505 * (conesR argb).x1 := by
      unfold opA; rw [abs_le]; norm_num at *; constructor <;> linarith
    have b1 : |opB (conesR argb)| ≤ 0.379 * (conesR argb).x1 := by
      unfold opB; rw [abs_le]; norm_num at *; constructor <;> linarith
    unfold rho
    apply Real.sqrt_le_iff.2 ⟨by positivity, ?_⟩
    rw [← abs_mul_abs_self (opA _), ← abs_mul_abs_self (opB _)]
    have m1 := mul_le_mul a1 a1 (abs_nonneg _) (by positivity)
    have m2 := mul_le_mul b1 b1 (abs_nonneg _) (by positivity)
    nlinarith [m1, m2, mul_pos g0 g0]
  have u1 : 2.4 * (conesR argb).x1 ≤ opU (conesR argb) := by unfold opU; norm_num at *; linarith
  unfold tTerm
  generalize 50000 / 13 * (1 / 4 * eccentricity (Cam16.hueDegrees (opA (conesR argb)) (opB (conesR argb)))) * vcR.nC * vcR.ncb = P at *
  have r0 : 0 ≤ rho (conesR argb) := Real.sqrt_nonneg _
  have b := mul_le_mul q1 r1 r0 (by norm_num)
  generalize opU (conesR argb) = U at *
  generalize rho (conesR argb) = R at *
  generalize P * R = M at *
  norm_num at *
  rw [div_le_iff₀ (by linarith)]; linarith

theorem kappa_le : kappaV vcR ≤ 1 := by
  obtain ⟨L, hS⟩ := sound_exists
  have := (nr_kappa hS.pow).real (in_scale hS.pow) (by norm_num) (by norm_num)
  norm_num at this ⊢
  linarith

theorem chroma_le {argb : Int} (h : NotBlack argb) : (Cam16.fromInt argb : Cam16 ℝ).chroma ≤ 700 := by
  have e : (Cam16.fromInt argb : Cam16 ℝ).chroma = alphaTerm (conesR argb) vcR * Real.sqrt (jR argb / 100.0) := cam_chroma
  have j1 := jR_le h
  have s1 : Real.sqrt (jR argb / 100.0) ≤ 1.01 := Real.sqrt_le_iff.2 ⟨by norm_num, by norm_num at j1 ⊢; linarith⟩
  have t0 := (t_bounds h).1
  have tp : 0 < tTerm (conesR argb) vcR := lt_of_lt_of_le (by norm_num) t0
  have t1 : tTerm (conesR argb) vcR ^ (0.9 : ℝ) ≤ 660 := by
    rw [show (0.9 : ℝ) = ((9 : ℕ) : ℝ) / ((10 : ℕ) : ℝ) by norm_num]
    exact rpow_le_of_le_pow (by norm_num) (by norm_num) tp.le ((pow_le_pow_left₀ tp.le (t_le h) 9).trans (by norm_num))
  rw [e]
  unfold alphaTerm
  have m := mul_le_mul (mul_le_mul t1 kappa_le (le_trans (by norm_num) kappa_ge) (by norm_num)) s1 (Real.sqrt_nonneg _) (by norm_num)
  linarith

theorem chroma_self (hS : L.Sound) (hT : L.TempOk) {argb : Int} (h : NotBlack argb) :
    Is (chr64 L argb) (Dbl.val (chr64 L argb)) ∧ 0.00019 ≤ Dbl.val (chr64 L argb) ∧ Dbl.val (chr64 L argb) ≤ 1000 := by
  obtain ⟨-, c, -⟩ := cam_near hS hT h
  obtain ⟨i, e⟩ := c.val
  have c0 := chroma_ge h
  have c1 := chroma_le h
  have e := abs_le.1 e
  change Is (chr64 L argb) (Dbl.val (chr64 L argb)) at i
  change _ ≤ Dbl.val (chr64 L argb) - _ ∧ Dbl.val (chr64 L argb) - _ ≤ _ at e
  refine ⟨i, ?_, ?_⟩ <;> norm_num at * <;> linarith

theorem T_self (hS : L.Sound) (hT : L.TempOk) {argb : Int} (h : NotBlack argb) {hr : 𝔻} (st : Setting hr (chr64 L argb))
    (it : Is (t64 L argb) (Dbl.val (t64 L argb))) (t0 : 0.003 ≤ Dbl.val (t64 L argb)) (t1 : Dbl.val (t64 L argb) ≤ 10001) :
    |(ray64 hr (chr64 L argb)).T (log (Dbl.val (j64 L argb))) - Dbl.val (t64 L argb)| ≤ 1.5 / 10 ^ 13 * Dbl.val (t64 L argb) := by
  have hL := hS.pow
  obtain ⟨ij, j0, j1⟩ := j_any hL hS.exp h
  have jp : 0 < Dbl.val (j64 L argb) := by norm_num at j0; linarith
  rw [ray64_T hL st jp]
  generalize Dbl.val (t64 L argb) = t at *
  have tp : 0 < t := by norm_num at t0; linarith
  obtain ⟨s0, s1⟩ := sqrt_range (a := Dbl.val (j64 L argb)) (by norm_num at *; linarith) (by norm_num at *; linarith)
  have rs := ((rl_hundredth ij (by norm_num at *; linarith) (by norm_num at *; linarith)).sqrt (by norm_num) (by norm_num) (le_trans (by norm_num) s0) (s1.trans (by norm_num)) (2 / 10 ^ 15) (by norm_num))
  have sp : 0 < Real.sqrt (Dbl.val (j64 L argb) / 100) := lt_of_lt_of_le (by norm_num) s0
  generalize Real.sqrt (Dbl.val (j64 L argb) / 100) = s at *
  -- the factor of the viewing conditions
  obtain ⟨κ, iκ', κ1, κ2⟩ := in_scale hL
  have κp : 0 < κ := by norm_num at κ1; linarith
  have kk : Rl (kOf L) (1 / κ) (1.1 / 10 ^ 15) := (l1 (L := L)).rl.div iκ'.rl one_pos κp le_rfl le_rfl (by rw [le_div_iff₀ κp]; norm_num at *; linarith) (by rw [div_le_iff₀ κp]; norm_num at *; linarith) (by norm_num) _ (by norm_num)
  -- the power
  have l9 : Ap (0.9 : 𝔻) (0.9 : ℝ) (1 / 10 ^ 15) := (nr_lit (L := L) (m := 9) (s := true) (e := 1) 1 (by norm_num) (by norm_num) (by norm_num)).ap _ (by norm_num)
  have pw := it.rl.powT hL l9 (by norm_num) (by norm_num at t0 ⊢; linarith) (t1.trans (by norm_num)) (by norm_num) (by norm_num)
    (log_within 5 (by norm_num at t0 ⊢; linarith) (t1.trans (by norm_num))) (1.14 / 10 ^ 13) (by norm_num) (by norm_num)
  have wp : 0 < t ^ (0.9 : ℝ) := by positivity
  have b0 : 0.003 ≤ t ^ (0.9 : ℝ) := by
    rcases le_total t 1 with h1 | h1
    · have := rpow_le_rpow_of_exponent_ge tp h1 (show (0.9 : ℝ) ≤ 1 by norm_num)
      rw [rpow_one] at this
      exact t0.trans this
    · exact le_trans (by norm_num) (one_le_rpow h1 (by norm_num))
  have b1 : t ^ (0.9 : ℝ) ≤ 10001 := by
    rcases le_total t 1 with h1 | h1
    · exact (rpow_le_one tp.le h1 (by norm_num)).trans (by norm_num)
    · have := rpow_le_rpow_of_exponent_le h1 (show (0.9 : ℝ) ≤ 1 by norm_num)
      rw [rpow_one] at this
      exact this.trans t1
  have et : (t ^ (0.9 : ℝ)) ^ (1 / 0.9 : ℝ) = t := by rw [← rpow_mul tp.le, show (0.9 : ℝ) * (1 / 0.9) = 1 by norm_num, rpow_one]
  generalize t ^ (0.9 : ℝ) = w at *
  -- the chroma
  have hκw : 0.003 * 0.8 ≤ w * κ := mul_le_mul b0 (by norm_num at *; linarith) (by norm_num) wp.le
  have hκw' : w * κ ≤ 10001 * 1 := mul_le_mul b1 (by norm_num at *; linarith) κp.le (by norm_num)
  have al := pw.mul iκ'.rl wp κp (by norm_num) le_rfl (le_trans (by norm_num) hκw) (hκw'.trans (by norm_num)) (by norm_num) (1.16 / 10 ^ 13) (by norm_num)
  have hs : 0.003 * 0.8 * 0.004 ≤ w * κ * s := mul_le_mul hκw s0 (by norm_num) (by positivity)
  have hs' : w * κ * s ≤ 10001 * 1 * 1.25 := mul_le_mul hκw' s1 sp.le (by norm_num)
  have ch := al.mul rs (by positivity) sp (by norm_num) (by norm_num) (le_trans (by norm_num) hs) (hs'.trans (by norm_num)) (by norm_num) (1.2 / 10 ^ 13) (by norm_num)
  obtain ⟨C, iC, hC⟩ := ch
  have iC : Is (chr64 L argb) C := iC
  rw [iC.2]
  obtain ⟨k', ik', hk'⟩ := kk
  rw [ik'.2]
  have d1 : |C / s - w * κ| ≤ 1.2 / 10 ^ 13 * (w * κ) := by
    rw [show C / s - w * κ = (C - w * κ * s) / s by field_simp, abs_div, abs_of_pos sp, div_le_iff₀ sp]; linarith
  have d2 := rel_mul d1 hk' (by positivity) (by positivity) (η := 1.22 / 10 ^ 13) (by norm_num)
  rw [show w * κ * (1 / κ) = w by field_simp] at d2
  have d3 := rpow_tiny (w := 1 / 0.9) (e := 1 / 0.9) (δ := 0) (M := |log w|) (η := 1.37 / 10 ^ 13) wp d2 (by simp) (by norm_num) (by norm_num) le_rfl (by norm_num) (by norm_num)
  rw [et] at d3
  exact d3.trans (mul_le_mul_of_nonneg_right (by norm_num) tp.le)

end Mcu.Lemmas
