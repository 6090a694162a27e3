import Verif.Lemmas.F64Stimuli
import Verif.Lemmas.NewtonStart

/-! The colours the exact search looks at in IEEE-754 binary64, as points of a `Ray` whose constants are the computed ones. -/

namespace Mcu.Lemmas

open Mcu.Ieee Props Props.Binary64 MathUtils ColorUtils HctSolver Real

variable {L : Libm}

local notation "𝔻" => F64 L

/-- hct_solver.rs 577-579 -/
noncomputable def p1Of (hr : 𝔻) : 𝔻 := 0.25 * (Fl.cos (hr + 2.0) + 3.8) * (50000.0 / 13.0) * (vc64 L).nC * (vc64 L).ncb
/-- hct_solver.rs 586-593 -/
noncomputable def tOf (C j : 𝔻) : 𝔻 := Fl.powf (C / Fl.sqrt (j / 100.0) * kOf L) (1.0 / 0.9)
/-- hct_solver.rs 594-596 -/
noncomputable def p2Of (j : 𝔻) : 𝔻 := (vc64 L).aw * Fl.powf (j / 100.0) (qOf L) / (vc64 L).nbb
noncomputable def numOf (p2 t : 𝔻) : 𝔻 := 23.0 * (p2 + 0.305) * t
noncomputable def denOf (p1 t c s : 𝔻) : 𝔻 := 23.0 * p1 + 11.0 * t * c + 108.0 * t * s
/-- hct_solver.rs 597-598 -/
noncomputable def gammaOf (hr C j : 𝔻) : 𝔻 := numOf (p2Of j) (tOf C j) / denOf (p1Of hr) (tOf C j) (Fl.cos hr) (Fl.sin hr)
/-- hct_solver.rs 601-603 -/
noncomputable def respR (p2 a b : 𝔻) : 𝔻 := (460.0 * p2 + 451.0 * a + 288.0 * b) / 1403.0
noncomputable def respG (p2 a b : 𝔻) : 𝔻 := (460.0 * p2 - 891.0 * a - 261.0 * b) / 1403.0
noncomputable def respB (p2 a b : 𝔻) : 𝔻 := (460.0 * p2 - 220.0 * a - 6300.0 * b) / 1403.0

theorem linrgb64_eq {hr C j : 𝔻} (hc : (C == (0.0 : 𝔻)) = false) (hj : (j == (0.0 : 𝔻)) = false) :
    linrgbOfJ hr C j = matrixMultiply
      ⟨inverseChromaticAdaptation (respR (p2Of j) (gammaOf hr C j * Fl.cos hr) (gammaOf hr C j * Fl.sin hr)),
       inverseChromaticAdaptation (respG (p2Of j) (gammaOf hr C j * Fl.cos hr) (gammaOf hr C j * Fl.sin hr)),
       inverseChromaticAdaptation (respB (p2Of j) (gammaOf hr C j * Fl.cos hr) (gammaOf hr C j * Fl.sin hr))⟩ linrgbFromScaledDiscount := by
  simp only [linrgbOfJ, hc, hj, Bool.or_self, Bool.false_eq_true, if_false]
  rfl

/-- The constants of the ray, as computed. -/
noncomputable def ray64 (hr C : 𝔻) : Ray where
  c := Dbl.val (Fl.cos hr : 𝔻)
  s := Dbl.val (Fl.sin hr : 𝔻)
  q := Dbl.val (qOf L)
  P0 := Dbl.val (vc64 L).aw / Dbl.val (vc64 L).nbb * (1 / 100) ^ Dbl.val (qOf L)
  T0 := (10 * Dbl.val C * Dbl.val (kOf L)) ^ (1 / 0.9 : ℝ)
  p1 := Dbl.val (p1Of hr)

/-- What is known of hue and chroma. -/
structure Setting (hr C : 𝔻) : Prop where
  cos : Is (Fl.cos hr : 𝔻) (ray64 hr C).c
  sin : Is (Fl.sin hr : 𝔻) (ray64 hr C).s
  c_le : |(ray64 hr C).c| ≤ 1.001
  s_le : |(ray64 hr C).s| ≤ 1.001
  unit : 0.99 ≤ |(ray64 hr C).c| + |(ray64 hr C).s|
  len : (ray64 hr C).c ^ 2 + (ray64 hr C).s ^ 2 ≤ 1.001
  p1 : Is (p1Of hr) (ray64 hr C).p1
  p1_lo : 2000 ≤ (ray64 hr C).p1
  p1_hi : (ray64 hr C).p1 ≤ 5000
  fin : Dbl.Fin C
  c0 : 1 / 10 ^ 5 ≤ Dbl.val C
  c1 : Dbl.val C ≤ 10 ^ 50

/-- The ratio between achromatic response and power of the lightness. -/
noncomputable def wRatio (L : Libm) : ℝ := Dbl.val (vc64 L).aw / Dbl.val (vc64 L).nbb

theorem wRatio_bounds (hL : L.PowOk) (hE : L.ExpOk) : 29.4 ≤ wRatio L ∧ wRatio L ≤ 29.6 := by
  obtain ⟨a, ia, -⟩ := in_aw hL hE
  obtain ⟨b, ib, -⟩ := in_nbb hL
  have := white_ratio64 hL hE ia ib
  unfold wRatio
  rw [ia.2, ib.2]
  exact this.2.2.2.2

theorem Setting.ok (hL : L.PowOk) (hE : L.ExpOk) {hr C : 𝔻} (h : Setting hr C) : (ray64 hr C).Ok := by
  obtain ⟨q, iq, q1, q2⟩ := in_q (L := L)
  obtain ⟨k, ik, k1, k2⟩ := in_k hL
  refine ⟨?_, ?_, ?_, by linarith [h.p1_lo]⟩
  · have := (wRatio_bounds hL hE).1
    have hw : 0 < wRatio L := by norm_num at this; linarith
    show 0 < wRatio L * _
    positivity
  · show 0.7591 ≤ Dbl.val (qOf L) ∧ Dbl.val (qOf L) ≤ 0.7592
    rw [iq.2]; exact ⟨q1, q2⟩
  · show 0 < (10 * Dbl.val C * Dbl.val (kOf L)) ^ (1 / 0.9 : ℝ)
    rw [ik.2]
    have : 0 < Dbl.val C := lt_of_lt_of_le (by norm_num) h.c0
    positivity

/-- The achromatic response at lightness `a`. -/
theorem ray64_P (hr C : 𝔻) {a : ℝ} (ha : 0 < a) : (ray64 hr C).P (log a) = wRatio L * (a / 100) ^ (ray64 hr C).q := by
  have := exp_div_rpow (log a) (ray64 hr C).q
  rw [exp_log ha] at this
  rw [this]
  unfold Ray.P wRatio
  simp only [ray64]
  ring

theorem ray64_T (hL : L.PowOk) {hr C : 𝔻} (h : Setting hr C) {a : ℝ} (ha : 0 < a) :
    (ray64 hr C).T (log a) = (Dbl.val C / Real.sqrt (a / 100) * Dbl.val (kOf L)) ^ (1 / 0.9 : ℝ) := by
  obtain ⟨k, ik, k1, k2⟩ := in_k hL
  have := T_eq (C := Dbl.val C) (k := Dbl.val (kOf L)) (v := log a) (lt_of_lt_of_le (by norm_num) h.c0) (by rw [ik.2]; linarith)
  rw [exp_log ha] at this
  rw [this]; rfl

theorem sqrt_range {a : ℝ} (h0 : 0.002 ≤ a) (h1 : a ≤ 150) : 0.004 ≤ Real.sqrt (a / 100) ∧ Real.sqrt (a / 100) ≤ 1.25 := by
  constructor
  · exact Real.le_sqrt_of_sq_le (by norm_num at *; linarith)
  · rw [Real.sqrt_le_left (by norm_num)]; norm_num at *; linarith

theorem T_arg (hL : L.PowOk) {hr C : 𝔻} (h : Setting hr C) {a : ℝ} (h0 : 0.002 ≤ a) (h1 : a ≤ 150) :
    1 / 10 ^ 5 * (1 / 2) ≤ Dbl.val C / Real.sqrt (a / 100) * Dbl.val (kOf L) ∧
      Dbl.val C / Real.sqrt (a / 100) * Dbl.val (kOf L) ≤ 10 ^ 53 := by
  obtain ⟨k, ik, k1, k2⟩ := in_k hL
  rw [ik.2]
  obtain ⟨s0, s1⟩ := sqrt_range h0 h1
  have c0 := h.c0
  have c1 := h.c1
  generalize Dbl.val C = x at *
  have hs : 0 < Real.sqrt (a / 100) := lt_of_lt_of_le (by norm_num) s0
  have x0 : 0 < x := lt_of_lt_of_le (by norm_num) c0
  constructor
  · have h2 : 1 / 10 ^ 5 / 1.25 ≤ x / Real.sqrt (a / 100) := div_le_div₀ x0.le c0 hs s1
    have h3 : x / Real.sqrt (a / 100) * 1 ≤ x / Real.sqrt (a / 100) * k := mul_le_mul_of_nonneg_left k1 (by positivity)
    norm_num at *; linarith
  · have h2 : x / Real.sqrt (a / 100) ≤ 10 ^ 50 / 0.004 := div_le_div₀ (by norm_num) c1 (by norm_num) s0
    have h3 : x / Real.sqrt (a / 100) * k ≤ 10 ^ 50 / 0.004 * 1.2 := mul_le_mul h2 k2 (by linarith) (by norm_num)
    refine h3.trans ?_
    norm_num

theorem T_range (hL : L.PowOk) {hr C : 𝔻} (h : Setting hr C) {a : ℝ} (h0 : 0.002 ≤ a) (h1 : a ≤ 150) :
    1 / 10 ^ 6 ≤ (ray64 hr C).T (log a) ∧ (ray64 hr C).T (log a) ≤ 10 ^ 60 := by
  have ha : 0 < a := by norm_num at h0; linarith
  rw [ray64_T hL h ha]
  obtain ⟨l, u⟩ := T_arg hL h h0 h1
  have e : (1 / 0.9 : ℝ) = ((10 : ℕ) : ℝ) / ((9 : ℕ) : ℝ) := by norm_num
  rw [e]
  have z : 0 < Dbl.val C / Real.sqrt (a / 100) * Dbl.val (kOf L) := lt_of_lt_of_le (by norm_num) l
  constructor
  · apply le_rpow_of_pow_le (by norm_num) (by norm_num) z.le
    refine le_trans ?_ (pow_le_pow_left₀ (by norm_num) l 10)
    norm_num
  · apply rpow_le_of_le_pow (by norm_num) (by norm_num) z.le
    refine (pow_le_pow_left₀ z.le u 10).trans ?_
    rw [← pow_mul, ← pow_mul]
    exact pow_le_pow_right₀ (by norm_num) (by norm_num)

theorem P_range (hL : L.PowOk) (hE : L.ExpOk) {hr C : 𝔻} (h : Setting hr C) {a : ℝ} (h0 : 0.002 ≤ a) (h1 : a ≤ 148.4) :
    0.0078 ≤ (ray64 hr C).P (log a) ∧ (ray64 hr C).P (log a) ≤ 40 := by
  have ha : 0 < a := by norm_num at h0; linarith
  rw [ray64_P hr C ha]
  have hq := (h.ok hL hE).q
  have hw := wRatio_bounds hL hE
  generalize (ray64 hr C).q = q at *
  have q0 : 0 ≤ q := by norm_num at hq; linarith [hq.1]
  constructor
  · have e1 : (0.00002 : ℝ) ^ q ≤ (a / 100) ^ q := rpow_le_rpow (by norm_num) (by norm_num at h0 ⊢; linarith) q0
    have e2 : 0.000266 ≤ (0.00002 : ℝ) ^ q := by
      refine rpow_lower' (a := 19) (b := 25) (by norm_num) (by norm_num) (by norm_num) (by norm_num) ?_ (by norm_num)
      have := hq.2
      norm_num at this ⊢; linarith
    calc (0.0078 : ℝ) ≤ 29.4 * 0.000266 := by norm_num
      _ ≤ _ := mul_le_mul hw.1 (e2.trans e1) (by norm_num) (by norm_num at hw; linarith [hw.1])
  · have e1 : (a / 100) ^ q ≤ (1.484 : ℝ) ^ q := rpow_le_rpow (by positivity) (by norm_num at h1 ⊢; linarith) q0
    have e2 : (1.484 : ℝ) ^ q ≤ 1.3505 := by
      refine rpow_upper (a := 19) (b := 25) (by norm_num) (by norm_num) (by norm_num) ?_ (by norm_num)
      have := hq.2
      norm_num at this ⊢; linarith
    calc _ ≤ 29.6 * (1.3505 : ℝ) := mul_le_mul hw.2 (e1.trans e2) (by positivity) (by norm_num)
      _ ≤ _ := by norm_num

theorem rl_hundredth {j : 𝔻} {a : ℝ} (hj : Is j a) (h0 : 0.002 ≤ a) (h1 : a ≤ 150) : Rl (j / 100.0) (a / 100) (1 / 10 ^ 15) := by
  norm_num at h0
  refine hj.rl.div l100.rl (by linarith) (by norm_num) le_rfl le_rfl ?_ ?_ (by norm_num) _ (by norm_num)
  · norm_num; linarith
  · norm_num; linarith

theorem ap_ninth : Ap (1.0 / 0.9 : 𝔻) (1 / 0.9) (2 / 10 ^ 14) := by
  have h : Rl (1.0 / 0.9 : 𝔻) (1 / 0.9) (5 / 10 ^ 15) :=
    (rl_lit (L := L) (m := 10) (s := true) (e := 1) 1 (by norm_num) (by norm_num) (by norm_num)).div
      (rl_lit (L := L) (m := 9) (s := true) (e := 1) 0.9 (by norm_num) (by norm_num) (by norm_num))
      (by norm_num) (by norm_num) (by norm_num) (by norm_num) (by norm_num) (by norm_num) (by norm_num) _ (by norm_num)
  obtain ⟨v, iv, hv⟩ := h
  exact ⟨v, iv, hv.trans (by norm_num)⟩

theorem rl_t (hL : L.PowOk) {hr C j : 𝔻} (h : Setting hr C) {a : ℝ} (hj : Is j a) (h0 : 0.002 ≤ a) (h1 : a ≤ 150) :
    Rl (tOf C j) ((ray64 hr C).T (log a)) (1 / 10 ^ 11) := by
  have ha : 0 < a := by norm_num at h0; linarith
  rw [ray64_T hL h ha]
  obtain ⟨s0, s1⟩ := sqrt_range h0 h1
  obtain ⟨k, ik, k1, k2⟩ := in_k hL
  obtain ⟨l, u⟩ := T_arg hL h h0 h1
  rw [ik.2] at *
  have hs : 0 < Real.sqrt (a / 100) := lt_of_lt_of_le (by norm_num) s0
  have ic : Is C (Dbl.val C) := ⟨h.fin, rfl⟩
  have c0 := h.c0
  have c1 := h.c1
  generalize Dbl.val C = x at *
  have x0 : 0 < x := lt_of_lt_of_le (by norm_num) c0
  have r1 := (rl_hundredth hj h0 h1).sqrt (by norm_num) (by norm_num) (le_trans (by norm_num) s0) (s1.trans (by norm_num)) (2 / 10 ^ 15) (by norm_num)
  have b1 : 1 / 10 ^ 5 / 1.25 ≤ x / Real.sqrt (a / 100) := div_le_div₀ x0.le c0 hs s1
  have b2 : x / Real.sqrt (a / 100) ≤ 10 ^ 50 / 0.004 := div_le_div₀ (by norm_num) c1 (by norm_num) s0
  have r2 := ic.rl.div r1 x0 hs le_rfl (by norm_num) (le_trans (by norm_num) b1) (b2.trans (by norm_num)) (by norm_num) (4 / 10 ^ 15) (by norm_num)
  have r3 := r2.mul ik.rl (by positivity) (by linarith) (by norm_num) le_rfl (le_trans (by norm_num) l) (u.trans (by norm_num)) (by norm_num) (6 / 10 ^ 15) (by norm_num)
  exact r3.pow hL ap_ninth (by norm_num) (by norm_num) (le_trans (by norm_num) l) (u.trans (by norm_num)) (by norm_num) (by norm_num)
    (log_within 60 (le_trans (by norm_num) l) (u.trans (by norm_num))) _ (by norm_num) (by norm_num) (by norm_num)

theorem rl_p2 (hL : L.PowOk) (hE : L.ExpOk) {hr C j : 𝔻} (h : Setting hr C) {a : ℝ} (hj : Is j a) (h0 : 0.002 ≤ a) (h1 : a ≤ 148.4) :
    Rl (p2Of j) ((ray64 hr C).P (log a)) (1 / 10 ^ 11) := by
  have ha : 0 < a := by norm_num at h0; linarith
  have h1' : a ≤ 150 := by norm_num at h1; linarith
  obtain ⟨p0, p1⟩ := P_range hL hE h h0 h1
  obtain ⟨A, iA, A1, A2⟩ := in_aw hL hE
  obtain ⟨B, iB, B1, B2⟩ := in_nbb hL
  have hq := (h.ok hL hE).q
  have iq : Is (qOf L) (ray64 hr C).q := ⟨(in_q (L := L)).choose_spec.1.1, rfl⟩
  rw [ray64_P hr C ha] at *
  unfold wRatio at *
  rw [iA.2, iB.2] at *
  generalize (ray64 hr C).q = q at *
  have ap : Ap (qOf L) q 0 := ⟨q, iq, by simp⟩
  have r1 := (rl_hundredth hj h0 h1').pow hL ap (by norm_num) (by norm_num) (by norm_num at h0 ⊢; linarith) (by norm_num; linarith)
    (by norm_num at hq; linarith [hq.1]) (by norm_num at hq ⊢; linarith [hq.2])
    (log_within 6 (by norm_num at h0 ⊢; linarith) (by norm_num; linarith)) (1 / 10 ^ 12) le_rfl (by norm_num) (by norm_num)
  have A0 : 0 < A := by norm_num at A1; linarith
  have B0 : 0 < B := by norm_num at B1; linarith
  have z : 0 < (a / 100) ^ q := by positivity
  have eq : A / B * (a / 100) ^ q = A * (a / 100) ^ q / B := by ring
  rw [eq] at p0 p1 ⊢
  have e2 : A * (a / 100) ^ q = A * (a / 100) ^ q / B * B := by field_simp
  have l2 : 0.0078 * 1 ≤ A * (a / 100) ^ q := by rw [e2]; exact mul_le_mul p0 (by norm_num at B1; linarith) (by norm_num) (by positivity)
  have u2 : A * (a / 100) ^ q ≤ 40 * 2 := by rw [e2]; exact mul_le_mul p1 (by norm_num at B2; linarith) B0.le (by norm_num)
  have r2 := iA.rl.mul r1 A0 z le_rfl (by norm_num) (le_trans (by norm_num) l2) (u2.trans (by norm_num)) (by norm_num) (2 / 10 ^ 12) (by norm_num)
  exact r2.div iB.rl (by positivity) B0 (by norm_num) le_rfl (le_trans (by norm_num) p0) (p1.trans (by norm_num)) (by norm_num) _ (by norm_num)

end Mcu.Lemmas
