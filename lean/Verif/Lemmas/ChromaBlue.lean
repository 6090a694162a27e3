import Verif.Lemmas.F64HueFar
import Verif.Lemmas.SelfColor

/-! Pure blue has a chroma of at least 9 (in fact 87): a concrete colour that passes the chroma filter of the ranking. -/

namespace Mcu.Lemmas

open Mcu.Ieee Props Props.Binary64 MathUtils ColorUtils Real

variable {L : Libm}

local notation "𝔻" => F64 L

theorem cone_between {fl d t a b lo hi : ℝ} (e : fl * d / 100 = t) (t0 : 0 < t) (a0 : 0 ≤ a) (b0 : 0 ≤ b) (h1 : a ^ 50 ≤ t ^ 21) (h2 : t ^ 21 ≤ b ^ 50)
    (hl : lo * (a + 27.13) ≤ 400 * a) (hh : 400 * b ≤ hi * (b + 27.13)) (l4 : lo ≤ 400) (h4 : hi ≤ 400) : lo ≤ cone fl d ∧ cone fl d ≤ hi := by
  have p1 : a ≤ t ^ (0.42 : ℝ) := by
    rw [Opp.e42]; exact le_rpow_of_pow_le (by norm_num) a0 t0.le h1
  have p2 : t ^ (0.42 : ℝ) ≤ b := by
    rw [Opp.e42]; exact rpow_le_of_le_pow (by norm_num) b0 t0.le h2
  rw [cone_den e t0.le]
  unfold Opp.den
  generalize t ^ (0.42 : ℝ) = p at *
  norm_num at hl hh ⊢
  have hp : 0 < p + 2713 / 100 := by linarith
  constructor
  · rw [le_sub_comm, div_le_iff₀ hp]; nlinarith
  · rw [← sub_le_iff_le_add', le_div_iff₀ hp]; nlinarith

theorem cones_blue : (3.2 ≤ (conesR 0xFF0000FF).x0 ∧ (conesR 0xFF0000FF).x0 ≤ 3.3) ∧ (3.4 ≤ (conesR 0xFF0000FF).x1 ∧ (conesR 0xFF0000FF).x1 ≤ 3.52) ∧
    (8.9 ≤ (conesR 0xFF0000FF).x2 ∧ (conesR 0xFF0000FF).x2 ≤ 9.1) := by
  obtain ⟨⟨a0, a1⟩, ⟨b0, b1⟩, c0, c1⟩ := Opp.k_bounds
  have e := rawCones_argb 0xFF0000FF
  dsimp only at e
  have hr : redFromArgb 0xFF0000FF = 0 := by decide
  have hg : greenFromArgb 0xFF0000FF = 0 := by decide
  have hb : blueFromArgb 0xFF0000FF = 255 := by decide
  rw [hr, hg, hb, linearized_0, linearized_255] at e
  rw [conesR_eq]
  unfold rawR
  rw [e]
  dsimp only
  have step {k lo hi p q m t : ℝ} (h0 : lo ≤ k) (h1 : k ≤ hi) (ht : t = k * m) (lp : 0 ≤ lo * m) (m0 : 0 ≤ m)
      (h2 : p ^ 50 ≤ (lo * m) ^ 21) (h3 : (hi * m) ^ 21 ≤ q ^ 50) : p ^ 50 ≤ t ^ 21 ∧ t ^ 21 ≤ q ^ 50 := by
    rw [ht]
    have i1 : lo * m ≤ k * m := mul_le_mul_of_nonneg_right h0 m0
    have i2 : k * m ≤ hi * m := mul_le_mul_of_nonneg_right h1 m0
    exact ⟨h2.trans (pow_le_pow_left₀ lp i1 _), (pow_le_pow_left₀ (lp.trans i1) i2 _).trans h3⟩
  have x := step (p := 0.22) (q := 0.225) (m := 7.047346329738) (t := Opp.k0 * 7.047346329738) a0 a1 rfl (by norm_num) (by norm_num) (by norm_num) (by norm_num)
  have y := step (p := 0.235) (q := 0.24) (m := 8.535981854956) (t := Opp.k1 * 8.535981854956) b0 b1 rfl (by norm_num) (by norm_num) (by norm_num) (by norm_num)
  have z := step (p := 0.62) (q := 0.63) (m := 90.895832236388) (t := Opp.k2 * 90.895832236388) c0 c1 rfl (by norm_num) (by norm_num) (by norm_num) (by norm_num)
  have p0 : 0 < Opp.k0 := lt_of_lt_of_le (by norm_num) a0
  have p1 : 0 < Opp.k1 := lt_of_lt_of_le (by norm_num) b0
  have p2 : 0 < Opp.k2 := lt_of_lt_of_le (by norm_num) c0
  refine ⟨cone_between (by unfold Opp.k0; ring) (by positivity) (by norm_num) (by norm_num) x.1 x.2 (by norm_num) (by norm_num) (by norm_num) (by norm_num),
    cone_between (by unfold Opp.k1; ring) (by positivity) (by norm_num) (by norm_num) y.1 y.2 (by norm_num) (by norm_num) (by norm_num) (by norm_num),
    cone_between (by unfold Opp.k2; ring) (by positivity) (by norm_num) (by norm_num) z.1 z.2 (by norm_num) (by norm_num) (by norm_num) (by norm_num)⟩

theorem chroma_blue : 9 ≤ (Cam16.fromInt 0xFF0000FF : Cam16 ℝ).chroma := by
  obtain ⟨⟨a0, a1⟩, ⟨b0, b1⟩, c0, c1⟩ := cones_blue
  have ec : (Cam16.fromInt 0xFF0000FF : Cam16 ℝ).chroma = alphaTerm (conesR 0xFF0000FF) vcR * Real.sqrt (jR 0xFF0000FF / 100.0) := cam_chroma
  rw [ec]
  have hk := kappa_ge
  obtain ⟨q0, -⟩ := p1_bounds (Cam16.hueDegrees (opA (conesR 0xFF0000FF)) (opB (conesR 0xFF0000FF)))
  obtain ⟨n0, -⟩ := nbbR
  obtain ⟨w0, w1⟩ := awR
  obtain ⟨z0, z1⟩ := czR
  have hr : 1.2 ≤ rho (conesR 0xFF0000FF) := by
    refine le_trans ?_ (rho_b _)
    refine le_trans ?_ (neg_le_abs _)
    unfold opB
    norm_num at *; linarith
  have hu : opU (conesR 0xFF0000FF) + 0.305 ≤ 17 ∧ 0 < opU (conesR 0xFF0000FF) + 0.305 := by
    unfold opU
    norm_num at *; constructor <;> linarith
  have hp : 9.8 ≤ opP2 (conesR 0xFF0000FF) := by
    unfold opP2
    norm_num at *; linarith
  have hj : 0.4 ≤ Real.sqrt (jR 0xFF0000FF / 100.0) := by
    apply Real.le_sqrt_of_sq_le
    unfold jR
    generalize opP2 (conesR 0xFF0000FF) = P at *
    generalize vcR.nbb = nb at *
    generalize vcR.aw = aw at *
    generalize vcR.c * vcR.z = e at *
    have hb : 0.33 ≤ P * nb / aw := by
      norm_num at *
      rw [le_div_iff₀ (by linarith)]
      nlinarith
    generalize P * nb / aw = x at *
    have h1 : (0.33 : ℝ) ^ e ≤ x ^ e := rpow_le_rpow (by norm_num) hb (by norm_num at z0; linarith)
    have h2 : (0.33 : ℝ) ^ ((3 : ℕ) / (2 : ℕ) : ℝ) ≤ (0.33 : ℝ) ^ e := rpow_le_rpow_of_exponent_ge (by norm_num) (by norm_num) (by norm_num at z1 ⊢; linarith)
    have h3 : (0.18 : ℝ) ≤ (0.33 : ℝ) ^ ((3 : ℕ) / (2 : ℕ) : ℝ) := le_rpow_of_pow_le (by norm_num) (by norm_num) (by norm_num) (by norm_num)
    have h4 := h3.trans (h2.trans h1)
    generalize x ^ e = y at *
    norm_num at h4 ⊢
    linarith
  have ht : 100 ≤ tTerm (conesR 0xFF0000FF) vcR := by
    unfold tTerm
    generalize 50000 / 13 * (1 / 4 * eccentricity (Cam16.hueDegrees (opA (conesR 0xFF0000FF)) (opB (conesR 0xFF0000FF)))) * vcR.nC * vcR.ncb = P at *
    rw [le_div_iff₀ hu.2]
    have := mul_le_mul q0 hr (by norm_num) (by linarith)
    norm_num at this hu ⊢
    linarith [hu.1]
  have hα : 25 ≤ alphaTerm (conesR 0xFF0000FF) vcR := by
    unfold alphaTerm
    have h1 : (100 : ℝ) ^ (0.9 : ℝ) ≤ tTerm (conesR 0xFF0000FF) vcR ^ (0.9 : ℝ) := rpow_le_rpow (by norm_num) ht (by norm_num)
    have h2 : (100 : ℝ) ^ ((3 : ℕ) / (4 : ℕ) : ℝ) ≤ (100 : ℝ) ^ (0.9 : ℝ) := rpow_le_rpow_of_exponent_le (by norm_num) (by norm_num)
    have h3 : (31 : ℝ) ≤ (100 : ℝ) ^ ((3 : ℕ) / (4 : ℕ) : ℝ) := le_rpow_of_pow_le (by norm_num) (by norm_num) (by norm_num) (by norm_num)
    have h4 := h3.trans (h2.trans h1)
    have := mul_le_mul h4 hk (by norm_num) (by linarith)
    norm_num at this
    linarith
  have := mul_le_mul hα hj (by norm_num) (by linarith)
  exact le_trans (by norm_num) this

end Mcu.Lemmas
