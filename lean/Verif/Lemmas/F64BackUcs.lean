import Verif.Lemmas.F64BackBlack

/-! From the uniform colour space back to a colour, in IEEE-754 binary64. -/

namespace Mcu.Lemmas

open Mcu.Ieee Props Props.Binary64 MathUtils ColorUtils HctSolver Real

variable {L : Libm}

local notation "𝔻" => F64 L

theorem in_root_sharp (hL : L.PowOk) : In (vc64 L).fLroot 0.78 0.8 := by
  have e : (vc64 L).fLroot = Fl.powf (vc64 L).fl 0.25 := rfl
  rw [e]
  exact (in_fl hL).pow hL (n := 1) (m := 4) (by norm_num) (ap_dec (m := 25) (s := true) (e := 2) 0.25 _ (by norm_num) (by norm_num [abs_le]) (by norm_num)) le_rfl (by norm_num) (by norm_num) (by norm_num) (by norm_num)
    0.78 0.8 (by norm_num) (by norm_num) (by norm_num) (by norm_num)

theorem rl_228 : Rl (0.0228 : 𝔻) 0.0228 (1 / 10 ^ 15) := rl_lit (m := 228) (s := true) (e := 4) 0.0228 (by norm_num) (by norm_num) (by norm_num)

/-- The compression of the colourfulness. -/
theorem log_part (hC : L.CamOk) {m : 𝔻} {M : ℝ} (im : Is m M) (M0 : 1.48 / 10 ^ 4 ≤ M) (M1 : M ≤ 810) :
    ∃ X, 1 + 3.37 / 10 ^ 6 ≤ X ∧ X ≤ 20 ∧ |(X - 1) - 0.0228 * M| ≤ 1 / 10 ^ 10 * (0.0228 * M) ∧ Rl (Fl.ln (1.0 + 0.0228 * m) / 0.0228) (log X / 0.0228) (1.2 / 10 ^ 13) ∧
      3.36 / 10 ^ 6 ≤ log X ∧ log X ≤ 3 ∧ log X ≤ X - 1 := by
  have Mp : 0 < M := lt_of_lt_of_le (by norm_num) M0
  have i1 : Is (1.0 : 𝔻) 1 := by simpa using lit (L := L) 10 1 true 1 (by norm_num) (by norm_num)
  obtain ⟨y, iy, hy⟩ := rl_228.mul im.rl (by norm_num) Mp (by norm_num) le_rfl (by norm_num at M0 ⊢; linarith) (by norm_num at M1 ⊢; linarith) (by norm_num) (2.1 / 10 ^ 15) (by norm_num)
  have hy' := abs_le.1 hy
  have y0 : 3.374 / 10 ^ 6 ≤ y := by norm_num at *; linarith
  have y1 : y ≤ 18.5 := by norm_num at *; linarith
  have yp : 0 < y := lt_of_lt_of_le (by norm_num) y0
  have ix := i1.add iy (rnd_huge (by rw [abs_of_nonneg (by linarith)]; exact le_trans (show 1 + y ≤ 20 by norm_num at y1; linarith) (by norm_num)))
  have xr := rnd_any (1 + y)
  rw [abs_of_nonneg (show 0 ≤ 1 + y by linarith)] at xr
  generalize rnd (1 + y) = X at *
  have xr' := abs_le.1 xr
  have X0 : 1 + 3.37 / 10 ^ 6 ≤ X := by norm_num at *; linarith
  have X1 : X ≤ 20 := by norm_num at *; linarith
  have Xp : 1 < X := lt_of_lt_of_le (by norm_num) X0
  obtain ⟨fl, hl⟩ := hC.ln _ ix.1 (by rw [ix.2]; exact Xp.le) (by rw [ix.2]; exact X1.trans (by norm_num))
  rw [ix.2] at hl
  have z1 : log X ≤ X - 1 := Real.log_le_sub_one_of_pos (by linarith)
  have z0 : 3.36 / 10 ^ 6 ≤ log X := by
    have := Real.one_sub_inv_le_log_of_pos (show 0 < X by linarith)
    refine le_trans ?_ this
    have : X⁻¹ ≤ (1 + 3.37 / 10 ^ 6)⁻¹ := inv_anti₀ (by norm_num) X0
    refine le_trans ?_ (sub_le_sub_left this 1)
    norm_num
  have z2 : log X ≤ 3 := by
    rw [Real.log_le_iff_le_exp (by linarith)]
    refine X1.trans ?_
    have := Real.exp_one_gt_d9
    have e : exp 3 = exp 1 ^ 3 := by rw [← Real.exp_nat_mul]; norm_num
    rw [e]
    refine le_trans ?_ (pow_le_pow_left₀ (by norm_num) this.le 3)
    norm_num
  refine ⟨X, X0, X1, ?_, ?_, z0, z2, z1⟩
  · rw [abs_le]
    norm_num at *
    constructor <;> linarith
  · have rl : Rl (Fl.ln (1.0 + 0.0228 * m) : 𝔻) (log X) (1 / 10 ^ 13) := ⟨_, ⟨fl, rfl⟩, hl⟩
    exact rl.div rl_228 (lt_of_lt_of_le (by norm_num) z0) (by norm_num) (by norm_num) (by norm_num) (by norm_num at z0 ⊢; linarith) (by norm_num at z2 ⊢; linarith) (by norm_num) _ (by norm_num)

/-- Undoing the compression. -/
theorem exp_part (hU : L.ExpUp) {m : 𝔻} {X : ℝ} (hm : Rl m (log X / 0.0228) (1.5 / 10 ^ 9)) (X0 : 1 + 3.37 / 10 ^ 6 ≤ X) (X1 : X ≤ 20) (z0 : 3.36 / 10 ^ 6 ≤ log X) (z2 : log X ≤ 3)
    (z1 : log X ≤ X - 1) : Rl ((Fl.exp (m * 0.0228) - 1.0) / 0.0228) ((X - 1) / 0.0228) (1.2 / 10 ^ 8) := by
  have i1 : Is (1.0 : 𝔻) 1 := by simpa using lit (L := L) 10 1 true 1 (by norm_num) (by norm_num)
  have zp : 0 < log X := lt_of_lt_of_le (by norm_num) z0
  have Xp : 1 < X := lt_of_lt_of_le (by norm_num) X0
  have q : log X / 0.0228 * 0.0228 = log X := by norm_num
  obtain ⟨ζ, iζ, hζ⟩ := hm.mul rl_228 (by positivity) (by norm_num) (by norm_num) (by norm_num) (by rw [q]; exact le_trans (by norm_num) z0) (by rw [q]; exact z2.trans (by norm_num)) (by norm_num) (1.51 / 10 ^ 9) (by norm_num)
  rw [q] at hζ
  have hζ' := abs_le.1 hζ
  have ζ0 : 0 ≤ ζ := by norm_num at *; linarith
  have ζ1 : ζ ≤ 10 := by norm_num at *; linarith
  obtain ⟨fe, he⟩ := hU _ iζ.1 (by rw [iζ.2]; exact ζ0) (by rw [iζ.2]; exact ζ1)
  rw [iζ.2] at he
  have ie : Is (Fl.exp (m * 0.0228) : 𝔻) (L.exp (m * 0.0228 : 𝔻)).val := ⟨fe, rfl⟩
  generalize (L.exp (m * 0.0228 : 𝔻)).val = e at *
  have ee : exp ζ = X * exp (ζ - log X) := by
    rw [Real.exp_sub, Real.exp_log (by linarith)]; field_simp
  have es := exp_small (δ := 1.51 / 10 ^ 9 * log X) hζ (by norm_num at *; linarith)
  rw [ee] at he
  generalize exp (ζ - log X) = w at *
  generalize log X = z at *
  have es' := abs_le.1 es
  have w1 : w ≤ 1.001 := by norm_num at *; linarith
  have k1 : |X * w - X| ≤ 1.82 / 10 ^ 9 * (4 * (X - 1)) := by
    rw [show X * w - X = X * (w - 1) by ring, abs_mul, abs_of_pos (by linarith)]
    have h1 := mul_le_mul_of_nonneg_left es (show 0 ≤ X by linarith)
    have h2 : X * z ≤ 4 * (X - 1) := by nlinarith
    refine h1.trans ?_
    rw [show X * (1.2 * (1.51 / 10 ^ 9 * z)) = 1.2 * (1.51 / 10 ^ 9) * (X * z) by ring]
    norm_num at *; linarith
  have k2 : |e - X * w| ≤ 3.1 / 10 ^ 9 * (X - 1) := by
    refine he.trans ?_
    have : X * w ≤ X * 1.001 := mul_le_mul_of_nonneg_left w1 (by linarith)
    norm_num at *; linarith
  have k3 : |(e - 1) - (X - 1)| ≤ 1.04 / 10 ^ 8 * (X - 1) := by
    have := abs_add_le (e - X * w) (X * w - X)
    rw [show (e - 1) - (X - 1) = (e - X * w) + (X * w - X) by ring]
    refine this.trans ((add_le_add k2 k1).trans ?_)
    norm_num at *; linarith
  have r := rl_rnd (fun h => ie.sub i1 h) k3 (by norm_num at X0 ⊢; linarith) (by norm_num at X1 ⊢; linarith) (by norm_num) (by norm_num) (η := 1.05 / 10 ^ 8) (by norm_num)
  exact r.div rl_228 (by linarith) (by norm_num) (by norm_num) (by norm_num) (by norm_num at X0 ⊢; linarith) (by norm_num at X1 ⊢; linarith) (by norm_num) _ (by norm_num)

/-- The length of a vector. -/
theorem length_part {a b : 𝔻} {v w : ℝ} (iv : Is a v) (iw : Is b w) (lo : 1 / 10 ^ 5 ≤ Real.sqrt (v * v + w * w)) (hi : Real.sqrt (v * v + w * w) ≤ 1000) :
    Rl (Fl.sqrt (a * a + b * b)) (Real.sqrt (v * v + w * w)) (3 / 10 ^ 15) := by
  have N0 : 0 ≤ v * v + w * w := add_nonneg (mul_self_nonneg v) (mul_self_nonneg w)
  have a0 := mul_self_nonneg v
  have b0 := mul_self_nonneg w
  have N1 : 1 / 10 ^ 14 ≤ v * v + w * w := by
    rw [← Real.sq_sqrt N0]
    have := pow_le_pow_left₀ (by norm_num) lo 2
    refine le_trans (by norm_num) this
  have N2 : v * v + w * w ≤ 10 ^ 6 := by
    rw [← Real.sq_sqrt N0]
    have := pow_le_pow_left₀ (Real.sqrt_nonneg _) hi 2
    refine le_trans this (by norm_num)
  have A : Ap (a * a) (v * v) (v * v * (2 / 10 ^ 16) + 1 / 10 ^ 72) :=
    ap_rndS (B := v * v) (a := 0) (fun h => iv.mul iv h) (by simp) (abs_of_nonneg a0).le (le_trans (by linarith) (show (10 : ℝ) ^ 6 ≤ 10 ^ 40 by norm_num)) (by linarith)
  have B : Ap (b * b) (w * w) (w * w * (2 / 10 ^ 16) + 1 / 10 ^ 72) :=
    ap_rndS (B := w * w) (a := 0) (fun h => iw.mul iw h) (by simp) (abs_of_nonneg b0).le (le_trans (by linarith) (show (10 : ℝ) ^ 6 ≤ 10 ^ 40 by norm_num)) (by linarith)
  have C := A.addS B (2 * (v * v + w * w)) (1 / 10 ^ 15 * (v * v + w * w)) (by
      rw [abs_of_nonneg N0]
      generalize v * v = p at *
      generalize w * w = q at *
      norm_num at *; linarith)
    (le_trans (by linarith) (show 2 * (10 : ℝ) ^ 6 ≤ 10 ^ 40 by norm_num)) (by
      generalize v * v = p at *
      generalize w * w = q at *
      norm_num at *; linarith)
  exact ((C.nr (1 / 10 ^ 15) 14 N1 (N2.trans (by norm_num)) le_rfl).sqrt (3 / 10 ^ 15) (by norm_num) (by norm_num) (by norm_num)).rl

theorem arg_polar {μ r : ℝ} (hμ : 0 < μ) : ∃ k : ℤ, Complex.arg ⟨μ * cos r, μ * sin r⟩ = r + k * (2 * π) := by
  have h := Complex.arg_mul_cos_add_sin_mul_I_coe_angle hμ (r : Real.Angle)
  rw [Real.Angle.angle_eq_iff_two_pi_dvd_sub] at h
  obtain ⟨k, hk⟩ := h
  refine ⟨k, ?_⟩
  have e : (⟨μ * cos r, μ * sin r⟩ : ℂ) = μ * ((Real.Angle.cos (r : Real.Angle) : ℝ) + (Real.Angle.sin (r : Real.Angle) : ℝ) * Complex.I) := by
    rw [Real.Angle.cos_coe, Real.Angle.sin_coe]
    apply Complex.ext <;> simp [-Complex.ofReal_cos, -Complex.ofReal_sin]
  rw [e]
  linarith

/-- A vector close to one in polar coordinates. -/
theorem polar_part {a b : 𝔻} {v w μ r : ℝ} (iv : Is a v) (iw : Is b w) (μ0 : 1.4 / 10 ^ 4 ≤ μ) (μ1 : μ ≤ 200) (hv : |v - μ * cos r| ≤ 7 / 10 ^ 10 * μ) (hw : |w - μ * sin r| ≤ 7 / 10 ^ 10 * μ) :
    Rl (Fl.sqrt (a * a + b * b)) μ (1.5 / 10 ^ 9) ∧ ¬ (v = 0 ∧ w = 0) ∧ ∃ k : ℤ, |Complex.arg ⟨v, w⟩ - (r + k * (2 * π))| ≤ 2.3 / 10 ^ 9 := by
  have μp : 0 < μ := lt_of_lt_of_le (by norm_num) μ0
  have hn : ‖(⟨v, w⟩ : ℂ) - ⟨μ * cos r, μ * sin r⟩‖ ≤ 1.4 / 10 ^ 9 * μ := by
    refine (Complex.norm_le_abs_re_add_abs_im _).trans ?_
    simp only [Complex.sub_re, Complex.sub_im]
    refine (add_le_add hv hw).trans ?_
    norm_num; linarith
  have hm : ‖(⟨μ * cos r, μ * sin r⟩ : ℂ)‖ = μ := by
    rw [Complex.norm_eq_sqrt_sq_add_sq]
    simp only
    rw [show (μ * cos r) ^ 2 + (μ * sin r) ^ 2 = μ ^ 2 * (cos r ^ 2 + sin r ^ 2) by ring, Real.cos_sq_add_sin_sq, mul_one, Real.sqrt_sq μp.le]
  have en : ‖(⟨v, w⟩ : ℂ)‖ = Real.sqrt (v * v + w * w) := by
    rw [Complex.norm_eq_sqrt_sq_add_sq]; congr 1; ring
  have d := (abs_norm_sub_norm_le (⟨v, w⟩ : ℂ) ⟨μ * cos r, μ * sin r⟩).trans hn
  rw [en, hm] at d
  have d' := abs_le.1 d
  have l := length_part iv iw (by norm_num at *; linarith) (by norm_num at *; linarith)
  refine ⟨?_, ?_, ?_⟩
  · obtain ⟨x, ix, hx⟩ := l
    exact ⟨x, ix, rel_trans hx d μp (by norm_num) (by norm_num)⟩
  · rintro ⟨rfl, rfl⟩
    simp at d'
    norm_num at *; linarith
  · obtain ⟨k, hk⟩ := arg_near (z := ⟨v, w⟩) (w := ⟨μ * cos r, μ * sin r⟩) (ε := 1.4 / 10 ^ 9) (by rw [← norm_pos_iff, hm]; exact μp) (by rw [hm]; exact hn) (by norm_num)
    obtain ⟨j, hj⟩ := arg_polar (r := r) μp
    refine ⟨k + j, ?_⟩
    rw [hj] at hk
    push_cast
    rw [show r + (k + j : ℝ) * (2 * π) = r + j * (2 * π) + k * (2 * π) by ring]
    exact hk.trans (by norm_num)

/-- The hue, as the conversion from the uniform colour space computes it. -/
noncomputable def hueUcs (a b : 𝔻) : 𝔻 := if Fl.atan2 b a * (180.0 / Fl.pi) < (0.0 : 𝔻) then Fl.atan2 b a * (180.0 / Fl.pi) + 360.0 else Fl.atan2 b a * (180.0 / Fl.pi)

theorem ap_degrees' {x : 𝔻} {θ : ℝ} (hx : Is x θ) (hθ : |θ| ≤ 3.1416) : Ap (x * (180.0 / Fl.pi) : 𝔻) (θ * (180 / π)) (1 / 10 ^ 12) := by
  have l180 : Nr (180.0 : 𝔻) (180.0 : ℝ) (1 / 10 ^ 15) 3 := nr_lit 3 (by norm_num) (by norm_num) (by norm_num)
  have q := l180.div nr_pi (4 / 10 ^ 15) (by norm_num) (by norm_num) (by norm_num)
  have hp := pi_gt_d6
  have q1 : (180.0 / π : ℝ) ≤ 57.3 := by rw [div_le_iff₀ pi_pos]; norm_num at *; linarith
  have q0 : 0 < (180.0 / π : ℝ) := q.pos
  have a := q.ap (2.5 / 10 ^ 13) (by refine (mul_le_mul_of_nonneg_left q1 (by norm_num)).trans (by norm_num))
  have m := (show Ap x θ 0 from ⟨θ, hx, by simp⟩).mulS a 3.1416 57.3 181 (1 / 10 ^ 12) hθ (by rw [abs_of_pos q0]; exact q1) (by norm_num) (by norm_num) (by norm_num)
  rwa [show (180.0 / π : ℝ) = 180 / π by norm_num] at m

theorem hue_part (hA : L.AtanRange) {a b : 𝔻} {v w : ℝ} (iv : Is a v) (iw : Is b w) :
    ∃ H, Is (hueUcs a b) H ∧ 0 ≤ H ∧ H ≤ 361 ∧ ∃ k : ℤ, |H * (π / 180) - ((L.atan2 b a).val + k * (2 * π))| ≤ 1 / 10 ^ 13 := by
  obtain ⟨f, hθ⟩ := hA _ _ iw.1 iv.1
  have iθ : Is (Fl.atan2 b a : 𝔻) (L.atan2 b a).val := ⟨f, rfl⟩
  generalize (L.atan2 b a).val = θ at *
  obtain ⟨u, iu, hu⟩ := ap_degrees' iθ hθ
  have hp := pi_pos
  have hp6 := pi_gt_d6
  have hu6 := pi_lt_d6
  have h360 : Is (360.0 : 𝔻) 360 := by simpa using lit (L := L) 3600 1 true 360 (by norm_num) (by norm_num)
  have tot : |u * (π / 180) - θ| ≤ 2 / 10 ^ 14 := by
    have e : u * (π / 180) - θ = (u - θ * (180 / π)) * (π / 180) := by field_simp
    rw [e, abs_mul, abs_of_pos (show 0 < π / 180 by positivity)]
    refine (mul_le_mul hu (show π / 180 ≤ 0.0175 by norm_num at *; linarith) (by positivity) (by norm_num)).trans (by norm_num)
  have ub : |u| ≤ 181 := by
    have h1 := abs_add_le (u - θ * (180 / π)) (θ * (180 / π))
    rw [sub_add_cancel] at h1
    have h2 : |θ * (180 / π)| ≤ 180.1 := by
      rw [show θ * (180 / π) = θ * 180 / π by ring, abs_div, abs_mul, abs_of_pos hp, abs_of_pos (show (0:ℝ) < 180 by norm_num), div_le_iff₀ hp]
      norm_num at *; linarith
    generalize |θ * (180 / π)| = A at *
    norm_num at *; linarith
  have ub' := abs_le.1 ub
  unfold hueUcs
  by_cases hneg : u < 0
  · rw [if_pos (by rw [iu.lt_iff l0']; exact hneg)]
    have r1 := rnd_huge (v := u + 360) (show |u + 360| ≤ 10 ^ 120 from (show |u + 360| ≤ 1000 by rw [abs_le]; constructor <;> linarith).trans (by norm_num))
    have r2 := rnd_any (u + 360)
    rw [abs_of_nonneg (show 0 ≤ u + 360 by linarith)] at r2
    have r3 : |rnd (u + 360) - (u + 360)| ≤ 1 / 10 ^ 12 := r2.trans (by norm_num; linarith)
    have r4 := abs_le.1 r3
    refine ⟨_, iu.add h360 r1, rnd_nonneg (by linarith), by norm_num at r4; linarith, 1, ?_⟩
    have e : rnd (u + 360) * (π / 180) - (θ + ((1 : ℤ) : ℝ) * (2 * π)) = (rnd (u + 360) - (u + 360)) * (π / 180) + (u * (π / 180) - θ) := by push_cast; ring
    rw [e]
    refine (abs_add_le _ _).trans ?_
    rw [abs_mul, abs_of_pos (show 0 < π / 180 by positivity)]
    have h1 := mul_le_mul r3 (show π / 180 ≤ 0.0175 by norm_num at *; linarith) (by positivity) (by norm_num)
    refine (add_le_add h1 tot).trans (by norm_num)
  · rw [if_neg (by rw [iu.lt_iff l0']; exact hneg)]
    push Not at hneg
    refine ⟨u, iu, hneg, by linarith, 0, ?_⟩
    simp only [Int.cast_zero, zero_mul, add_zero]
    exact tot.trans (by norm_num)

/-- The lightness, as the conversion from the uniform colour space computes it. -/
noncomputable def jUcs (x : 𝔻) : 𝔻 := x / (1.0 - (x - 100.0) * 0.007)

theorem light_part {j x : 𝔻} {J : ℝ} (ij : Is j J) (J0 : 0.2 ≤ J) (J1 : J ≤ 101)
    (hx : Ap x (Dbl.val ((1.0 + 100.0 * 0.007) * j / (1.0 + 0.007 * j) : 𝔻)) (1 / 10 ^ 13)) : Rl (jUcs x) J (1 / 10 ^ 11) := by
  have Jp : 0 < J := lt_of_lt_of_le (by norm_num) J0
  have l1' : Nr (1.0 : 𝔻) (1.0 : ℝ) (1 / 10 ^ 15) 0 := nr_lit 0 (by norm_num) (by norm_num) (by norm_num)
  have l100' : Nr (100.0 : 𝔻) (100.0 : ℝ) (1 / 10 ^ 15) 2 := nr_lit 2 (by norm_num) (by norm_num) (by norm_num)
  have l7 : Nr (0.007 : 𝔻) (0.007 : ℝ) (1 / 10 ^ 15) 3 := nr_lit 3 (by norm_num) (by norm_num) (by norm_num)
  have jn := ij.nr 3 (by norm_num at J0 ⊢; linarith) (by norm_num at J1 ⊢; linarith)
  have a := l1'.add (l100'.mul l7 (4 / 10 ^ 15) (by norm_num) (by norm_num) (by norm_num)) 6 (5 / 10 ^ 15) (by norm_num) (by norm_num) (by norm_num) (by norm_num) (by norm_num) (by norm_num)
  have b := l1'.add (l7.mul jn (3 / 10 ^ 15) (by norm_num) (by norm_num) (by norm_num)) 11 (5 / 10 ^ 15) (by norm_num) (by norm_num) (by norm_num) (by norm_num) (by norm_num) (by norm_num)
  have c := (a.mul jn (7 / 10 ^ 15) (by norm_num) (by norm_num) (by norm_num)).div b (2 / 10 ^ 14) (by norm_num) (by norm_num) (by norm_num)
  obtain ⟨v, iv, hv⟩ := c.rl
  rw [iv.2] at hx
  have dp : 0 < 1 + 0.007 * J := by positivity
  have eS : (1.0 + 100.0 * 0.007) * J / (1.0 + 0.007 * J) = 1.7 * J / (1 + 0.007 * J) := by norm_num
  rw [eS] at hv
  have S0 : 0.3 ≤ 1.7 * J / (1 + 0.007 * J) := by rw [le_div_iff₀ dp]; norm_num at *; linarith
  have S1 : 1.7 * J / (1 + 0.007 * J) ≤ 101 := by rw [div_le_iff₀ dp]; norm_num at *; linarith
  have eJ : 1.7 * J / (1 + 0.007 * J) / (1 - (1.7 * J / (1 + 0.007 * J) - 100) * 0.007) = J := by
    rw [show 1 - (1.7 * J / (1 + 0.007 * J) - 100) * 0.007 = 1.7 / (1 + 0.007 * J) by field_simp; ring]
    field_simp
  generalize 1.7 * J / (1 + 0.007 * J) = S at *
  have hx : Ap x S (2.3 / 10 ^ 12) := by
    obtain ⟨u, iu, hu⟩ := hx
    refine ⟨u, iu, ?_⟩
    have := abs_add_le (u - v) (v - S)
    rw [sub_add_sub_cancel] at this
    norm_num at *; linarith
  have i100 : Ap (100.0 : 𝔻) 100 0 := ⟨100, l100, by simp⟩
  have i1 : Ap (1.0 : 𝔻) 1 0 := ⟨1, l1, by simp⟩
  have l7' : Ap (0.007 : 𝔻) 0.007 (1 / 10 ^ 17) := l7.ap _ (by norm_num)
  have Sb : |S - 100| ≤ 100 := by rw [abs_le]; norm_num at S0; constructor <;> linarith
  have e1 := hx.subS i100 101 (2.4 / 10 ^ 12) (by norm_num at Sb ⊢; linarith) (by norm_num) (by norm_num)
  have e2 := e1.mulS l7' 100 0.007 1 (2 / 10 ^ 14) Sb (by norm_num [abs_le]) (by norm_num) (by norm_num) (by norm_num)
  have e3 := i1.subS e2 2 (3 / 10 ^ 14) (by
    rw [← le_sub_iff_add_le, ← le_sub_iff_add_le, abs_le]; norm_num at S0 S1 ⊢; constructor <;> linarith) (by norm_num) (by norm_num)
  have D0 : 0.99 ≤ 1 - (S - 100) * 0.007 := by norm_num at *; linarith
  have D1 : 1 - (S - 100) * 0.007 ≤ 1.7 := by norm_num at *; linarith
  have e4 : Rl (1.0 - (x - 100.0) * 0.007) (1 - (S - 100) * 0.007) (4 / 10 ^ 14) := by
    obtain ⟨d, id, hd⟩ := e3
    exact ⟨d, id, hd.trans (by norm_num at *; linarith)⟩
  have e5 : Rl x S (8 / 10 ^ 12) := by
    obtain ⟨d, id, hd⟩ := hx
    exact ⟨d, id, hd.trans (by norm_num at *; linarith)⟩
  have := e5.div e4 (lt_of_lt_of_le (by norm_num) S0) (lt_of_lt_of_le (by norm_num) D0) (by norm_num) (by norm_num) (by rw [eJ]; exact le_trans (by norm_num) J0) (by rw [eJ]; exact J1.trans (by norm_num)) (by norm_num) (1 / 10 ^ 11) (by norm_num)
  rwa [eJ] at this

/-- Coordinates in the uniform colour space, close to those computed for a colour. -/
theorem ucs_close (hS : L.Sound) (hT : L.TempOk) (hC : L.CamOk) (hU : L.ExpUp) {argb : Int} (h : NotBlack argb) {x y z : 𝔻}
    (hx : Ap x (Dbl.val (Cam16.fromInt argb : Cam16 𝔻).jstar) (1 / 10 ^ 13)) (hy : Ap y (Dbl.val (Cam16.fromInt argb : Cam16 𝔻).astar) (1 / 10 ^ 13))
    (hz : Ap z (Dbl.val (Cam16.fromInt argb : Cam16 𝔻).bstar) (1 / 10 ^ 13)) : CloseTo L argb (Cam16.fromUcs x y z) := by
  have hL := hS.pow
  obtain ⟨H, iH, H0, H1⟩ := hue_in hS argb
  obtain ⟨ij, J0, J1⟩ := j_any hS.pow hS.exp h
  obtain ⟨iC, C0, C1⟩ := chroma_self hS hT h
  obtain ⟨r, ir, r0, r1, hr⟩ := rad_of iH H0 (by linarith)
  obtain ⟨R, iR, R0, R1⟩ := in_root_sharp hL
  have ej : (Cam16.fromInt argb : Cam16 𝔻).jstar = (1.0 + 100.0 * 0.007) * j64 L argb / (1.0 + 0.007 * j64 L argb) := rfl
  have ea : (Cam16.fromInt argb : Cam16 𝔻).astar = Fl.ln (1.0 + 0.0228 * (chr64 L argb * (vc64 L).fLroot)) / 0.0228 * Fl.cos (hue64 L argb * Fl.pi / 180.0) := rfl
  have eb : (Cam16.fromInt argb : Cam16 𝔻).bstar = Fl.ln (1.0 + 0.0228 * (chr64 L argb * (vc64 L).fLroot)) / 0.0228 * Fl.sin (hue64 L argb * Fl.pi / 180.0) := rfl
  rw [ej] at hx
  rw [ea] at hy
  rw [eb] at hz
  have lj := light_part ij (le_trans (by norm_num) J0) J1 hx
  clear ej ea eb hx
  -- the forward direction
  have Cp : 0 < Dbl.val (chr64 L argb) := lt_of_lt_of_le (by norm_num) C0
  have Rp : 0 < R := lt_of_lt_of_le (by norm_num) R0
  have m0 : 0.00019 * 0.78 ≤ Dbl.val (chr64 L argb) * R := mul_le_mul C0 R0 (by norm_num) Cp.le
  have m1 : Dbl.val (chr64 L argb) * R ≤ 1000 * 0.8 := mul_le_mul C1 R1 Rp.le (by norm_num)
  obtain ⟨M, iM, hM⟩ := iC.rl.mul iR.rl Cp Rp le_rfl le_rfl (le_trans (by norm_num) m0) (m1.trans (by norm_num)) (by norm_num) (1 / 10 ^ 15) (by norm_num)
  have hM' := abs_le.1 hM
  have M0 : 1.48 / 10 ^ 4 ≤ M := by norm_num at *; linarith
  have M1 : M ≤ 810 := by norm_num at *; linarith
  have Mp : 0 < M := lt_of_lt_of_le (by norm_num) M0
  obtain ⟨X, X0, X1, hX, ms, z0, z2, z1⟩ := log_part hC iM M0 M1
  generalize Fl.ln (1.0 + 0.0228 * (chr64 L argb * (vc64 L).fLroot)) / 0.0228 = mst at *
  have μ0 : 1.47 / 10 ^ 4 ≤ log X / 0.0228 := by norm_num at z0 ⊢; linarith
  have μ1 : log X / 0.0228 ≤ 132 := by norm_num at z2 ⊢; linarith
  obtain ⟨fc, hc, fs, hs⟩ := hS.trig _ ir.1 (by rw [ir.2]; exact r0) (by rw [ir.2]; linarith)
  rw [ir.2] at hc hs
  have ac : Ap (Fl.cos (hue64 L argb * Fl.pi / 180.0)) (cos r) (1 / 10 ^ 12) := ⟨_, ⟨fc, rfl⟩, hc⟩
  have as : Ap (Fl.sin (hue64 L argb * Fl.pi / 180.0)) (sin r) (1 / 10 ^ 12) := ⟨_, ⟨fs, rfl⟩, hs⟩
  have am : Ap mst (log X / 0.0228) (1.2 / 10 ^ 13 * (log X / 0.0228)) := ms
  have part {u cs : 𝔻} {t : ℝ} (hu : Ap u (Dbl.val (mst * cs)) (1 / 10 ^ 13)) (hcs : Ap cs t (1 / 10 ^ 12)) (ht : |t| ≤ 1) : ∃ v, Is u v ∧ |v - log X / 0.0228 * t| ≤ 7 / 10 ^ 10 * (log X / 0.0228) := by
    generalize log X / 0.0228 = μ at *
    have μp : 0 < μ := lt_of_lt_of_le (by norm_num) μ0
    obtain ⟨w, iw, hw⟩ := am.mulS hcs μ 1 (2 * μ) (3 / 10 ^ 12 * μ) (abs_of_pos μp).le ht (by norm_num; linarith) (by norm_num at μ1 ⊢; linarith) (by norm_num at μ0 ⊢; linarith)
    rw [iw.2] at hu
    obtain ⟨v, iv, hv⟩ := hu
    refine ⟨v, iv, ?_⟩
    have := abs_add_le (v - w) (w - μ * t)
    rw [sub_add_sub_cancel] at this
    norm_num at *; linarith
  obtain ⟨v, iv, hv⟩ := part hy ac (abs_cos_le_one r)
  obtain ⟨w, iw, hw⟩ := part hz as (abs_sin_le_one r)
  clear part
  obtain ⟨ln, nz, k, hk⟩ := polar_part iv iw (le_trans (by norm_num) μ0) (μ1.trans (by norm_num)) hv hw
  have ep := exp_part hU ln X0 X1 z0 z2 z1
  refine ⟨?_, ?_, ?_⟩
  · obtain ⟨a, ia, ha⟩ := lj
    exact ⟨a, ia, ha.trans (by norm_num at J0 ⊢; linarith)⟩
  · have Mx : |(X - 1) / 0.0228 - M| ≤ 1 / 10 ^ 10 * M := by
      rw [abs_le] at hX ⊢
      norm_num at hX ⊢
      constructor <;> linarith [hX.1, hX.2]
    have Mx' := abs_le.1 Mx
    obtain ⟨q, iq, hq⟩ := ep
    have hq2 := rel_trans hq Mx Mp (by norm_num) (η := 1.215 / 10 ^ 8) (by norm_num)
    have hq3 := rel_trans hq2 hM (by positivity) (by norm_num) (η := 1.22 / 10 ^ 8) (by norm_num)
    have qr : Rl ((Fl.exp (Fl.sqrt (y * y + z * z) * 0.0228) - 1.0) / 0.0228) (Dbl.val (chr64 L argb) * R) (1.22 / 10 ^ 8) := ⟨q, iq, hq3⟩
    have e : Dbl.val (chr64 L argb) * R / R = Dbl.val (chr64 L argb) := by field_simp
    have d := qr.div iR.rl (by positivity) Rp (by norm_num) le_rfl (by rw [e]; exact le_trans (by norm_num) C0) (by rw [e]; exact C1.trans (by norm_num)) (by norm_num) (2 / 10 ^ 8) (by norm_num)
    rw [e] at d
    exact d
  · obtain ⟨H', iH', H0', H1', k', hk'⟩ := hue_part hS.atan iv iw
    obtain ⟨k2, h2⟩ := hT.atan _ _ iw.1 iv.1 (by rw [iw.2, iv.2]; exact nz)
    rw [iw.2, iv.2] at h2
    generalize (L.atan2 z y).val = θ at *
    generalize Complex.arg ⟨v, w⟩ = A at *
    refine ⟨H', H, k + k2 + k', iH', iH, H0', H1', ?_⟩
    push_cast
    rw [abs_le] at hk' h2 hk hr ⊢
    rw [show ((k : ℝ) + k2 + k') * (2 * π) = k * (2 * π) + k2 * (2 * π) + k' * (2 * π) by ring]
    generalize (k : ℝ) * (2 * π) = a1 at *
    generalize (k2 : ℝ) * (2 * π) = a2 at *
    generalize (k' : ℝ) * (2 * π) = a3 at *
    generalize H * (π / 180) = a4 at *
    generalize H' * (π / 180) = a5 at *
    norm_num at hk' h2 hk hr ⊢
    constructor <;> linarith [hk'.1, hk'.2, h2.1, h2.2, hk.1, hk.2, hr.1, hr.2]

/-- Lightness 0 in the uniform colour space gives black. -/
theorem ucs_zero (hS : L.Sound) (hC : L.CamOk) {x y z : 𝔻} {v w : ℝ} (hx : Is x 0) (hy : Is y v) (hz : Is z w) : (Cam16.fromUcs x y z).toInt = 0xFF000000 := by
  obtain ⟨H, iH, H0, H1, -⟩ := hue_part hS.atan hy hz
  refine back_zero hS hC ?_ ⟨H, iH, H0, H1⟩
  have i100 : Is (100.0 : 𝔻) 100 := l100
  have i1 : Is (1.0 : 𝔻) 1 := l1
  obtain ⟨s, is⟩ := is_some_lit (L := L) (m := 7) (s := true) (e := 3) 0.007 (by norm_num) (by norm_num [abs_le])
  have l7 : In (0.007 : 𝔻) 0.006 0.008 := (in_lit (L := L) (m := 7) (s := true) (e := 3) 0.007 (by norm_num) (by norm_num [abs_le])).mono (by norm_num) (by norm_num)
  have n : Ap (x - 100.0) (0 - 100) (1 / 10 ^ 10) := (show Ap x 0 0 from ⟨0, hx, by simp⟩).subS (show Ap (100.0 : 𝔻) 100 0 from ⟨100, i100, by simp⟩) 100 _ (by norm_num) (by norm_num) (by norm_num)
  have l7' : Ap (0.007 : 𝔻) 0.007 (1 / 10 ^ 17) := (nr_lit (m := 7) (s := true) (e := 3) 3 (by norm_num) (by norm_num) (by norm_num)).ap _ (by norm_num)
  have q := n.mulS l7' 100 0.007 1 (1 / 10 ^ 10) (by norm_num) (by norm_num [abs_le]) (by norm_num) (by norm_num) (by norm_num)
  obtain ⟨d, id, hd⟩ := (show Ap (1.0 : 𝔻) 1 0 from ⟨1, i1, by simp⟩).subS q 2 (1 / 10 ^ 9) (by norm_num [abs_le]) (by norm_num) (by norm_num)
  have hd := (abs_le.1 hd).1
  exact hx.zero_div id (by intro e; rw [e] at hd; norm_num at hd)

/-- The coordinates in the uniform colour space are of moderate size. -/
theorem ucs_size (hS : L.Sound) (hT : L.TempOk) (hC : L.CamOk) {argb : Int} (h : NotBlack argb) :
    ∃ x y z, Is (Cam16.fromInt argb : Cam16 𝔻).jstar x ∧ Is (Cam16.fromInt argb : Cam16 𝔻).astar y ∧ Is (Cam16.fromInt argb : Cam16 𝔻).bstar z ∧ |x| ≤ 140 ∧ |y| ≤ 140 ∧ |z| ≤ 140 := by
  obtain ⟨H, iH, H0, H1⟩ := hue_in hS argb
  obtain ⟨iC, C0, C1⟩ := chroma_self hS hT h
  obtain ⟨r, ir, r0, r1, -⟩ := rad_of iH H0 (by linarith)
  obtain ⟨R, iR, R0, R1⟩ := in_root_sharp hS.pow
  have ea : (Cam16.fromInt argb : Cam16 𝔻).astar = Fl.ln (1.0 + 0.0228 * (chr64 L argb * (vc64 L).fLroot)) / 0.0228 * Fl.cos (hue64 L argb * Fl.pi / 180.0) := rfl
  have eb : (Cam16.fromInt argb : Cam16 𝔻).bstar = Fl.ln (1.0 + 0.0228 * (chr64 L argb * (vc64 L).fLroot)) / 0.0228 * Fl.sin (hue64 L argb * Fl.pi / 180.0) := rfl
  rw [ea, eb]
  have Cp : 0 < Dbl.val (chr64 L argb) := lt_of_lt_of_le (by norm_num) C0
  have Rp : 0 < R := lt_of_lt_of_le (by norm_num) R0
  have m0 : 0.00019 * 0.78 ≤ Dbl.val (chr64 L argb) * R := mul_le_mul C0 R0 (by norm_num) Cp.le
  have m1 : Dbl.val (chr64 L argb) * R ≤ 1000 * 0.8 := mul_le_mul C1 R1 Rp.le (by norm_num)
  obtain ⟨M, iM, hM⟩ := iC.rl.mul iR.rl Cp Rp le_rfl le_rfl (le_trans (by norm_num) m0) (m1.trans (by norm_num)) (by norm_num) (1 / 10 ^ 15) (by norm_num)
  have hM' := abs_le.1 hM
  have M0 : 1.48 / 10 ^ 4 ≤ M := by norm_num at *; linarith
  have M1 : M ≤ 810 := by norm_num at *; linarith
  obtain ⟨X, -, -, -, ms, z0, z2, -⟩ := log_part hC iM M0 M1
  generalize Fl.ln (1.0 + 0.0228 * (chr64 L argb * (vc64 L).fLroot)) / 0.0228 = mst at *
  have μ0 : 0 < log X / 0.0228 := by norm_num at z0 ⊢; linarith
  have μ1 : log X / 0.0228 ≤ 132 := by norm_num at z2 ⊢; linarith
  have am : Ap mst (log X / 0.0228) 1 := by
    obtain ⟨v, iv, hv⟩ := ms
    exact ⟨v, iv, hv.trans (by norm_num at μ1 ⊢; linarith)⟩
  obtain ⟨fc, hc, fs, hs⟩ := hS.trig _ ir.1 (by rw [ir.2]; exact r0) (by rw [ir.2]; linarith)
  rw [ir.2] at hc hs
  have part {cs : 𝔻} {t : ℝ} (hcs : Ap cs t (1 / 10 ^ 12)) (ht : |t| ≤ 1) : ∃ v, Is (mst * cs) v ∧ |v| ≤ 140 := by
    obtain ⟨v, iv, hv⟩ := am.mulS hcs 132 1 140 2 (by rw [abs_of_pos μ0]; exact μ1) ht (by norm_num) (by norm_num) (by norm_num)
    refine ⟨v, iv, ?_⟩
    have := abs_add_le (v - log X / 0.0228 * t) (log X / 0.0228 * t)
    rw [sub_add_cancel, abs_mul, abs_of_pos μ0] at this
    have := mul_le_mul μ1 ht (abs_nonneg _) (by norm_num)
    linarith
  obtain ⟨y, iy, hy⟩ := part ⟨_, ⟨fc, rfl⟩, hc⟩ (abs_cos_le_one r)
  obtain ⟨z, iz, hz⟩ := part ⟨_, ⟨fs, rfl⟩, hs⟩ (abs_sin_le_one r)
  obtain ⟨x, ix, hx⟩ := (nr_jstar hS.pow hS.exp (L := L) h).rl
  refine ⟨x, y, z, ix, iy, iz, ?_, hy, hz⟩
  have j0 := jR_ge h
  have j1 := jR_le h
  have e' : (Cam16.fromInt argb : Cam16 ℝ).jstar = (1.0 + 100.0 * 0.007) * jR argb / (1.0 + 0.007 * jR argb) := rfl
  have u0 : 0 ≤ (Cam16.fromInt argb : Cam16 ℝ).jstar := (nr_jstar hS.pow hS.exp (L := L) h).pos.le
  have u1 : (Cam16.fromInt argb : Cam16 ℝ).jstar ≤ 110 := by
    rw [e', div_le_iff₀ (by norm_num at j0 ⊢; linarith)]; norm_num at j0 j1 ⊢; linarith
  generalize (Cam16.fromInt argb : Cam16 ℝ).jstar = u at *
  rw [abs_le] at hx ⊢
  norm_num at hx u1 ⊢
  constructor <;> linarith [hx.1, hx.2]

/-- The coordinates of black in the uniform colour space. -/
theorem ucs_black (hS : L.Sound) (hC : L.CamOk) {argb : Int} (h : ¬ NotBlack argb) :
    Is (Cam16.fromInt argb : Cam16 𝔻).jstar 0 ∧ Is (Cam16.fromInt argb : Cam16 𝔻).astar 0 ∧ Is (Cam16.fromInt argb : Cam16 𝔻).bstar 0 := by
  obtain ⟨j0, c0, -, m0⟩ := black_cam hS hC h
  obtain ⟨H, iH, H0, H1⟩ := hue_in hS argb
  obtain ⟨r, ir, r0, r1, -⟩ := rad_of iH H0 (by linarith)
  obtain ⟨fc, -, fs, -⟩ := hS.trig _ ir.1 (by rw [ir.2]; exact r0) (by rw [ir.2]; linarith)
  have ej : (Cam16.fromInt argb : Cam16 𝔻).jstar = (1.0 + 100.0 * 0.007) * (Cam16.fromInt argb : Cam16 𝔻).j / (1.0 + 0.007 * (Cam16.fromInt argb : Cam16 𝔻).j) := rfl
  have ea : (Cam16.fromInt argb : Cam16 𝔻).astar = Fl.ln (1.0 + 0.0228 * (Cam16.fromInt argb : Cam16 𝔻).m) / 0.0228 * Fl.cos (hue64 L argb * Fl.pi / 180.0) := rfl
  have eb : (Cam16.fromInt argb : Cam16 𝔻).bstar = Fl.ln (1.0 + 0.0228 * (Cam16.fromInt argb : Cam16 𝔻).m) / 0.0228 * Fl.sin (hue64 L argb * Fl.pi / 180.0) := rfl
  rw [ej, ea, eb]
  have i1 : Is (1.0 : 𝔻) 1 := l1
  obtain ⟨s, is⟩ := is_some_lit (L := L) (m := 7) (s := true) (e := 3) 0.007 (by norm_num) (by norm_num [abs_le])
  obtain ⟨t, it, t0, -⟩ := in_lit (L := L) (m := 228) (s := true) (e := 4) 0.0228 (by norm_num) (by norm_num [abs_le])
  have one {x : 𝔻} (hx : Is x 0) : Is (1.0 + x) 1 := by
    have := i1.add hx (by rw [_root_.add_zero, i1.rep.rnd_eq]; exact i1.lt_max)
    rwa [_root_.add_zero, i1.rep.rnd_eq] at this
  have x1 := one (it.mul_zero m0)
  have ln0 : Is (Fl.ln (1.0 + 0.0228 * (Cam16.fromInt argb : Cam16 𝔻).m)) 0 := by
    obtain ⟨f, hl⟩ := hC.ln _ x1.1 (by rw [x1.2]) (by rw [x1.2]; norm_num)
    rw [x1.2, Real.log_one] at hl
    refine ⟨f, ?_⟩
    rw [sub_zero, mul_zero] at hl
    exact abs_nonpos_iff.1 hl
  have mz := ln0.zero_div it (by norm_num at t0; linarith)
  have l7 : In (0.007 : 𝔻) 0.006 0.008 := (in_lit (L := L) (m := 7) (s := true) (e := 3) 0.007 (by norm_num) (by norm_num [abs_le])).mono (by norm_num) (by norm_num)
  obtain ⟨q, iq, -⟩ := i1.in.add ((l100 (L := L)).in.mul l7 0.5 0.9 (by norm_num) (by norm_num) (by norm_num) (by norm_num) (by norm_num) (by norm_num)) 1 2 (by norm_num) (by norm_num) (by norm_num) (by norm_num)
  exact ⟨(iq.mul_zero j0).zero_div (one (is.mul_zero j0)) one_ne_zero, mz.zero_mul ⟨fc, rfl⟩, mz.zero_mul ⟨fs, rfl⟩⟩

end Mcu.Lemmas
