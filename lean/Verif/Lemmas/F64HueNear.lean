import Verif.Lemmas.ChromaGap
import Verif.Lemmas.F64Temperature

/-! The hue of a colour in IEEE-754 binary64 is close to the exact one. -/

namespace Mcu.Lemmas

open Mcu.Ieee Props Props.Binary64 MathUtils ColorUtils Real

variable {L : Libm}

local notation "𝔻" => F64 L

/-! ### Angles of nearby points -/

theorem arg_near {z w : ℂ} {ε : ℝ} (hw : w ≠ 0) (h : ‖z - w‖ ≤ ε * ‖w‖) (h1 : ε ≤ 1 / 100) :
    ∃ k : ℤ, |Complex.arg z - (Complex.arg w + k * (2 * π))| ≤ 1.6 * ε := by
  have wp : 0 < ‖w‖ := norm_pos_iff.2 hw
  set e := (z - w) / w with he
  have ez : z = (1 + e) * w := by rw [he]; field_simp; ring
  have en : ‖e‖ ≤ ε := by rw [he, norm_div, div_le_iff₀ wp]; exact h
  have e0 : 0 ≤ ε := (norm_nonneg e).trans en
  have hre := abs_le.1 ((Complex.abs_re_le_norm e).trans en)
  have him := (Complex.abs_im_le_norm e).trans en
  have hu : 1 + e ≠ 0 := by
    intro h0
    have := congrArg Complex.re h0
    simp at this
    linarith
  have hn : 1 - ε ≤ ‖1 + e‖ := by
    have := Complex.abs_re_le_norm (1 + e)
    rw [Complex.add_re, Complex.one_re] at this
    have := (abs_le.1 this).2
    have h3 := le_abs_self (1 + e.re)
    linarith
  have ha : |Complex.arg (1 + e)| ≤ 1.6 * ε := by
    have hp2 : |Complex.arg (1 + e)| ≤ π / 2 := by
      rw [Complex.abs_arg_le_pi_div_two_iff, Complex.add_re, Complex.one_re]; linarith
    have hs := mul_abs_le_abs_sin hp2
    rw [Complex.sin_arg, abs_div, abs_of_nonneg (norm_nonneg (1 + e)), Complex.add_im, Complex.one_im, zero_add] at hs
    have hs2 : |e.im| / ‖1 + e‖ ≤ ε / 0.99 :=
      div_le_div₀ e0 him (by norm_num) (by norm_num; linarith)
    have hs3 := hs.trans hs2
    have hp := pi_pos
    have hpu := pi_lt_d6
    rw [div_mul_eq_mul_div, div_le_iff₀ hp] at hs3
    have : ε / 0.99 * π ≤ ε / 0.99 * 3.141593 := by gcongr
    norm_num at this hs3 ⊢
    linarith
  have hang := Complex.arg_mul_coe_angle hu hw
  rw [← ez, ← Real.Angle.coe_add, Real.Angle.angle_eq_iff_two_pi_dvd_sub] at hang
  obtain ⟨k, hk⟩ := hang
  refine ⟨k, ?_⟩
  rw [show Complex.arg z - (Complex.arg w + k * (2 * π)) = Complex.arg (1 + e) by linarith]
  exact ha

/-! ### The opponent coordinates -/

theorem opp_sum {argb : Int} (h : NotBlack argb) : let S := (conesR argb).x0 + (conesR argb).x1 + (conesR argb).x2
    0.06 ≤ S ∧ S ≤ 45 := by
  obtain ⟨c0, c1, c2⟩ := cones_pos h
  norm_num at c0 c1 c2 ⊢
  constructor <;> linarith

theorem div_near {x y : 𝔻} {n t e S η : ℝ} (hx : Ap x t e) (hy : Is y n) (n0 : 1 ≤ n) (ht : |t| ≤ 2 * S) (he : e ≤ S) (S1 : S ≤ 1000) (hη : e / n + S / 10 ^ 15 + 1 / 10 ^ 72 ≤ η) :
    Ap (x / y) (t / n) η := by
  obtain ⟨v, iv, hv⟩ := hx
  have np : 0 < n := by linarith
  have e0 : 0 ≤ e := (abs_nonneg _).trans hv
  refine ap_rndS (B := 3 * S) (fun h => iv.div hy np.ne' h) (a := e / n) ?_ ?_ (le_trans (by linarith) (show (3000 : ℝ) ≤ 10 ^ 40 by norm_num)) ?_
  · rw [← sub_div, abs_div, abs_of_pos np]; gcongr
  · rw [abs_div, abs_of_pos np, div_le_iff₀ np]
    have h1 := abs_add_le (v - t) t
    rw [sub_add_cancel] at h1
    have s0 : 0 ≤ S := e0.trans he
    have : 3 * S * 1 ≤ 3 * S * n := by gcongr
    linarith
  · refine le_trans ?_ hη
    norm_num
    linarith

theorem is_one_mul {x : 𝔻} {v : ℝ} (h : Is x v) : |rnd (1 * v)| < 2 ^ 1024 → Is x (rnd (1 * v)) := fun _ => by
  rw [one_mul, h.rep.rnd_eq]; exact h

/-- The opponent coordinates as the code computes them. -/
noncomputable def oa64 (v : Vec3 𝔻) : 𝔻 := (11.0 * v.x0 + (-12.0) * v.x1 + v.x2) / 11.0
noncomputable def ob64 (v : Vec3 𝔻) : 𝔻 := (v.x0 + v.x1 - 2.0 * v.x2) / 9.0
noncomputable def ou64 (v : Vec3 𝔻) : 𝔻 := (20.0 * v.x0 + 20.0 * v.x1 + 21.0 * v.x2) / 20.0
noncomputable def op64 (v : Vec3 𝔻) : 𝔻 := (40.0 * v.x0 + 20.0 * v.x1 + v.x2) / 20.0

theorem ap_oa (hL : L.PowOk) (hE : L.ExpOk) {argb : Int} (h : NotBlack argb) :
    Ap (oa64 (cones64 L argb)) (opA (conesR argb)) (55 / 10 ^ 13 * ((conesR argb).x0 + (conesR argb).x1 + (conesR argb).x2)) := by
  obtain ⟨n0, n1, n2⟩ := nr_cones64 hL hE h
  obtain ⟨s0, s1⟩ := opp_sum h
  have p0 := n0.pos; have p1 := n1.pos; have p2 := n2.pos
  obtain ⟨v0, i0, h0⟩ := n0.rl
  obtain ⟨v1, i1, h1⟩ := n1.rl
  obtain ⟨v2, i2, h2⟩ := n2.rl
  have i11 : Is (11.0 : 𝔻) 11 := by simpa using lit (L := L) 110 1 true 11 (by norm_num) (by norm_num)
  have i12 : Is (12.0 : 𝔻) 12 := by simpa using lit (L := L) 120 1 true 12 (by norm_num) (by norm_num)
  unfold opA
  generalize cones64 L argb = w at *
  generalize (conesR argb).x0 = X at *
  generalize (conesR argb).x1 = Y at *
  generalize (conesR argb).x2 = Z at *
  have c := comb3 (L := L) (A := 11) (B := -12) (C := 1) (p := 11.0 * w.x0 + (-12.0) * w.x1)
    (q := 11.0 * w.x0 + (-12.0) * w.x1 + w.x2) 1 (by norm_num) (fun h => i11.mul i0 h) (fun h => i12.neg.mul i1 h) (is_one_mul i2) h0 h1 h2 (by norm_num) (by norm_num) (by norm_num)
    p0.le p1.le p2.le (by norm_num) (by norm_num) (by norm_num at *; linarith) (by norm_num at *; linarith) (fun a b ha hb h => ha.add hb h)
    (fun w s hw hs h => by rw [one_mul] at h ⊢; exact hs.add hw h)
  have e : (11.0 * X + (-12.0) * Y + Z) / 11.0 = (11 * X + (-12) * Y + 1 * (1 * Z)) / 11 := by norm_num
  rw [e]
  refine div_near (S := 6 * (X + Y + Z)) c i11 (by norm_num) ?_ ?_ (by linarith) ?_
  · rw [abs_le]; constructor <;> linarith
  · norm_num [abs_of_pos, abs_of_neg]; linarith
  · norm_num [abs_of_pos, abs_of_neg] at s0 ⊢; linarith

theorem ap_ob (hL : L.PowOk) (hE : L.ExpOk) {argb : Int} (h : NotBlack argb) :
    Ap (ob64 (cones64 L argb)) (opB (conesR argb)) (12 / 10 ^ 13 * ((conesR argb).x0 + (conesR argb).x1 + (conesR argb).x2)) := by
  obtain ⟨n0, n1, n2⟩ := nr_cones64 hL hE h
  obtain ⟨s0, s1⟩ := opp_sum h
  have p0 := n0.pos; have p1 := n1.pos; have p2 := n2.pos
  obtain ⟨v0, i0, h0⟩ := n0.rl
  obtain ⟨v1, i1, h1⟩ := n1.rl
  obtain ⟨v2, i2, h2⟩ := n2.rl
  have i9 : Is (9.0 : 𝔻) 9 := by simpa using lit (L := L) 90 1 true 9 (by norm_num) (by norm_num)
  have i2' : Is (2.0 : 𝔻) 2 := by simpa using lit (L := L) 20 1 true 2 (by norm_num) (by norm_num)
  unfold opB
  generalize cones64 L argb = w at *
  generalize (conesR argb).x0 = X at *
  generalize (conesR argb).x1 = Y at *
  generalize (conesR argb).x2 = Z at *
  have c := comb3 (L := L) (A := 1) (B := 1) (C := 2) (p := w.x0 + w.x1)
    (q := w.x0 + w.x1 - 2.0 * w.x2) (-1) (by norm_num) (is_one_mul i0) (is_one_mul i1) (fun h => i2'.mul i2 h) h0 h1 h2 (by norm_num) (by norm_num) (by norm_num)
    p0.le p1.le p2.le (by norm_num) (by norm_num) (by norm_num at *; linarith) (by norm_num at *; linarith) (fun a b ha hb h => ha.add hb h)
    (fun w s hw hs h => by rw [neg_one_mul, ← sub_eq_add_neg] at h ⊢; exact hs.sub hw h)
  have e : (X + Y - 2.0 * Z) / 9.0 = (1 * X + 1 * Y + -1 * (2 * Z)) / 9 := by norm_num; ring
  rw [e]
  refine div_near (S := 6 * (X + Y + Z)) c i9 (by norm_num) ?_ ?_ (by linarith) ?_
  · rw [abs_le]; constructor <;> linarith
  · norm_num [abs_of_pos, abs_of_neg]; linarith
  · norm_num [abs_of_pos, abs_of_neg] at s0 ⊢; linarith

/-- The exact and the computed opponent coordinates as points of the plane. -/
theorem opp_near (hL : L.PowOk) (hE : L.ExpOk) {argb : Int} (h : NotBlack argb) : ∃ v w, Is (oa64 (cones64 L argb)) v ∧ Is (ob64 (cones64 L argb)) w ∧
    ‖(⟨v, w⟩ : ℂ) - ⟨opA (conesR argb), opB (conesR argb)⟩‖ ≤ 182 / 10 ^ 8 * rho (conesR argb) := by
  obtain ⟨v, iv, hv⟩ := ap_oa hL hE h
  obtain ⟨w, iw, hw⟩ := ap_ob hL hE h
  refine ⟨v, w, iv, iw, ?_⟩
  have hr := rho_ge h
  obtain ⟨s0, s1⟩ := opp_sum h
  generalize (conesR argb).x0 + (conesR argb).x1 + (conesR argb).x2 = S at *
  refine le_trans ?_ (mul_le_mul_of_nonneg_left hr (by norm_num))
  rw [Complex.norm_eq_sqrt_sq_add_sq, Real.sqrt_le_left (by linarith)]
  simp only [Complex.sub_re, Complex.sub_im]
  have h1 := pow_le_pow_left₀ (abs_nonneg _) hv 2
  have h2 := pow_le_pow_left₀ (abs_nonneg _) hw 2
  rw [sq_abs, mul_pow] at h1 h2
  have hS : 0 ≤ S ^ 2 := sq_nonneg S
  rw [mul_pow, mul_pow]
  norm_num at h1 h2 ⊢
  linarith

theorem norm_rho (v : Vec3 ℝ) : ‖(⟨opA v, opB v⟩ : ℂ)‖ = rho v := by
  rw [Complex.norm_eq_sqrt_sq_add_sq]; unfold rho; congr 1; ring

theorem rho_pos {argb : Int} (h : NotBlack argb) : 186 / 10 ^ 9 ≤ rho (conesR argb) := by
  have hr := rho_ge h
  obtain ⟨s0, s1⟩ := opp_sum h
  refine le_trans ?_ hr
  norm_num at s0 ⊢
  linarith

/-! ### The hue -/

/-- Degrees of an angle. -/
theorem ap_degrees {x : 𝔻} {θ : ℝ} (hx : Is x θ) (hθ : |θ| ≤ 3.1416) : Ap (x * 180.0 / Fl.pi : 𝔻) (θ * 180 / π) (1 / 10 ^ 12) := by
  have h180 : Is (180.0 : 𝔻) 180 := by simpa using lit (L := L) 1800 1 true 180 (by norm_num) (by norm_num)
  obtain ⟨p, ip, hp⟩ := (nr_pi (L := L)).rl
  have pp := pi_gt_d6
  have pu := pi_lt_d6
  have hm : |θ * 180| ≤ 565.488 := by rw [abs_mul, abs_of_pos (show (0:ℝ) < 180 by norm_num)]; norm_num at *; linarith
  have m : Ap (x * 180.0 : 𝔻) (θ * 180) (2 / 10 ^ 13) := by
    refine ap_rndS (B := 565.488) (a := 0) (fun h => hx.mul h180 h) (by simp) hm (by norm_num) (by norm_num)
  obtain ⟨v, iv, hv⟩ := m
  have hp' := abs_le.1 hp
  have p1 : 3.1415 < p := by norm_num at *; linarith
  have p0 : 0 < p := by norm_num at p1; linarith
  have hv' : |v| ≤ 565.489 := by
    have h1 := abs_add_le (v - θ * 180) (θ * 180)
    rw [sub_add_cancel] at h1
    generalize |θ * 180| = A at *
    norm_num at *; linarith
  refine ap_rndS (B := 181) (a := 8 / 10 ^ 13) (fun h => iv.div ip p0.ne' h) ?_ ?_ (by norm_num) (by norm_num)
  · have e : v / p - θ * 180 / π = (v - θ * 180) / π + v * ((π - p) / (p * π)) := by
      field_simp; ring
    rw [e]
    refine (abs_add_le _ _).trans ?_
    rw [abs_div, abs_mul, abs_div, abs_of_pos pi_pos, abs_of_pos (mul_pos p0 pi_pos), abs_sub_comm π p]
    have h1 : |v - θ * 180| / π ≤ 2 / 10 ^ 13 / 3 := div_le_div₀ (by norm_num) hv (by norm_num) (by linarith)
    have h2 : |p - π| / (p * π) ≤ 1 / 10 ^ 15 / 3 := by
      rw [div_le_iff₀ (mul_pos p0 pi_pos)]
      refine hp.trans ?_
      have : 1 / 10 ^ 15 / 3 * (3 * π) ≤ 1 / 10 ^ 15 / 3 * (p * π) := by
        have : 3 ≤ p := by norm_num at p1; linarith
        gcongr
      linarith
    have h3 := mul_le_mul hv' h2 (by positivity) (by norm_num)
    refine (add_le_add h1 h3).trans (by norm_num)
  · rw [abs_div, abs_of_pos p0, div_le_iff₀ p0]
    norm_num at *; linarith

theorem hue_near (hS : L.Sound) (hT : L.TempOk) {argb : Int} (h : NotBlack argb) :
    ∃ (v : ℝ) (k : ℤ), Is (Cam16.hueDegrees (oa64 (cones64 L argb)) (ob64 (cones64 L argb))) v ∧ 0 ≤ v ∧ v ≤ 360 ∧
      |v - (Cam16.hueDegrees (opA (conesR argb)) (opB (conesR argb)) + k * 360)| ≤ 168 / 10 ^ 6 := by
  obtain ⟨x, y, ix, iy, hxy⟩ := opp_near hS.pow hS.exp h
  have hin := in_hueDegrees hS.atan ix.1 iy.1
  have hrp : 0 < rho (conesR argb) := lt_of_lt_of_le (by norm_num) (rho_pos h)
  rw [← norm_rho] at hxy hrp
  set w : ℂ := ⟨opA (conesR argb), opB (conesR argb)⟩ with hw
  have w0 : w ≠ 0 := norm_pos_iff.1 hrp
  obtain ⟨k1, hk1⟩ := arg_near w0 hxy (by norm_num)
  have z0 : ¬ (x = 0 ∧ y = 0) := by
    rintro ⟨rfl, rfl⟩
    have : (⟨0, 0⟩ : ℂ) - w = -w := by rw [show (⟨0, 0⟩ : ℂ) = 0 from rfl, zero_sub]
    rw [this, norm_neg] at hxy
    norm_num at hxy
    linarith
  obtain ⟨f, hθ⟩ := hS.atan _ _ iy.1 ix.1
  have hang := hT.atan _ _ iy.1 ix.1
  rw [ix.2, iy.2] at hang
  obtain ⟨θ, iθ, hθ, hang⟩ : ∃ θ, Is (Fl.atan2 (ob64 (cones64 L argb)) (oa64 (cones64 L argb)) : 𝔻) θ ∧ |θ| ≤ 3.1416 ∧ (¬ (x = 0 ∧ y = 0) →
      ∃ k : ℤ, |θ - (Complex.arg ⟨x, y⟩ + k * (2 * π))| ≤ 1 / 10 ^ 12) := ⟨_, ⟨f, rfl⟩, hθ, hang⟩
  obtain ⟨k2, hk2⟩ := hang z0
  -- the degrees before they are moved to 0..360
  have hd := ap_degrees iθ hθ
  have hp := pi_pos
  have hp6 := pi_gt_d6
  have key : |θ * 180 / π - (argDeg (opA (conesR argb)) (opB (conesR argb)) + (k1 + k2 : ℤ) * 360)| ≤ 167 / 10 ^ 6 := by
    have e : θ * 180 / π - (argDeg (opA (conesR argb)) (opB (conesR argb)) + (k1 + k2 : ℤ) * 360) =
        ((θ - (Complex.arg ⟨x, y⟩ + k2 * (2 * π))) + (Complex.arg ⟨x, y⟩ - (Complex.arg w + k1 * (2 * π)))) * (180 / π) := by
      unfold argDeg
      rw [hw]
      push_cast
      field_simp
      ring
    rw [e, abs_mul, abs_of_pos (show 0 < 180 / π by positivity)]
    have h1 := (abs_add_le _ _).trans (add_le_add hk2 hk1)
    have h2 : 180 / π ≤ 57.3 := by
      rw [div_le_iff₀ hp]; norm_num at hp6 ⊢; linarith
    refine (mul_le_mul h1 h2 (by positivity) (by norm_num)).trans (by norm_num)
  have hR : ∃ k3 : ℤ, Cam16.hueDegrees (opA (conesR argb)) (opB (conesR argb)) = argDeg (opA (conesR argb)) (opB (conesR argb)) + k3 * 360 := by
    rw [hueDegrees_eq]
    split
    · exact ⟨1, by norm_num⟩
    · exact ⟨0, by norm_num⟩
  obtain ⟨k3, hk3⟩ := hR
  obtain ⟨u, iu, hu⟩ := hd
  have tot := (abs_add_le _ _).trans (add_le_add hu key)
  rw [sub_add_sub_cancel] at tot
  rw [hk3]
  generalize argDeg (opA (conesR argb)) (opB (conesR argb)) = D at *
  obtain ⟨v, iv, v0, v1⟩ := hin
  refine ⟨v, ?_⟩
  have h360 : Is (360.0 : 𝔻) 360 := by simpa using lit (L := L) 3600 1 true 360 (by norm_num) (by norm_num)
  have ub : |u| ≤ 181 := by
    have h1 := abs_add_le (u - θ * 180 / π) (θ * 180 / π)
    rw [sub_add_cancel] at h1
    have h2 : |θ * 180 / π| ≤ 180.1 := by
      rw [abs_div, abs_mul, abs_of_pos hp, abs_of_pos (show (0:ℝ) < 180 by norm_num), div_le_iff₀ hp]
      norm_num at *; linarith
    generalize |θ * 180 / π| = A at *
    norm_num at *; linarith
  have ub' := abs_le.1 ub
  by_cases hneg : u < 0
  · have eh : Cam16.hueDegrees (oa64 (cones64 L argb)) (ob64 (cones64 L argb)) = Fl.atan2 (ob64 (cones64 L argb)) (oa64 (cones64 L argb)) * 180.0 / Fl.pi + 360.0 := by
      unfold Cam16.hueDegrees
      simp only
      rw [if_pos (by rw [iu.lt_iff l0']; exact hneg)]
    rw [eh] at iv ⊢
    obtain ⟨r1, r2⟩ := rnd_ok (v := u + 360) (by rw [abs_le]; constructor <;> linarith)
    have := iv.unique (iu.add h360 r1)
    subst this
    refine ⟨k1 + k2 + 1 - k3, iv, v0, v1, ?_⟩
    have hh := (abs_add_le _ _).trans (add_le_add r2 tot)
    have e : rnd (u + 360) - (u + 360) + (u - (D + ((k1 + k2 : ℤ) : ℝ) * 360)) = rnd (u + 360) - (D + (k3 : ℝ) * 360 + ((k1 + k2 + 1 - k3 : ℤ) : ℝ) * 360) := by push_cast; ring
    rw [e] at hh
    unfold ρ at hh
    exact hh.trans (by norm_num)
  · have eh : Cam16.hueDegrees (oa64 (cones64 L argb)) (ob64 (cones64 L argb)) = Fl.atan2 (ob64 (cones64 L argb)) (oa64 (cones64 L argb)) * 180.0 / Fl.pi := by
      unfold Cam16.hueDegrees
      simp only
      rw [if_neg (by rw [iu.lt_iff l0']; exact hneg), if_neg (by rw [ge_iff_le, h360.le_iff iu]; linarith)]
    rw [eh] at iv ⊢
    have := iv.unique iu
    subst this
    refine ⟨k1 + k2 - k3, iv, v0, v1, ?_⟩
    have e : v - (D + (k3 : ℝ) * 360 + ((k1 + k2 - k3 : ℤ) : ℝ) * 360) = v - (D + ((k1 + k2 : ℤ) : ℝ) * 360) := by push_cast; ring
    rw [e]
    exact tot.trans (by norm_num)

end Mcu.Lemmas
