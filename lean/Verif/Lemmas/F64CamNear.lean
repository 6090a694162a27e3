import Verif.Lemmas.F64HueNear

/-! The CAM16 coordinates of a colour in IEEE-754 binary64 are close to the exact ones. -/

namespace Mcu.Lemmas

open Mcu.Ieee Props Props.Binary64 MathUtils ColorUtils Real

variable {L : Libm}

local notation "𝔻" => F64 L

/-- Bounds on the computed value bound the exact one. -/
theorem Nr.real {x : 𝔻} {t ε l u : ℝ} {n : ℕ} (h : Nr x t ε n) (hi : In x l u) (h1 : ε ≤ 1 / 10 ^ 6) (l0 : 0 ≤ l) :
    l * (1 - 1 / 10 ^ 6) ≤ t ∧ t ≤ u * (1 + 2 / 10 ^ 6) := by
  have tp := h.pos
  obtain ⟨v, iv, hv⟩ := h.rl
  obtain ⟨w, iw, w0, w1⟩ := hi
  have := iv.unique iw
  subst this
  have hv := abs_le.1 hv
  have : ε * t ≤ 1 / 10 ^ 6 * t := mul_le_mul_of_nonneg_right h1 tp.le
  constructor <;> norm_num at * <;> linarith

theorem nbbR : 1.016 ≤ vcR.nbb ∧ vcR.nbb ≤ 1.017 := by
  obtain ⟨L, hL⟩ := powOk_exists
  have := (nr_nbb hL).real (in_nbb hL) (by norm_num) (by norm_num)
  norm_num at this ⊢
  constructor <;> linarith

theorem awR : 29.95 ≤ vcR.aw ∧ vcR.aw ≤ 30.01 := by
  obtain ⟨L, hS⟩ := sound_exists
  have := (nr_aw hS.pow hS.exp).real (in_aw hS.pow hS.exp) (by norm_num) (by norm_num)
  norm_num at this ⊢
  constructor <;> linarith

theorem czR : 1.317 ≤ vcR.c * vcR.z ∧ vcR.c * vcR.z ≤ 1.318 := by
  obtain ⟨L, hS⟩ := sound_exists
  have h1 := (nr_c (L := L)).real in_c (by norm_num) (by norm_num)
  have h2 := (nr_z (L := L)).real in_z (by norm_num) (by norm_num)
  have a := mul_le_mul h1.1 h2.1 (by norm_num) (le_trans (by norm_num) h1.1)
  have b := mul_le_mul h1.2 h2.2 (nr_z (L := L)).pos.le (by norm_num)
  norm_num at a b ⊢
  constructor <;> linarith

theorem nCR : vcR.nC = 1 := by
  have e' : vcR.nC = 0.8 + 2.0 / 10.0 := rfl
  rw [e']; norm_num

theorem cR : 0.68 ≤ vcR.c ∧ vcR.c ≤ 0.7 := by
  obtain ⟨L, hS⟩ := sound_exists
  have h1 := (nr_c (L := L)).real in_c (by norm_num) (by norm_num)
  norm_num at h1 ⊢
  constructor <;> linarith

/-! ### The sums of cone responses -/

theorem opU_bounds {argb : Int} (h : NotBlack argb) : (opU (conesR argb) ≤ 1.05 * ((conesR argb).x0 + (conesR argb).x1 + (conesR argb).x2)) ∧ 0.061 ≤ opU (conesR argb) ∧ opU (conesR argb) ≤ 46 := by
  obtain ⟨c0, c1, c2⟩ := cones_pos h
  unfold opU
  norm_num at c0 c1 c2 ⊢
  refine ⟨?_, ?_, ?_⟩ <;> linarith

theorem opP_bounds {argb : Int} (h : NotBlack argb) : 0.061 ≤ opP2 (conesR argb) ∧ opP2 (conesR argb) ≤ 46 := by
  obtain ⟨c0, c1, c2⟩ := cones_pos h
  unfold opP2
  norm_num at c0 c1 c2 ⊢
  constructor <;> linarith

theorem nr_u (hL : L.PowOk) (hE : L.ExpOk) {argb : Int} (h : NotBlack argb) : Nr (ou64 (cones64 L argb)) (opU (conesR argb)) (56 / 10 ^ 13) 2 := by
  obtain ⟨n0, n1, n2⟩ := nr_cones64 hL hE h
  have l20 : Nr (20.0 : 𝔻) (20.0 : ℝ) (1 / 10 ^ 15) 2 := nr_lit 2 (by norm_num) (by norm_num) (by norm_num)
  have l21 : Nr (21.0 : 𝔻) (21.0 : ℝ) (1 / 10 ^ 15) 2 := nr_lit 2 (by norm_num) (by norm_num) (by norm_num)
  have a := l20.mul n0 (5003 / 10 ^ 15) (by norm_num) (by norm_num) (by norm_num)
  have b := l20.mul n1 (5003 / 10 ^ 15) (by norm_num) (by norm_num) (by norm_num)
  have c := l21.mul n2 (5003 / 10 ^ 15) (by norm_num) (by norm_num) (by norm_num)
  have d := ((a.add b 5 (5004 / 10 ^ 15) (by norm_num) (by norm_num) (by norm_num) (by norm_num) (by norm_num) (by norm_num)).add c 6 (5005 / 10 ^ 15) (by norm_num) (by norm_num) (by norm_num) (by norm_num) (by norm_num) (by norm_num)).div l20 (56 / 10 ^ 13) (by norm_num) (by norm_num) (by norm_num)
  obtain ⟨-, u0, u1⟩ := opU_bounds h
  exact d.to _ 2 le_rfl (le_trans (by norm_num) u0) (le_trans u1 (by norm_num))

theorem nr_p (hL : L.PowOk) (hE : L.ExpOk) {argb : Int} (h : NotBlack argb) : Nr (op64 (cones64 L argb)) (opP2 (conesR argb)) (56 / 10 ^ 13) 2 := by
  obtain ⟨n0, n1, n2⟩ := nr_cones64 hL hE h
  have l20 : Nr (20.0 : 𝔻) (20.0 : ℝ) (1 / 10 ^ 15) 2 := nr_lit 2 (by norm_num) (by norm_num) (by norm_num)
  have l40 : Nr (40.0 : 𝔻) (40.0 : ℝ) (1 / 10 ^ 15) 2 := nr_lit 2 (by norm_num) (by norm_num) (by norm_num)
  have a := l40.mul n0 (5003 / 10 ^ 15) (by norm_num) (by norm_num) (by norm_num)
  have b := l20.mul n1 (5003 / 10 ^ 15) (by norm_num) (by norm_num) (by norm_num)
  have d := ((a.add b 5 (5004 / 10 ^ 15) (by norm_num) (by norm_num) (by norm_num) (by norm_num) (by norm_num) (by norm_num)).add n2 6 (5005 / 10 ^ 15) (by norm_num) (by norm_num) (by norm_num) (by norm_num) (by norm_num) (by norm_num)).div l20 (56 / 10 ^ 13) (by norm_num) (by norm_num) (by norm_num)
  obtain ⟨u0, u1⟩ := opP_bounds h
  exact d.to _ 2 le_rfl (le_trans (by norm_num) u0) (le_trans u1 (by norm_num))

theorem rho_le {argb : Int} (h : NotBlack argb) : rho (conesR argb) ≤ 2 * ((conesR argb).x0 + (conesR argb).x1 + (conesR argb).x2) := by
  obtain ⟨c0, c1, c2⟩ := cones_pos h
  unfold rho
  rw [Real.sqrt_le_left (by norm_num at c0 c1 c2; linarith)]
  have ea : opA (conesR argb) = (11.0 * (conesR argb).x0 + (-12.0) * (conesR argb).x1 + (conesR argb).x2) / 11.0 := rfl
  have eb : opB (conesR argb) = ((conesR argb).x0 + (conesR argb).x1 - 2.0 * (conesR argb).x2) / 9.0 := rfl
  rw [← pow_two, ← pow_two]
  set S := (conesR argb).x0 + (conesR argb).x1 + (conesR argb).x2 with hS
  have h1 : |opA (conesR argb)| ≤ 1.5 * S := by
    rw [ea, hS, abs_le]; norm_num at c0 c1 c2 ⊢; constructor <;> linarith
  have h2 : |opB (conesR argb)| ≤ S := by
    rw [eb, hS, abs_le]; norm_num at c0 c1 c2 ⊢; constructor <;> linarith
  have h1 := pow_le_pow_left₀ (abs_nonneg _) h1 2
  have h2 := pow_le_pow_left₀ (abs_nonneg _) h2 2
  rw [sq_abs] at h1 h2
  have : 0 ≤ S ^ 2 := sq_nonneg S
  rw [mul_pow] at h1 ⊢
  norm_num at h1 h2 ⊢
  linarith

/-! ### The distance from the axis -/

theorem nr_rho (hL : L.PowOk) (hE : L.ExpOk) {argb : Int} (h : NotBlack argb) :
    Nr (Fl.sqrt (oa64 (cones64 L argb) * oa64 (cones64 L argb) + ob64 (cones64 L argb) * ob64 (cones64 L argb))) (rho (conesR argb)) (183 / 10 ^ 8) 7 := by
  obtain ⟨v, w, iv, iw, hvw⟩ := opp_near hL hE h
  have r0 := rho_pos h
  have r1 := rho_le h
  obtain ⟨-, s1⟩ := opp_sum h
  have hr : rho (conesR argb) ≤ 90 := by linarith
  have hn := abs_norm_sub_norm_le (⟨v, w⟩ : ℂ) ⟨opA (conesR argb), opB (conesR argb)⟩
  rw [norm_rho] at hn
  have hn := abs_le.1 (hn.trans hvw)
  have en : ‖(⟨v, w⟩ : ℂ)‖ = Real.sqrt (v * v + w * w) := by
    rw [Complex.norm_eq_sqrt_sq_add_sq]; congr 1; ring
  rw [en] at hn
  have N0 : 0 ≤ v * v + w * w := add_nonneg (mul_self_nonneg v) (mul_self_nonneg w)
  have a0 := mul_self_nonneg v
  have b0 := mul_self_nonneg w
  generalize rho (conesR argb) = R at *
  have lo : 10 ^ (-7 : ℤ) ≤ Real.sqrt (v * v + w * w) := by norm_num at *; linarith
  have hi : Real.sqrt (v * v + w * w) ≤ 100 := by norm_num at *; linarith
  have N1 : 1 / 10 ^ 14 ≤ v * v + w * w := by
    rw [← Real.sq_sqrt N0]
    have := pow_le_pow_left₀ (by norm_num) lo 2
    refine le_trans (by norm_num) this
  have N2 : v * v + w * w ≤ 10 ^ 4 := by
    rw [← Real.sq_sqrt N0]
    have := pow_le_pow_left₀ (Real.sqrt_nonneg _) hi 2
    refine le_trans this (by norm_num)
  have A : Ap (oa64 (cones64 L argb) * oa64 (cones64 L argb)) (v * v) (v * v * (2 / 10 ^ 16) + 1 / 10 ^ 72) := by
    refine ap_rndS (B := v * v) (a := 0) (fun h => iv.mul iv h) (by simp) (abs_of_nonneg a0).le (le_trans (by linarith) (show (10 : ℝ) ^ 4 ≤ 10 ^ 40 by norm_num)) (by linarith)
  have B : Ap (ob64 (cones64 L argb) * ob64 (cones64 L argb)) (w * w) (w * w * (2 / 10 ^ 16) + 1 / 10 ^ 72) := by
    refine ap_rndS (B := w * w) (a := 0) (fun h => iw.mul iw h) (by simp) (abs_of_nonneg b0).le (le_trans (by linarith) (show (10 : ℝ) ^ 4 ≤ 10 ^ 40 by norm_num)) (by linarith)
  have C := A.addS B (2 * (v * v + w * w)) (1 / 10 ^ 15 * (v * v + w * w)) (by
      rw [abs_of_nonneg N0]
      generalize v * v = p at *
      generalize w * w = q at *
      norm_num at *; linarith)
    (le_trans (by linarith) (show 2 * (10 : ℝ) ^ 4 ≤ 10 ^ 40 by norm_num)) (by
      generalize v * v = p at *
      generalize w * w = q at *
      norm_num at *; linarith)
  have D := (C.nr (1 / 10 ^ 15) 14 N1 (N2.trans (by norm_num)) le_rfl).sqrt (3 / 10 ^ 15) (by norm_num) (by norm_num) (by norm_num)
  obtain ⟨u, iu, hu⟩ := D.rl
  refine ⟨⟨u, iu, ?_⟩, by norm_num, le_trans (by norm_num) r0, hr.trans (by norm_num)⟩
  have hu := abs_le.1 hu
  rw [abs_le]
  generalize Real.sqrt (v * v + w * w) = T at *
  norm_num at *
  constructor <;> linarith

/-! ### The eccentricity -/

theorem nr_ecc (hR : L.TrigOk) {hue : 𝔻} {v H : ℝ} {k : ℤ} (iv : Is hue v) (v0 : 0 ≤ v) (v1 : v ≤ 360) (hk : |v - (H + k * 360)| ≤ 168 / 10 ^ 6) :
    Nr (Fl.cos ((if hue < 20.14 then hue + 360.0 else hue) * Fl.pi / 180.0 + 2.0) + 3.8 : 𝔻) (eccentricity H) (106 / 10 ^ 8) 1 := by
  have h360 : Is (360.0 : 𝔻) 360 := by simpa using lit (L := L) 3600 1 true 360 (by norm_num) (by norm_num)
  have h180 : Is (180.0 : 𝔻) 180 := by simpa using lit (L := L) 1800 1 true 180 (by norm_num) (by norm_num)
  obtain ⟨t, it, t0, t1⟩ := in_lit (L := L) (m := 2014) (s := true) (e := 2) 20.14 (by norm_num) (by norm_num [abs_le])
  norm_num at t0 t1
  -- the hue moved up
  obtain ⟨g, k', ig, g0, g1, hg⟩ : ∃ (g : ℝ) (k' : ℤ), Is (if hue < 20.14 then hue + 360.0 else hue : 𝔻) g ∧ 0 ≤ g ∧ g ≤ 381 ∧ |g - (H + k' * 360)| ≤ 16801 / 10 ^ 8 := by
    split
    · rename_i hlt
      have hlt := (iv.lt_iff it).1 hlt
      obtain ⟨r1, r2⟩ := rnd_ok (v := v + 360) (by rw [abs_le]; constructor <;> linarith)
      refine ⟨_, k + 1, iv.add h360 r1, rnd_nonneg (by linarith), ?_, ?_⟩
      · have := abs_le.1 r2; unfold ρ at this; norm_num at *; linarith
      · have hh := (abs_add_le _ _).trans (add_le_add r2 hk)
        unfold ρ at hh
        rw [show rnd (v + 360) - (v + 360) + (v - (H + (k : ℝ) * 360)) = rnd (v + 360) - (H + ((k + 1 : ℤ) : ℝ) * 360) by push_cast; ring] at hh
        exact hh.trans (by norm_num)
    · exact ⟨v, k, iv, v0, by linarith, hk.trans (by norm_num)⟩
  generalize (if hue < 20.14 then hue + 360.0 else hue : 𝔻) = hp at *
  have pp := pi_gt_d6
  have pu := pi_lt_d6
  -- the angle
  have G : Ap (hp * Fl.pi / 180.0 + 2.0 : 𝔻) (g * π / 180 + 2) (1 / 10 ^ 13) := by
    obtain ⟨p, ip, hp'⟩ := (nr_pi (L := L)).rl
    have hp2 := abs_le.1 hp'
    have m : Ap (hp * Fl.pi : 𝔻) (g * π) (2 / 10 ^ 12) := by
      refine ap_rndS (B := 1198) (a := 381 * (4 / 10 ^ 15)) (fun h => ig.mul ip h) ?_ ?_ (by norm_num) (by norm_num)
      · rw [← mul_sub, abs_mul, abs_of_nonneg g0]
        refine mul_le_mul g1 (hp'.trans ?_) (abs_nonneg _) (by norm_num)
        norm_num at pu ⊢; linarith
      · have p0 : 0 ≤ p := by norm_num at *; linarith
        rw [abs_of_nonneg (mul_nonneg g0 p0)]
        refine (mul_le_mul g1 (show p ≤ 3.142 by norm_num at *; linarith) p0 (by norm_num)).trans (by norm_num)
    have gp : 0 ≤ g * π := mul_nonneg g0 pi_pos.le
    have gp1 : g * π ≤ 1198 := (mul_le_mul g1 (show π ≤ 3.142 by norm_num at *; linarith) pi_pos.le (by norm_num)).trans (by norm_num)
    have d : Ap (hp * Fl.pi / 180.0 : 𝔻) (g * π / 180) (2 / 10 ^ 14) := by
      obtain ⟨q, iq, hq⟩ := m
      refine ap_rndS (B := 7) (a := 2 / 10 ^ 12 / 180) (fun h => iq.div h180 (by norm_num) h) ?_ ?_ (by norm_num) (by norm_num)
      · rw [← sub_div, abs_div, abs_of_pos (show (0:ℝ) < 180 by norm_num)]; gcongr
      · have hq := abs_le.1 hq
        rw [abs_le]; constructor <;> norm_num at * <;> linarith
    have l2' : Ap (2.0 : 𝔻) 2 0 := by simpa using ap_int (L := L) (m := 20) (s := true) (e := 1) 2 (by norm_num) (by norm_num)
    refine d.addS l2' 10 _ ?_ (by norm_num) (by norm_num)
    rw [abs_of_nonneg (by positivity)]
    norm_num; linarith
  obtain ⟨a, ia, ha⟩ := G
  have gp : 0 ≤ g * π := mul_nonneg g0 pi_pos.le
  have gp1 : g * π ≤ 1198 := (mul_le_mul g1 (show π ≤ 3.142 by norm_num at *; linarith) pi_pos.le (by norm_num)).trans (by norm_num)
  have ha' := abs_le.1 ha
  obtain ⟨fc, hc, -⟩ := hR _ ia.1 (by rw [ia.2]; norm_num at *; linarith) (by rw [ia.2]; norm_num at *; linarith)
  rw [ia.2] at hc
  have C : Ap (Fl.cos (hp * Fl.pi / 180.0 + 2.0) : 𝔻) (cos (H * π / 180 + 2)) (2933 / 10 ^ 9) := by
    refine ⟨_, ⟨fc, rfl⟩, ?_⟩
    have e : cos (H * π / 180 + 2) = cos (H * π / 180 + 2 + k' * (2 * π)) := (cos_add_int_mul_two_pi _ k').symm
    rw [e]
    have h1 := abs_cos_sub_cos_le a (H * π / 180 + 2 + k' * (2 * π))
    have e2 : a - (H * π / 180 + 2 + k' * (2 * π)) = (a - (g * π / 180 + 2)) + (g - (H + k' * 360)) * (π / 180) := by ring
    rw [e2] at h1
    have h2 : |(g - (H + k' * 360)) * (π / 180)| ≤ 16801 / 10 ^ 8 * 0.01745330 := by
      rw [abs_mul, abs_of_pos (show 0 < π / 180 by positivity)]
      exact mul_le_mul hg (by norm_num at *; linarith) (by positivity) (by norm_num)
    have h3 := h1.trans ((abs_add_le _ _).trans (add_le_add ha h2))
    have h4 := (abs_add_le _ _).trans (add_le_add hc h3)
    rw [sub_add_sub_cancel] at h4
    exact h4.trans (by norm_num)
  have l38 : Ap (3.8 : 𝔻) (3.8 : ℝ) (3 / 10 ^ 13) := ap_lit_sharp (by norm_num [abs_le])
  have c0 := neg_one_le_cos (H * π / 180 + 2)
  have c1 := cos_le_one (H * π / 180 + 2)
  unfold eccentricity
  generalize cos (H * π / 180 + 2) = x at *
  have S := C.addS l38 5 (2934 / 10 ^ 9) (by rw [abs_of_pos] <;> norm_num <;> linarith) (by norm_num) (by norm_num)
  exact S.nr _ 1 (by norm_num; linarith) (by norm_num; linarith) (by norm_num; linarith)

theorem ecc_bounds (H : ℝ) : 2.8 ≤ eccentricity H ∧ eccentricity H ≤ 4.8 := by
  unfold eccentricity
  have c0 := neg_one_le_cos (H * π / 180 + 2)
  have c1 := cos_le_one (H * π / 180 + 2)
  norm_num at *
  constructor <;> linarith

/-! ### Lightness -/

theorem j_base {argb : Int} (h : NotBlack argb) : 0.002 ≤ opP2 (conesR argb) * vcR.nbb / vcR.aw ∧ opP2 (conesR argb) * vcR.nbb / vcR.aw ≤ 1.6 := by
  obtain ⟨p0, p1⟩ := opP_bounds h
  obtain ⟨n0, n1⟩ := nbbR
  obtain ⟨a0, a1⟩ := awR
  have np : 0 < vcR.nbb := lt_of_lt_of_le (by norm_num) n0
  have ap : 0 < vcR.aw := lt_of_lt_of_le (by norm_num) a0
  have q0 := mul_le_mul p0 n0 (by norm_num) (le_trans (by norm_num) p0)
  have q1 := mul_le_mul p1 n1 np.le (by norm_num)
  generalize opP2 (conesR argb) * vcR.nbb = q at *
  norm_num at *
  constructor
  · rw [le_div_iff₀ ap]; linarith
  · rw [div_le_iff₀ ap]; linarith

theorem j_bounds {argb : Int} (h : NotBlack argb) : 1 / 10 ^ 5 ≤ (opP2 (conesR argb) * vcR.nbb / vcR.aw) ^ (vcR.c * vcR.z) ∧ (opP2 (conesR argb) * vcR.nbb / vcR.aw) ^ (vcR.c * vcR.z) ≤ 3 := by
  obtain ⟨b0, b1⟩ := j_base h
  obtain ⟨e0, e1⟩ := czR
  generalize opP2 (conesR argb) * vcR.nbb / vcR.aw = x at *
  generalize vcR.c * vcR.z = e at *
  norm_num at b0 b1 e0 e1
  have xp : 0 < x := by linarith
  have x2 : x ^ (2 : ℝ) = x ^ 2 := by rw [← rpow_natCast]; norm_num
  rcases le_total x 1 with hx | hx
  · constructor
    · rcases le_total x (1/100) with h100 | h100
      · have h1 : (0.002 : ℝ) ^ e ≤ x ^ e := rpow_le_rpow (by norm_num) (by norm_num; linarith) (by linarith)
        refine le_trans ?_ h1
        have h2 : (0.002 : ℝ) ^ ((4 : ℕ) / (3 : ℕ) : ℝ) ≤ (0.002 : ℝ) ^ e := rpow_le_rpow_of_exponent_ge (by norm_num) (by norm_num) (by norm_num; linarith)
        refine le_trans ?_ h2
        exact le_rpow_of_pow_le (by norm_num) (by norm_num) (by norm_num) (by norm_num)
      · have h2 : x ^ (2 : ℝ) ≤ x ^ e := rpow_le_rpow_of_exponent_ge xp hx (by linarith)
        rw [x2] at h2
        refine le_trans ?_ h2
        nlinarith
    · exact (rpow_le_one xp.le hx (by linarith)).trans (by norm_num)
  · constructor
    · exact le_trans (by norm_num) (one_le_rpow hx (by linarith))
    · have h2 : x ^ e ≤ x ^ (2 : ℝ) := rpow_le_rpow_of_exponent_le hx (by linarith)
      rw [x2] at h2
      nlinarith

theorem nr_jbase (hL : L.PowOk) (hE : L.ExpOk) {argb : Int} (h : NotBlack argb) :
    Nr (Fl.powf (op64 (cones64 L argb) * (vc64 L).nbb / (vc64 L).aw) ((vc64 L).c * (vc64 L).z)) ((opP2 (conesR argb) * vcR.nbb / vcR.aw) ^ (vcR.c * vcR.z)) (4 / 10 ^ 11) 5 := by
  obtain ⟨b0, b1⟩ := j_base h
  obtain ⟨e0, e1⟩ := czR
  have a := (((nr_p hL hE h).mul (nr_nbb hL) (591 / 10 ^ 14) (by norm_num) (by norm_num) (by norm_num)).div (nr_aw hL hE) (132 / 10 ^ 13) (by norm_num) (by norm_num) (by norm_num)).to (132 / 10 ^ 13) 3 le_rfl
    (le_trans (by norm_num) b0) (b1.trans (by norm_num))
  have e := (nr_c.mul (nr_z (L := L)) (57 / 10 ^ 14) (by norm_num) (by norm_num) (by norm_num)).ap (8 / 10 ^ 13) (by norm_num at e1 ⊢; linarith)
  have p := a.pow hL e (4 / 10 ^ 11) (by push_cast; norm_num at e1 ⊢; linarith) (by norm_num) (by norm_num) (le_trans (by norm_num) b0) (le_trans (by norm_num) e0) (by norm_num at e1 ⊢; linarith) (by norm_num)
  obtain ⟨j0, j1⟩ := j_bounds h
  exact p.to _ 5 le_rfl j0 (j1.trans (by norm_num))

/-! ### Chroma -/

theorem nr_kappa (hL : L.PowOk) : Nr (Fl.powf (1.64 - Fl.powf 0.29 (vc64 L).backgroundYToWhitePointY) 0.73 : 𝔻) (kappaV vcR) (6 / 10 ^ 13) 1 := by
  have l29 : Nr (0.29 : 𝔻) (0.29 : ℝ) (1 / 10 ^ 15) 1 := nr_lit 1 (by norm_num) (by norm_num) (by norm_num)
  have l164 : Nr (1.64 : 𝔻) (1.64 : ℝ) (1 / 10 ^ 15) 1 := nr_lit 1 (by norm_num) (by norm_num) (by norm_num)
  have n := (nr_n (L := L)).ap (1 / 10 ^ 14) (by rw [nR]; norm_num)
  have p := l29.pow hL n (24 / 10 ^ 14) (by rw [nR]; norm_num) (by norm_num) (by norm_num) (by norm_num) (by rw [nR]; norm_num) (by rw [nR]; norm_num) (by norm_num)
  have x1 : (0.29 : ℝ) ^ vcR.backgroundYToWhitePointY ≤ 1 := rpow_le_one (by norm_num) (by norm_num) (by rw [nR]; norm_num)
  have x0 := p.pos
  unfold kappaV
  have s := l164.subS p (4 / 10 ^ 13) 1 (by norm_num; linarith) (by norm_num; linarith) (by norm_num at x1 ⊢; linarith) (by norm_num) (by norm_num) (by norm_num)
  generalize (0.29 : ℝ) ^ vcR.backgroundYToWhitePointY = x at *
  have q := s.pow hL (ap_lit_small (m := 73) (s := true) (e := 2) (by norm_num [abs_le])) (6 / 10 ^ 13) (by norm_num) (by norm_num) (by norm_num) (by norm_num; linarith) (by norm_num) (by norm_num) (by norm_num)
  have b0 : (0.6 : ℝ) ≤ 1.64 - x := by norm_num; linarith
  have b1 : 1.64 - x ≤ (2 : ℝ) := by norm_num; linarith
  refine q.to _ 1 le_rfl ?_ ?_
  · have h1 : (0.6 : ℝ) ^ (0.73 : ℝ) ≤ (1.64 - x) ^ (0.73 : ℝ) := rpow_le_rpow (by norm_num) b0 (by norm_num)
    have h2 : (0.6 : ℝ) ^ (1 : ℝ) ≤ (0.6 : ℝ) ^ (0.73 : ℝ) := rpow_le_rpow_of_exponent_ge (by norm_num) (by norm_num) (by norm_num)
    rw [rpow_one] at h2
    norm_num at h1 h2 ⊢; linarith
  · have h1 : (1.64 - x) ^ (0.73 : ℝ) ≤ (2 : ℝ) ^ (0.73 : ℝ) := rpow_le_rpow (by norm_num; linarith) b1 (by norm_num)
    have h2 : (2 : ℝ) ^ (0.73 : ℝ) ≤ (2 : ℝ) ^ (1 : ℝ) := rpow_le_rpow_of_exponent_le (by norm_num) (by norm_num)
    rw [rpow_one] at h2
    norm_num at h1 h2 ⊢; linarith

/-- The hue factor of the code. -/
noncomputable def p164 (hue : 𝔻) : 𝔻 :=
  50000.0 / 13.0 * ((1.0 / 4.0) * (Fl.cos ((if hue < 20.14 then hue + 360.0 else hue) * Fl.pi / 180.0 + 2.0) + 3.8)) * (vc64 L).nC * (vc64 L).ncb

theorem p1_bounds (H : ℝ) : 2600 ≤ 50000 / 13 * (1 / 4 * eccentricity H) * vcR.nC * vcR.ncb ∧ 50000 / 13 * (1 / 4 * eccentricity H) * vcR.nC * vcR.ncb ≤ 5000 := by
  obtain ⟨e0, e1⟩ := ecc_bounds H
  obtain ⟨n0, n1⟩ := nbbR
  have en : vcR.ncb = vcR.nbb := rfl
  rw [nCR, en]
  generalize eccentricity H = E at *
  generalize vcR.nbb = N at *
  have a := mul_le_mul e0 n0 (by norm_num) (le_trans (by norm_num) e0)
  have b := mul_le_mul e1 n1 (le_trans (by norm_num) n0) (by norm_num)
  rw [show 50000 / 13 * (1 / 4 * E) * 1 * N = 50000 / 52 * (E * N) by ring]
  norm_num at a b ⊢
  constructor <;> linarith

theorem nr_p1 (hL : L.PowOk) (hR : L.TrigOk) {hue : 𝔻} {v H : ℝ} {k : ℤ} (iv : Is hue v) (v0 : 0 ≤ v) (v1 : v ≤ 360) (hk : |v - (H + k * 360)| ≤ 168 / 10 ^ 6) :
    Nr (p164 hue) (50000 / 13 * (1 / 4 * eccentricity H) * vcR.nC * vcR.ncb) (10604 / 10 ^ 10) 4 := by
  have e := nr_ecc hR iv v0 v1 hk
  have l5 : Nr (50000.0 : 𝔻) (50000.0 : ℝ) (1 / 10 ^ 15) 5 := nr_lit 5 (by norm_num) (by norm_num) (by norm_num)
  have l13 : Nr (13.0 : 𝔻) (13.0 : ℝ) (1 / 10 ^ 15) 2 := nr_lit 2 (by norm_num) (by norm_num) (by norm_num)
  have l1' : Nr (1.0 : 𝔻) (1.0 : ℝ) (1 / 10 ^ 15) 0 := nr_lit 0 (by norm_num) (by norm_num) (by norm_num)
  have l4 : Nr (4.0 : 𝔻) (4.0 : ℝ) (1 / 10 ^ 15) 1 := nr_lit 1 (by norm_num) (by norm_num) (by norm_num)
  have a := l5.div l13 (4 / 10 ^ 15) (by norm_num) (by norm_num) (by norm_num)
  have b := (l1'.div l4 (4 / 10 ^ 15) (by norm_num) (by norm_num) (by norm_num)).mul e (10601 / 10 ^ 10) (by norm_num) (by norm_num) (by norm_num)
  have nc : Nr (vc64 L).ncb vcR.ncb (3 / 10 ^ 13) 4 := nr_nbb hL
  have d := ((a.mul b (10602 / 10 ^ 10) (by norm_num) (by norm_num) (by norm_num)).mul nr_f (10603 / 10 ^ 10) (by norm_num) (by norm_num) (by norm_num)).mul nc (10604 / 10 ^ 10) (by norm_num) (by norm_num) (by norm_num)
  have e5 : (50000.0 / 13.0 : ℝ) = 50000 / 13 := by norm_num
  have e14 : (1.0 / 4.0 : ℝ) = 1 / 4 := by norm_num
  rw [e5, e14] at d
  obtain ⟨q0, q1⟩ := p1_bounds H
  exact d.to _ 4 le_rfl (le_trans (by norm_num) q0) (q1.trans (by norm_num))

/-- The hue the code computes. -/
noncomputable def hue64 (L : Libm) (argb : Int) : F64 L := Cam16.hueDegrees (oa64 (cones64 L argb)) (ob64 (cones64 L argb))

/-- The first chroma term of the code. -/
noncomputable def t64 (L : Libm) (argb : Int) : F64 L :=
  p164 (hue64 L argb) * Fl.sqrt (oa64 (cones64 L argb) * oa64 (cones64 L argb) + ob64 (cones64 L argb) * ob64 (cones64 L argb)) / (ou64 (cones64 L argb) + 0.305)

theorem opU_ge {argb : Int} (h : NotBlack argb) : (conesR argb).x0 + (conesR argb).x1 + (conesR argb).x2 ≤ opU (conesR argb) := by
  obtain ⟨c0, c1, c2⟩ := cones_pos h
  unfold opU
  norm_num at c0 c1 c2 ⊢
  linarith

theorem t_bounds {argb : Int} (h : NotBlack argb) : 0.001 ≤ tTerm (conesR argb) vcR ∧ tTerm (conesR argb) vcR ≤ 10 ^ 4 := by
  obtain ⟨q0, q1⟩ := p1_bounds (Cam16.hueDegrees (opA (conesR argb)) (opB (conesR argb)))
  obtain ⟨u0, -, -⟩ := opU_bounds h
  have u1 := opU_ge h
  have r0 := rho_ge h
  have r1 := rho_le h
  obtain ⟨s0, s1⟩ := opp_sum h
  unfold tTerm
  generalize 50000 / 13 * (1 / 4 * eccentricity (Cam16.hueDegrees (opA (conesR argb)) (opB (conesR argb)))) * vcR.nC * vcR.ncb = P at *
  generalize opU (conesR argb) = U at *
  generalize rho (conesR argb) = R at *
  generalize (conesR argb).x0 + (conesR argb).x1 + (conesR argb).x2 = S at *
  have a := mul_le_mul q0 r0 (by positivity) (by linarith)
  have b := mul_le_mul q1 r1 (le_trans (by positivity) r0) (by norm_num)
  generalize P * R = M at *
  norm_num at *
  constructor
  · rw [le_div_iff₀ (by linarith)]; linarith
  · rw [div_le_iff₀ (by linarith)]; linarith

theorem nr_t (hS : L.Sound) (hT : L.TempOk) {argb : Int} (h : NotBlack argb) : Nr (t64 L argb) (tTerm (conesR argb) vcR) (318 / 10 ^ 8) 4 := by
  obtain ⟨v, k, iv, v0, v1, hk⟩ := hue_near hS hT h
  have p := nr_p1 hS.pow hS.trig iv v0 v1 hk
  have r := nr_rho hS.pow hS.exp h
  have l3 : Nr (0.305 : 𝔻) (0.305 : ℝ) (1 / 10 ^ 15) 1 := nr_lit 1 (by norm_num) (by norm_num) (by norm_num)
  have u := (nr_u hS.pow hS.exp h).add l3 3 (57 / 10 ^ 13) (by norm_num) (by norm_num) (by norm_num) (by norm_num) (by norm_num) (by norm_num)
  have d := (p.mul r (28905 / 10 ^ 10) (by norm_num) (by norm_num) (by norm_num)).div u (318 / 10 ^ 8) (by norm_num) (by norm_num) (by norm_num)
  obtain ⟨t0, t1⟩ := t_bounds h
  exact d.to _ 4 le_rfl (le_trans (by norm_num) t0) (t1.trans (by norm_num))

/-- The second chroma term of the code. -/
noncomputable def alpha64 (L : Libm) (argb : Int) : F64 L :=
  Fl.powf (t64 L argb) 0.9 * Fl.powf (1.64 - Fl.powf 0.29 (vc64 L).backgroundYToWhitePointY) 0.73

theorem nr_alpha (hS : L.Sound) (hT : L.TempOk) {argb : Int} (h : NotBlack argb) : Nr (alpha64 L argb) (alphaTerm (conesR argb) vcR) (379 / 10 ^ 8) 6 := by
  obtain ⟨t0, t1⟩ := t_bounds h
  have p := (nr_t hS hT h).pow hS.pow (ap_lit_small (m := 9) (s := true) (e := 1) (by norm_num [abs_le])) (378 / 10 ^ 8) (by norm_num) (by norm_num) (by norm_num) (le_trans (by norm_num) t0) (by norm_num) (by norm_num) (by norm_num)
  have tp : 0 < tTerm (conesR argb) vcR := lt_of_lt_of_le (by norm_num) t0
  have b : 1 / 10 ^ 5 ≤ tTerm (conesR argb) vcR ^ (0.9 : ℝ) ∧ tTerm (conesR argb) vcR ^ (0.9 : ℝ) ≤ 10 ^ 5 := by
    generalize tTerm (conesR argb) vcR = t at *
    rcases le_total t 1 with h1 | h1
    · have := rpow_le_rpow_of_exponent_ge tp h1 (show (0.9 : ℝ) ≤ 1 by norm_num)
      rw [rpow_one] at this
      exact ⟨le_trans (le_trans (by norm_num) t0) this, (rpow_le_one tp.le h1 (by norm_num)).trans (by norm_num)⟩
    · have := rpow_le_rpow_of_exponent_le h1 (show (0.9 : ℝ) ≤ 1 by norm_num)
      rw [rpow_one] at this
      exact ⟨le_trans (by norm_num) (one_le_rpow h1 (by norm_num)), this.trans (t1.trans (by norm_num))⟩
  exact (p.to _ 5 le_rfl b.1 b.2).mul (nr_kappa hS.pow) _ (by norm_num) (by norm_num) (by norm_num)

/-- The lightness of the code. -/
noncomputable def j64 (L : Libm) (argb : Int) : F64 L :=
  100.0 * Fl.powf (op64 (cones64 L argb) * (vc64 L).nbb / (vc64 L).aw) ((vc64 L).c * (vc64 L).z)

/-- The exact lightness. -/
noncomputable def jR (argb : Int) : ℝ := 100.0 * (opP2 (conesR argb) * vcR.nbb / vcR.aw) ^ (vcR.c * vcR.z)

theorem nr_j (hL : L.PowOk) (hE : L.ExpOk) {argb : Int} (h : NotBlack argb) : Nr (j64 L argb) (jR argb) (41 / 10 ^ 12) 7 :=
  (nr_lit (L := L) (m := 1000) (s := true) (e := 1) 2 (by norm_num) (by norm_num) (by norm_num)).mul (nr_jbase hL hE h) _ (by norm_num) (by norm_num) (by norm_num)

theorem nr_rootJ (hL : L.PowOk) (hE : L.ExpOk) {argb : Int} (h : NotBlack argb) : Nr (Fl.sqrt (j64 L argb / 100.0)) (Real.sqrt (jR argb / 100.0)) (47 / 10 ^ 12) 9 :=
  ((nr_j hL hE h).div (nr_lit (L := L) (m := 1000) (s := true) (e := 1) 2 (by norm_num) (by norm_num) (by norm_num)) (46 / 10 ^ 12) (by norm_num) (by norm_num) (by norm_num)).sqrt _ (by norm_num) (by norm_num) (by norm_num)

/-! ### All coordinates -/

theorem cam_s {x y z : ℝ} {vc : ViewingConditions ℝ} : (Cam16.fromXyzInViewingConditions x y z vc).s =
    50.0 * Real.sqrt (alphaTerm (Cam16.adaptedCones x y z vc) vc * vc.c / (vc.aw + 4.0)) := by
  have e : eccentricity (Cam16.hueDegrees (opA (Cam16.adaptedCones x y z vc)) (opB (Cam16.adaptedCones x y z vc))) =
      Real.cos ((if Cam16.hueDegrees (opA (Cam16.adaptedCones x y z vc)) (opB (Cam16.adaptedCones x y z vc)) < 20.14 then
        Cam16.hueDegrees (opA (Cam16.adaptedCones x y z vc)) (opB (Cam16.adaptedCones x y z vc)) + 360.0 else
        Cam16.hueDegrees (opA (Cam16.adaptedCones x y z vc)) (opB (Cam16.adaptedCones x y z vc))) * π / 180.0 + 2.0) + 3.8 := by
    generalize Cam16.hueDegrees (opA (Cam16.adaptedCones x y z vc)) (opB (Cam16.adaptedCones x y z vc)) = h
    unfold eccentricity
    have e2 : (2.0 : ℝ) = 2 := by norm_num
    have e180 : (180.0 : ℝ) = 180 := by norm_num
    have e360 : (360.0 : ℝ) = 360 := by norm_num
    rw [e2, e180, e360]
    split
    · rw [show (h + 360) * π / 180 + 2 = (h * π / 180 + 2) + 2 * π by ring, Real.cos_add_two_pi]
    · rfl
  have e5 : (50000.0 / 13.0 : ℝ) = 50000 / 13 := by norm_num
  have e14 : (1.0 / 4.0 : ℝ) = 1 / 4 := by norm_num
  unfold alphaTerm tTerm kappaV
  rw [e, ← e5, ← e14]
  rfl

/-- All the coordinates of a colour other than black. -/
theorem cam_near (hS : L.Sound) (hT : L.TempOk) {argb : Int} (h : NotBlack argb) : let k : Cam16 𝔻 := Cam16.fromInt argb
    let e : Cam16 ℝ := Cam16.fromInt argb
    (∃ (v : ℝ) (n : ℤ), Is k.hue v ∧ 0 ≤ v ∧ v ≤ 360 ∧ |v - (e.hue + n * 360)| ≤ 168 / 10 ^ 6) ∧ Nr k.chroma e.chroma (38 / 10 ^ 7) 15 ∧ Nr k.j e.j (41 / 10 ^ 12) 7 ∧
    Nr k.q e.q (1 / 10 ^ 10) 30 ∧ Nr k.m e.m (381 / 10 ^ 8) 18 ∧ Nr k.s e.s (42 / 10 ^ 7) 25 := by
  intro k e
  have eh : k.hue = hue64 L argb := rfl
  have ej : k.j = j64 L argb := rfl
  have ec : k.chroma = alpha64 L argb * Fl.sqrt (j64 L argb / 100.0) := rfl
  have em : k.m = alpha64 L argb * Fl.sqrt (j64 L argb / 100.0) * (vc64 L).fLroot := rfl
  have eq : k.q = (4.0 / (vc64 L).c) * Fl.sqrt (j64 L argb / 100.0) * ((vc64 L).aw + 4.0) * (vc64 L).fLroot := rfl
  have es : k.s = 50.0 * Fl.sqrt ((alpha64 L argb * (vc64 L).c) / ((vc64 L).aw + 4.0)) := rfl
  have eh' : e.hue = Cam16.hueDegrees (opA (conesR argb)) (opB (conesR argb)) := rfl
  have ej' : e.j = jR argb := rfl
  have ec' : e.chroma = alphaTerm (conesR argb) vcR * Real.sqrt (jR argb / 100.0) := cam_chroma
  have em' : e.m = e.chroma * vcR.fLroot := rfl
  have eq' : e.q = (4.0 / vcR.c) * Real.sqrt (jR argb / 100.0) * (vcR.aw + 4.0) * vcR.fLroot := rfl
  have es' : e.s = 50.0 * Real.sqrt (alphaTerm (conesR argb) vcR * vcR.c / (vcR.aw + 4.0)) := cam_s
  rw [eh, ej, ec, em, eq, es, eh', ej', em', ec', eq', es']
  have al := nr_alpha hS hT h
  have rj := nr_rootJ hS.pow hS.exp h
  have ch := al.mul rj (38 / 10 ^ 7) (by norm_num) (by norm_num) (by norm_num)
  have l4 : Nr (4.0 : 𝔻) (4.0 : ℝ) (1 / 10 ^ 15) 1 := nr_lit 1 (by norm_num) (by norm_num) (by norm_num)
  have l50 : Nr (50.0 : 𝔻) (50.0 : ℝ) (1 / 10 ^ 15) 2 := nr_lit 2 (by norm_num) (by norm_num) (by norm_num)
  obtain ⟨a0, a1⟩ := awR
  have aw := (nr_aw hS.pow hS.exp).to (6 / 10 ^ 12) 2 le_rfl (le_trans (by norm_num) a0) (a1.trans (by norm_num))
  have aw4 := aw.add l4 3 (7 / 10 ^ 12) (by norm_num) (by norm_num) (by norm_num) (by norm_num) (by norm_num) (by norm_num)
  refine ⟨hue_near hS hT h, ch, nr_j hS.pow hS.exp h, ?_, ?_, ?_⟩
  · have q1 := l4.div (nr_c (L := L)) (6 / 10 ^ 13) (by norm_num) (by norm_num) (by norm_num)
    have q2 := ((q1.mul rj (48 / 10 ^ 12) (by norm_num) (by norm_num) (by norm_num)).mul aw4 (56 / 10 ^ 12) (by norm_num) (by norm_num) (by norm_num)).mul (nr_fLroot hS.pow) (1 / 10 ^ 10) (by norm_num) (by norm_num) (by norm_num)
    exact ⟨q2.rl, q2.e0, (inv_ten_le (by norm_num)).trans q2.lo, q2.hi.trans (ten_pow_le (by norm_num))⟩
  · exact ch.mul (nr_fLroot hS.pow) _ (by norm_num) (by norm_num) (by norm_num)
  · have s := l50.mul (((al.mul (nr_c (L := L)) (3791 / 10 ^ 9) (by norm_num) (by norm_num) (by norm_num)).div aw4 (418 / 10 ^ 8) (by norm_num) (by norm_num) (by norm_num)).sqrt (419 / 10 ^ 8) (by norm_num) (by norm_num) (by norm_num))
      (42 / 10 ^ 7) (by norm_num) (by norm_num) (by norm_num)
    exact ⟨s.rl, s.e0, (inv_ten_le (by norm_num)).trans s.lo, s.hi.trans (ten_pow_le (by norm_num))⟩

end Mcu.Lemmas
