import Verif.Lemmas.F64BackPoint

/-! CAM16 coordinates close to those computed for a colour, in IEEE-754 binary64: the cone responses computed back from them are
close to those of the colour. -/

namespace Mcu.Lemmas

open Mcu.Ieee Props Props.Binary64 MathUtils ColorUtils HctSolver Real

variable {L : Libm}

local notation "𝔻" => F64 L

/-- Coordinates close to those the code computes for a colour. -/
structure CloseTo (L : Libm) (argb : Int) (c : Cam16 (F64 L)) : Prop where
  j : ∃ a, Is c.j a ∧ |a - Dbl.val (j64 L argb)| ≤ 5 / 10 ^ 9 * Dbl.val (j64 L argb)
  chroma : ∃ x, Is c.chroma x ∧ |x - Dbl.val (chr64 L argb)| ≤ 2 / 10 ^ 8 * Dbl.val (chr64 L argb)
  hue : ∃ (H' H : ℝ) (k : ℤ), Is c.hue H' ∧ Is (hue64 L argb) H ∧ 0 ≤ H' ∧ H' ≤ 361 ∧ |H' * (π / 180) - (H * (π / 180) + k * (2 * π))| ≤ 2.8 / 10 ^ 8

/-- The hue in radians, as the conversion to XYZ computes it. -/
noncomputable def radOf (c : Cam16 𝔻) : 𝔻 := c.hue * Fl.pi / 180.0

theorem rad_of {h : 𝔻} {H : ℝ} (ih : Is h H) (h0 : 0 ≤ H) (h1 : H ≤ 361) : ∃ r, Is (h * Fl.pi / 180.0 : 𝔻) r ∧ 0 ≤ r ∧ r ≤ 7 ∧ |r - H * (π / 180)| ≤ 1 / 10 ^ 13 := by
  have hp := pi_pos
  have hu6 := pi_lt_d6
  have l180 : Is (180.0 : 𝔻) 180 := by simpa using lit (L := L) 1800 1 true 180 (by norm_num) (by norm_num)
  have p : Ap (Fl.pi : 𝔻) π (3.15 / 10 ^ 15) := (nr_pi (L := L)).ap _ (by norm_num at *; linarith)
  obtain ⟨ϖ, iϖ, hϖ⟩ := p
  have eϖ := abs_le.1 hϖ
  have ϖ0 : 0 ≤ ϖ := by have := pi_gt_three; norm_num at eϖ; linarith
  have m0 : 0 ≤ H * ϖ := mul_nonneg h0 ϖ0
  have m1 : H * ϖ ≤ 361 * 3.1416 := mul_le_mul h1 (by norm_num at *; linarith) ϖ0 (by norm_num)
  have r1 := rnd_any (H * ϖ)
  rw [abs_of_nonneg m0] at r1
  have i1 := ih.mul iϖ (rnd_huge (by rw [abs_of_nonneg m0]; exact m1.trans (by norm_num)))
  have n1 : 0 ≤ rnd (H * ϖ) := rnd_nonneg m0
  have d1 : |rnd (H * ϖ) - H * π| ≤ 2 / 10 ^ 12 := by
    have := mul_le_mul h1 hϖ (abs_nonneg _) (by norm_num)
    have e : |H * ϖ - H * π| = H * |ϖ - π| := by rw [← mul_sub, abs_mul, abs_of_nonneg h0]
    have t := abs_add_le (rnd (H * ϖ) - H * ϖ) (H * ϖ - H * π)
    rw [sub_add_sub_cancel, e] at t
    norm_num at *; linarith
  generalize rnd (H * ϖ) = w at *
  have wu : w ≤ 1200 := by
    have := (abs_le.1 d1).2
    have := mul_le_mul h1 hu6.le hp.le (by norm_num)
    norm_num at *; linarith
  have q0 : 0 ≤ w / 180 := by positivity
  have r2 := rnd_any (w / 180)
  rw [abs_of_nonneg q0] at r2
  refine ⟨_, i1.div l180 (by norm_num) (rnd_huge (by rw [abs_of_nonneg q0]; refine le_trans (show w / 180 ≤ 10 by linarith) (by norm_num))), rnd_nonneg q0, ?_, ?_⟩
  · have := (abs_le.1 r2).2; norm_num at *; linarith
  · have d2 : |w / 180 - H * (π / 180)| ≤ 2 / 10 ^ 12 / 180 := by
      rw [show w / 180 - H * (π / 180) = (w - H * π) / 180 by ring, abs_div, abs_of_pos (show (0 : ℝ) < 180 by norm_num)]
      exact div_le_div_of_nonneg_right d1 (by norm_num)
    have t := abs_add_le (rnd (w / 180) - w / 180) (w / 180 - H * (π / 180))
    rw [sub_add_sub_cancel] at t
    norm_num at *; linarith

theorem p1_near (hL : L.PowOk) (hR : L.TrigOk) {hr : 𝔻} {r H : ℝ} {m : ℤ} (ir : Is hr r) (r0 : 0 ≤ r) (r1 : r ≤ 7) (h : |r - (H * (π / 180) + m * (2 * π))| ≤ 2.9 / 10 ^ 8) :
    Nr (p1Of hr) (p1R L H) (1.2 / 10 ^ 8) 11 := by
  have l2' : Ap (2.0 : 𝔻) 2 0 := by simpa using ap_int (L := L) (m := 20) (s := true) (e := 1) 2 (by norm_num) (by norm_num)
  have hx : Ap (hr + 2.0) (r + 2) (3 / 10 ^ 14) := (show Ap hr r 0 from ⟨r, ir, by simp⟩).addS l2' 10 _ (by rw [abs_of_nonneg (by positivity)]; linarith) (by norm_num) (by norm_num)
  have e : Nr (Fl.cos (hr + 2.0) + 3.8 : 𝔻) (eccentricity H) (1.1 / 10 ^ 8) 1 := by
    obtain ⟨a, ia, ha⟩ := hx
    have ha' := abs_le.1 ha
    obtain ⟨fc, hc, -⟩ := hR _ ia.1 (by rw [ia.2]; norm_num at *; linarith) (by rw [ia.2]; norm_num at *; linarith)
    rw [ia.2] at hc
    have C : Ap (Fl.cos (hr + 2.0) : 𝔻) (cos (H * π / 180 + 2)) (2.95 / 10 ^ 8) := by
      refine ⟨_, ⟨fc, rfl⟩, ?_⟩
      have e : cos (H * π / 180 + 2) = cos (H * π / 180 + 2 + m * (2 * π)) := (cos_add_int_mul_two_pi _ m).symm
      rw [e]
      have h1 := abs_cos_sub_cos_le a (H * π / 180 + 2 + m * (2 * π))
      have h2 : |r + 2 - (H * π / 180 + 2 + m * (2 * π))| ≤ 2.9 / 10 ^ 8 := by
        rw [show r + 2 - (H * π / 180 + 2 + m * (2 * π)) = r - (H * (π / 180) + m * (2 * π)) by ring]; exact h
      have h3 := h1.trans ((abs_sub_le _ (r + 2) _).trans (add_le_add ha h2))
      have h4 := (abs_add_le _ _).trans (add_le_add hc h3)
      rw [sub_add_sub_cancel] at h4
      exact h4.trans (by norm_num)
    have l38 : Ap (3.8 : 𝔻) (3.8 : ℝ) (3.8 / 10 ^ 15) := (nr_lit (L := L) (m := 38) (s := true) (e := 1) 1 (by norm_num) (by norm_num) (by norm_num)).ap _ (by norm_num)
    have c0 := neg_one_le_cos (H * π / 180 + 2)
    have c1 := cos_le_one (H * π / 180 + 2)
    unfold eccentricity
    generalize cos (H * π / 180 + 2) = x at *
    have S := C.addS l38 5 (2.96 / 10 ^ 8) (by rw [abs_of_pos] <;> norm_num <;> linarith) (by norm_num) (by norm_num)
    exact S.nr _ 1 (by norm_num; linarith) (by norm_num; linarith) (by norm_num; linarith)
  have l5 : Nr (50000.0 : 𝔻) (50000.0 : ℝ) (1 / 10 ^ 15) 5 := nr_lit 5 (by norm_num) (by norm_num) (by norm_num)
  have l13 : Nr (13.0 : 𝔻) (13.0 : ℝ) (1 / 10 ^ 15) 2 := nr_lit 2 (by norm_num) (by norm_num) (by norm_num)
  have l4 : Nr (0.25 : 𝔻) (0.25 : ℝ) (1 / 10 ^ 15) 1 := nr_lit 1 (by norm_num) (by norm_num) (by norm_num)
  have a := l5.div l13 (4 / 10 ^ 15) (by norm_num) (by norm_num) (by norm_num)
  have b := l4.mul e (1.12 / 10 ^ 8) (by norm_num) (by norm_num) (by norm_num)
  have d := ((b.mul a (1.14 / 10 ^ 8) (by norm_num) (by norm_num) (by norm_num)).mul nC_nr (1.16 / 10 ^ 8) (by norm_num) (by norm_num) (by norm_num)).mul (ncb_nr hL) (1.2 / 10 ^ 8) (by norm_num) (by norm_num) (by norm_num)
  have e5 : (0.25 : ℝ) * eccentricity H * (50000.0 / 13.0) * Dbl.val (vc64 L).nC * Dbl.val (vc64 L).ncb = p1R L H := by
    unfold p1R
    generalize Dbl.val (vc64 L).nC = a
    generalize Dbl.val (vc64 L).ncb = b
    generalize eccentricity H = c
    rw [show (0.25 : ℝ) = 1 / 4 by norm_num, show (50000.0 / 13.0 : ℝ) = 50000 / 13 by norm_num]
    ring
  rw [e5] at d
  exact d

/-- The achromatic response and the saturation term at a lightness and chroma close to the computed ones. -/
theorem terms_near (hS : L.Sound) (hT : L.TempOk) {argb : Int} (h : NotBlack argb) {hr C : 𝔻} {a : ℝ} (ih : In hr 0 7) (st : Setting hr C)
    (ha : |a - Dbl.val (j64 L argb)| ≤ 5 / 10 ^ 9 * Dbl.val (j64 L argb)) (hC : |Dbl.val C - Dbl.val (chr64 L argb)| ≤ 2 / 10 ^ 8 * Dbl.val (chr64 L argb))
    (it : Is (t64 L argb) (Dbl.val (t64 L argb))) (t0 : 0.003 ≤ Dbl.val (t64 L argb)) (t1 : Dbl.val (t64 L argb) ≤ 10001) :
    |(ray64 hr C).P (log a) - opP2 (conesV L argb)| ≤ 4 / 10 ^ 9 * opP2 (conesV L argb) ∧ |(ray64 hr C).T (log a) - Dbl.val (t64 L argb)| ≤ 3 / 10 ^ 8 * Dbl.val (t64 L argb) := by
  have hL := hS.pow
  have hE := hS.exp
  obtain ⟨ij, j0, j1⟩ := j_any hL hE h
  obtain ⟨iC, C0, C1⟩ := chroma_self hS hT h
  have st0 : Setting hr (chr64 L argb) := setting_of hL hS.trig ih iC.1 (le_trans (by norm_num) C0) (C1.trans (by norm_num))
  have hPP := P_self hL hE h (hr := hr) (C := C)
  have hTT := T_self hS hT h st0 it t0 t1
  have jp : 0 < Dbl.val (j64 L argb) := by norm_num at j0; linarith
  have ap : 0 < a := by have := abs_le.1 ha; norm_num at this; linarith
  have ha1 : |a / 100 - Dbl.val (j64 L argb) / 100| ≤ 5 / 10 ^ 9 * (Dbl.val (j64 L argb) / 100) := by
    rw [← sub_div, abs_div, abs_of_pos (show (0 : ℝ) < 100 by norm_num), div_le_iff₀ (by norm_num)]
    linarith
  have hq : 0.7591 ≤ (ray64 hr C).q ∧ (ray64 hr C).q ≤ 0.7592 := by
    have iq : Is (qOf L) (ray64 hr C).q := ⟨(in_q (L := L)).choose_spec.1.1, rfl⟩
    obtain ⟨q, iq', q1, q2⟩ := in_q (L := L)
    rw [iq.unique iq']; exact ⟨q1, q2⟩
  have p0 : 0 < opP2 (conesV L argb) := by
    have s := sound_cones hL hE h
    obtain ⟨-, -, -, y0, y1, z1', z2', z3', z4'⟩ := s
    unfold opP2; norm_num at *; linarith
  constructor
  · rw [ray64_P hr C jp] at hPP
    rw [ray64_P hr C ap]
    have w0 : 0 < wRatio L := by have := (wRatio_bounds hL hE).1; norm_num at this; linarith
    have := rpow_tiny (w := (ray64 hr C).q) (e := (ray64 hr C).q) (δ := 0) (M := |log (Dbl.val (j64 L argb) / 100)|) (η := 3.82 / 10 ^ 9) (by positivity) ha1 (by simp)
      (by norm_num at hq; linarith [hq.1]) (by norm_num) le_rfl (by norm_num at hq ⊢; linarith [hq.2]) (by norm_num)
    generalize (a / 100) ^ (ray64 hr C).q = x at *
    have y0 : 0 < (Dbl.val (j64 L argb) / 100) ^ (ray64 hr C).q := by positivity
    generalize (Dbl.val (j64 L argb) / 100) ^ (ray64 hr C).q = y at *
    have m : |wRatio L * x - wRatio L * y| ≤ 3.83 / 10 ^ 9 * (wRatio L * y) := by
      rw [← mul_sub, abs_mul, abs_of_pos w0]
      refine (mul_le_mul_of_nonneg_left this w0.le).trans ?_
      rw [mul_left_comm]
      exact mul_le_mul_of_nonneg_right (by norm_num) (by positivity)
    exact rel_trans m hPP p0 (by norm_num) (by norm_num)
  · rw [ray64_T hL st0 jp] at hTT
    rw [ray64_T hL st ap]
    have s1 := rpow_tiny (w := 1 / 2) (e := 1 / 2) (δ := 0) (M := |log (Dbl.val (j64 L argb) / 100)|) (η := 2.51 / 10 ^ 9) (by positivity) ha1 (by simp)
      (by norm_num) (by norm_num) le_rfl (by norm_num) (by norm_num)
    rw [← Real.sqrt_eq_rpow, ← Real.sqrt_eq_rpow] at s1
    have x0 : 0 < Real.sqrt (Dbl.val (j64 L argb) / 100) := Real.sqrt_pos.2 (by positivity)
    generalize Real.sqrt (a / 100) = x at *
    generalize Real.sqrt (Dbl.val (j64 L argb) / 100) = y at *
    have c0 : 0 < Dbl.val (chr64 L argb) := lt_of_lt_of_le (by norm_num) C0
    have k0 : 0 < Dbl.val (kOf L) := by
      obtain ⟨k, ik, k1, -⟩ := in_k hL
      rw [ik.2]; linarith
    have d := rel_div hC s1 c0 x0 (by norm_num) (η := 2.26 / 10 ^ 8) (by norm_num)
    have m := rel_mul d (show |Dbl.val (kOf L) - Dbl.val (kOf L)| ≤ 0 * Dbl.val (kOf L) by simp) (by positivity) k0 (η := 2.26 / 10 ^ 8) (by norm_num)
    have e := rpow_tiny (w := 1 / 0.9) (e := 1 / 0.9) (δ := 0) (M := |log (Dbl.val (chr64 L argb) / y * Dbl.val (kOf L))|) (η := 2.53 / 10 ^ 8) (by positivity) m (by simp)
      (by norm_num) (by norm_num) le_rfl (by norm_num) (by norm_num)
    exact rel_trans e hTT (lt_of_lt_of_le (by norm_num) t0) (by norm_num) (by norm_num)

set_option maxHeartbeats 800000 in
theorem back_fine (hS : L.Sound) (hT : L.TempOk) {argb : Int} (h : NotBlack argb) {c : Cam16 𝔻} (hc : CloseTo L argb c) :
    Fine (radOf c) c.chroma ∧ ∃ a, Is c.j a ∧ 0.2 ≤ a ∧ a ≤ 102 ∧ (ray64 (radOf c) c.chroma).Here (log a) ∧
    |(ray64 (radOf c) c.chroma).Ar (log a) - (conesR argb).x0| ≤ 6 / 10 ^ 8 * (conesR argb).x0 ∧
    |(ray64 (radOf c) c.chroma).Ag (log a) - (conesR argb).x1| ≤ 8 / 10 ^ 8 * (conesR argb).x1 ∧
    |(ray64 (radOf c) c.chroma).Ab (log a) - (conesR argb).x2| ≤ 7 / 10 ^ 7 * (conesR argb).x2 := by
  have hL := hS.pow
  have hE := hS.exp
  obtain ⟨a, ia, ha⟩ := hc.j
  obtain ⟨x, ix, hx⟩ := hc.chroma
  obtain ⟨H', H, k, iH', iH, H'0, H'1, eH'⟩ := hc.hue
  obtain ⟨r, ir, r0, r1, er⟩ := rad_of iH' H'0 H'1
  have ir : Is (radOf c) r := ir
  have s := sound_cones hL hE h
  obtain ⟨u, iu, hu⟩ := s.oa
  obtain ⟨v, iv, hv⟩ := s.ob
  have ρ0 : 0 < rhoV L argb := (rho_sharp hL hE h).pos
  have eρ : rhoV L argb = Real.sqrt (u * u + v * v) := by unfold rhoV; rw [iu.2, iv.2]
  have z0 : ¬ (u = 0 ∧ v = 0) := by
    rintro ⟨rfl, rfl⟩
    rw [eρ] at ρ0; simp at ρ0
  obtain ⟨H2, k2, iH2, H0, H1, eH⟩ := hue_chain hS hT iu iv z0
  have iH2 : Is (hue64 L argb) H2 := iH2
  obtain rfl := iH.unique iH2
  obtain ⟨ij, j0, j1⟩ := j_any hL hE h
  obtain ⟨iC, C0, C1⟩ := chroma_self hS hT h
  have hx' := abs_le.1 hx
  have x0 : 1 / 10 ^ 4 ≤ x := by norm_num at *; linarith
  have C2 : Dbl.val (chr64 L argb) ≤ 800 := by
    obtain ⟨-, e, -⟩ := cam_near hS hT h
    obtain ⟨-, e⟩ := e.val
    have c1 := chroma_le h
    have e := abs_le.1 e
    change _ ≤ Dbl.val (chr64 L argb) - _ ∧ Dbl.val (chr64 L argb) - _ ≤ _ at e
    norm_num at *; linarith
  have x1 : x ≤ 1000 := by norm_num at *; linarith
  have ex : Dbl.val c.chroma = x := ix.2
  have st : Setting (radOf c) c.chroma := setting_of hL hS.trig ⟨r, ir, r0, r1⟩ ix.1 (by rw [ex]; exact le_trans (by norm_num) x0) (by rw [ex]; exact x1.trans (by norm_num))
  have fine : Fine (radOf c) c.chroma := { st with lo := by rw [ex]; exact x0, hi := by rw [ex]; exact x1 }
  refine ⟨fine, a, ia, ?_, ?_, ?_⟩
  · have := abs_le.1 ha; norm_num at *; linarith
  · have := abs_le.1 ha; norm_num at *; linarith
  obtain ⟨it, ⟨t0, t1⟩, et⟩ := t_sharp hS hT h iH H0 H1
  obtain ⟨hPP, hTT⟩ := terms_near hS hT h ⟨r, ir, r0, r1⟩ st ha (by rw [ex]; exact hx) it t0 t1
  have er2 : |r - (H * (π / 180) + k * (2 * π))| ≤ 2.85 / 10 ^ 8 := by
    have e1 := abs_le.1 er
    have e2 := abs_le.1 eH'
    rw [abs_le]; norm_num at e1 e2 ⊢; constructor <;> linarith
  have hq := p1_near hL hS.trig ir r0 r1 (er2.trans (by norm_num))
  obtain ⟨pc, ps⟩ := polar_chain (C := c.chroma) hS.trig ir r0 r1 (x := u) (y := v) (δ := 2.9 / 10 ^ 8) (k := k2 + k) (by
    have e1 := abs_le.1 eH
    have e2 := abs_le.1 er2
    push_cast
    rw [abs_le]
    norm_num at e1 e2 ⊢
    constructor <;> linarith)
  have ρp : 0 ≤ Real.sqrt (u * u + v * v) := Real.sqrt_nonneg _
  rw [← eρ] at pc ps ρp
  obtain ⟨d0, a0, a1, a2⟩ := back_point (lt_of_lt_of_le (by norm_num) s.y0) s.r_lo s.r_hi s.b_lo s.b_hi hu hv eρ ρ0
    (pc.trans (mul_le_mul_of_nonneg_right (by norm_num) ρp)) (ps.trans (mul_le_mul_of_nonneg_right (by norm_num) ρp)) hPP hTT et hq.pos hq.val.2
  obtain ⟨n0, n1, n2⟩ := nr_cones64 hL hE h
  have c0 := n0.val.2; have c1 := n1.val.2; have c2 := n2.val.2
  obtain ⟨g0, g1, g2⟩ := cones_ge h
  have g := near_slack h
  have pw := opP_le argb
  unfold opP2 at pw
  simp only [conesV, opP2] at hPP a0 a1 a2
  have cc0 := abs_le.1 c0; have cc1 := abs_le.1 c1; have cc2 := abs_le.1 c2
  have aa0 := abs_le.1 a0; have aa1 := abs_le.1 a1; have aa2 := abs_le.1 a2
  have pp := abs_le.1 hPP
  have ok := st.ok hL hE
  clear a0 a1 a2 c0 c1 c2 hPP hTT pc ps hq n0 n1 n2 et it t0 t1 er er2 eH eH' hu hv s
  have key : NearGamut ((ray64 (radOf c) c.chroma).Ar (log a)) ((ray64 (radOf c) c.chroma).Ag (log a)) ((ray64 (radOf c) c.chroma).Ab (log a)) ∧ (ray64 (radOf c) c.chroma).P (log a) ≤ 40 ∧
      |(ray64 (radOf c) c.chroma).Ar (log a) - (conesR argb).x0| ≤ 6 / 10 ^ 8 * (conesR argb).x0 ∧
      |(ray64 (radOf c) c.chroma).Ag (log a) - (conesR argb).x1| ≤ 8 / 10 ^ 8 * (conesR argb).x1 ∧
      |(ray64 (radOf c) c.chroma).Ab (log a) - (conesR argb).x2| ≤ 7 / 10 ^ 7 * (conesR argb).x2 := by
    generalize (ray64 (radOf c) c.chroma).Ar (log a) = A at *
    generalize (ray64 (radOf c) c.chroma).Ag (log a) = B at *
    generalize (ray64 (radOf c) c.chroma).Ab (log a) = D at *
    generalize (ray64 (radOf c) c.chroma).P (log a) = P at *
    generalize (conesR argb).x0 = X at *
    generalize (conesR argb).x1 = Y at *
    generalize (conesR argb).x2 = Z at *
    generalize Dbl.val (cones64 L argb).x0 = X' at *
    generalize Dbl.val (cones64 L argb).x1 = Y' at *
    generalize Dbl.val (cones64 L argb).x2 = Z' at *
    norm_num at cc0 cc1 cc2 aa0 aa1 aa2 pp pw g g0 g1 g2
    obtain ⟨l1, l2, l3, l4⟩ := g
    obtain ⟨cc0, cc0'⟩ := cc0
    obtain ⟨cc1, cc1'⟩ := cc1
    obtain ⟨cc2, cc2'⟩ := cc2
    obtain ⟨aa0, aa0'⟩ := aa0
    obtain ⟨aa1, aa1'⟩ := aa1
    obtain ⟨aa2, aa2'⟩ := aa2
    obtain ⟨pp, pp'⟩ := pp
    rw [abs_le, abs_le, abs_le]
    refine ⟨⟨?_, ?_, ?_, ?_, ?_⟩, ?_, ⟨?_, ?_⟩, ⟨?_, ?_⟩, ⟨?_, ?_⟩⟩ <;> norm_num <;> linarith only [cc0, cc1, cc2, aa0, aa1, aa2, cc0', cc1', cc2', aa0', aa1', aa2', pp, pp', pw, l1, l2, l3, l4, g0, g1, g2]
  exact ⟨⟨ok, key.1, d0, key.2.1⟩, key.2.2⟩

end Mcu.Lemmas
