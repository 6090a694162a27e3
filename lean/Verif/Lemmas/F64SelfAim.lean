import Verif.Lemmas.F64SelfTone
import Verif.Lemmas.F64SelfPoint
import Verif.Lemmas.F64SelfAlgebra
import Verif.Lemmas.F64SelfLoop
import Verif.Lemmas.F64Setting

/-! Every colour but black and white is a target for the search the code performs in IEEE-754 binary64. -/

namespace Mcu.Lemmas

open Mcu.Ieee Props Props.Binary64 MathUtils ColorUtils HctSolver Real

variable {L : Libm}

local notation "𝔻" => F64 L

/-- The proportions of the responses, with room for rounding. -/
theorem near_slack {argb : Int} (h : NotBlack argb) : 0.910001 * (conesR argb).x1 ≤ (conesR argb).x0 ∧ (conesR argb).x0 ≤ 1.352999 * (conesR argb).x1 ∧
    0.470001 * (conesR argb).x1 ≤ (conesR argb).x2 ∧ (conesR argb).x2 ≤ 2.659999 * (conesR argb).x1 := by
  obtain ⟨c0, c1, c2⟩ := cones_pos h
  obtain ⟨b0, b1, b2⟩ := raw_bounds h
  obtain ⟨d0, d1, d2⟩ := rgbD_bounds
  have hv := sRgb_pos
  have hf : 0 < vcR.fl := hv.fl
  obtain ⟨hr, hg, hb⟩ := channel_range argb
  have hr' := linearized_range _ hr.1 hr.2
  have hg' := linearized_range _ hg.1 hg.2
  have hb' := linearized_range _ hb.1 hb.2
  have p0 : 0 < (rawR argb).x0 := lt_of_lt_of_le (by norm_num) b0.1
  have p1 : 0 < (rawR argb).x1 := lt_of_lt_of_le (by norm_num) b1.1
  have p2 : 0 < (rawR argb).x2 := lt_of_lt_of_le (by norm_num) b2.1
  have u0 : unadapt (conesR argb).x0 = vcR.fl * (vcR.rgbD.x0 * (rawR argb).x0) / 100 := by
    rw [conesR_eq]; exact unadapt_cone hf (mul_pos hv.d0 p0)
  have u1 : unadapt (conesR argb).x1 = vcR.fl * (vcR.rgbD.x1 * (rawR argb).x1) / 100 := by
    rw [conesR_eq]; exact unadapt_cone hf (mul_pos hv.d1 p1)
  have u2 : unadapt (conesR argb).x2 = vcR.fl * (vcR.rgbD.x2 * (rawR argb).x2) / 100 := by
    rw [conesR_eq]; exact unadapt_cone hf (mul_pos hv.d2 p2)
  have e := rawCones_argb argb
  simp only at e
  have e0 : (rawR argb).x0 = 0.30269915328759 * (linearized (redFromArgb argb) : ℝ) + 0.6023803116433 * linearized (greenFromArgb argb) + 0.07047346329738 * linearized (blueFromArgb argb) := by
    unfold rawR; rw [e]
  have e1 : (rawR argb).x1 = 0.15374913599554 * (linearized (redFromArgb argb) : ℝ) + 0.77736002827076 * linearized (greenFromArgb argb) + 0.08535981854956 * linearized (blueFromArgb argb) := by
    unfold rawR; rw [e]
  have e2 : (rawR argb).x2 = 0.02796570007202 * (linearized (redFromArgb argb) : ℝ) + 0.14784523135458 * linearized (greenFromArgb argb) + 0.90895832236388 * linearized (blueFromArgb argb) := by
    unfold rawR; rw [e]
  have scale {d c d' c' m : ℝ} (hh : d * c ≤ m * (d' * c')) : vcR.fl * (d * c) / 100 ≤ m * (vcR.fl * (d' * c') / 100) := by
    have := mul_le_mul_of_nonneg_left hh hf.le
    linarith
  have mixed {d c d' c' dl dh m : ℝ} (hd : d ≤ dh) (hd' : dl ≤ d') (hc : 0 ≤ c) (hc' : 0 ≤ c') (hm : 0 ≤ m) (hh : dh * c ≤ m * (dl * c')) : d * c ≤ m * (d' * c') :=
    (mul_le_mul_of_nonneg_right hd hc).trans (hh.trans (mul_le_mul_of_nonneg_left (mul_le_mul_of_nonneg_right hd' hc') hm))
  have lt0 : (conesR argb).x0 < 400 := lt_of_le_of_lt c0.2 (by norm_num)
  have lt1 : (conesR argb).x1 < 400 := lt_of_le_of_lt c1.2 (by norm_num)
  have lt2 : (conesR argb).x2 < 400 := lt_of_le_of_lt c2.2 (by norm_num)
  have q0 : 0 < (conesR argb).x0 := lt_of_lt_of_le (by norm_num) c0.1
  have q1 : 0 < (conesR argb).x1 := lt_of_lt_of_le (by norm_num) c1.1
  have q2 : 0 < (conesR argb).x2 := lt_of_lt_of_le (by norm_num) c2.1
  have r0 := hr'.1; have r1 := hg'.1; have r2 := hb'.1
  refine ⟨?_, ?_, ?_, ?_⟩
  · have := response_le (m := 1.2517) (k := 1 / 0.910001) q1 lt1 q0 lt0 (by norm_num) (by norm_num)
      (by rw [u0, u1]
          refine scale (mixed d1.2.le d0.1.le p1.le p0.le (by norm_num) ?_)
          rw [e0, e1]; norm_num; linarith) (by norm_num)
    norm_num at this ⊢; linarith
  · exact response_le (m := 2.054) (k := 1.352999) q0 lt0 q1 lt1 (by norm_num) (by norm_num)
      (by rw [u0, u1]
          refine scale (mixed d0.2.le d1.1.le p0.le p1.le (by norm_num) ?_)
          rw [e0, e1]; norm_num; linarith) (by norm_num)
  · have := response_le (m := 6.03) (k := 1 / 0.470001) q1 lt1 q2 lt2 (by norm_num) (by norm_num)
      (by rw [u1, u2]
          refine scale (mixed d1.2.le d2.1.le p1.le p2.le (by norm_num) ?_)
          rw [e1, e2]; norm_num; linarith) (by norm_num)
    norm_num at this ⊢; linarith
  · exact response_le (m := 10.26) (k := 2.659999) q2 lt2 q1 lt1 (by norm_num) (by norm_num)
      (by rw [u1, u2]
          refine scale (mixed d2.2.le d1.1.le p2.le p1.le (by norm_num) ?_)
          rw [e1, e2]; norm_num; linarith) (by norm_num)

/-- The rows of the matrix, with errors. -/
theorem rows_real {x y z x' y' z' r g b l εz : ℝ} (r0 : 0 ≤ r) (g0 : 0 ≤ g) (b0 : 0 ≤ b) (hl : l = 0.2126 * r + 0.7152 * g + 0.0722 * b)
    (m0 : |1373.2198709594231 * x + (-1100.4251190754821) * y - 7.278681089101213 * z - r| ≤ 1e-12 * l)
    (m1 : |(-271.815969077903) * x + 559.6580465940733 * y - 32.46047482791194 * z - g| ≤ 1e-12 * l)
    (m2 : |1.9622899599665666 * x + (-57.173814538844006) * y - (-308.7233197812385) * z - b| ≤ 1e-12 * l)
    (hx : |x' - x| ≤ 1.96 / 10 ^ 11 * x) (hy : |y' - y| ≤ 2.2 / 10 ^ 11 * y) (hz : |z' - z| ≤ εz * z)
    (h : εz * z ≤ 5.4 / 10 ^ 11 * z ∨ εz * z ≤ 1.2 / 10 ^ 10 * y) :
    |1373.2198709594231 * x' + (-1100.4251190754821) * y' - 7.278681089101213 * z' - r| ≤ 9e-10 * l ∧
    |(-271.815969077903) * x' + 559.6580465940733 * y' - 32.46047482791194 * z' - g| ≤ 9e-10 * l ∧
    |1.9622899599665666 * x' + (-57.173814538844006) * y' - (-308.7233197812385) * z' - b| ≤ 9e-10 * l := by
  have m0 := abs_le.1 m0; have m1 := abs_le.1 m1; have m2 := abs_le.1 m2
  have hx := abs_le.1 hx; have hy := abs_le.1 hy; have hz := abs_le.1 hz
  have x1 : x ≤ 0.0058 * l := by norm_num at m0 m1 m2 hl ⊢; linarith
  have y1 : y ≤ 0.0047 * l := by norm_num at m0 m1 m2 hl ⊢; linarith
  have z1 : z ≤ 0.0465 * l := by norm_num at m0 m1 m2 hl ⊢; linarith
  generalize εz * z = e at *
  have he : e ≤ 2.55e-12 * l := by
    rcases h with h | h <;> norm_num at h y1 z1 ⊢ <;> linarith
  have hx1 : -(1.14e-13 * l) ≤ x' - x ∧ x' - x ≤ 1.14e-13 * l := by norm_num at *; constructor <;> linarith
  have hy1 : -(1.04e-13 * l) ≤ y' - y ∧ y' - y ≤ 1.04e-13 * l := by norm_num at *; constructor <;> linarith
  have hz1 : -(2.55e-12 * l) ≤ z' - z ∧ z' - z ≤ 2.55e-12 * l := by norm_num at *; constructor <;> linarith
  clear hx hy hz h he x1 y1 z1 hl
  norm_num at *
  refine ⟨?_, ?_, ?_⟩ <;> rw [abs_le] <;> constructor <;> linarith

/-- A hue in radians that is, up to whole turns and a rounding error, the one the code computes for a colour. -/
def SelfHue (L : Libm) (argb : Int) (hr : F64 L) : Prop :=
  ∃ (H r : ℝ) (m : ℤ), Is (hue64 L argb) H ∧ Is hr r ∧ 0 ≤ r ∧ r ≤ 7 ∧ |r - (H * (π / 180) + m * (2 * π))| ≤ 1 / 10 ^ 14

/-- The hue the solver uses, in radians, and the chroma: a setting of the search. -/
theorem self_fine (hS : L.Sound) (hT : L.TempOk) {argb : Int} (h : NotBlack argb) {hr : 𝔻} (hh : SelfHue L argb hr) :
    Fine hr (chr64 L argb) ∧ 0 < (ray64 hr (chr64 L argb)).den (log (Dbl.val (j64 L argb))) ∧
    |(ray64 hr (chr64 L argb)).Ar (log (Dbl.val (j64 L argb))) - (conesV L argb).x0| ≤ 2 / 10 ^ 12 * (conesV L argb).x1 ∧
    |(ray64 hr (chr64 L argb)).Ag (log (Dbl.val (j64 L argb))) - (conesV L argb).x1| ≤ 3.1 / 10 ^ 12 * (conesV L argb).x1 ∧
    |(ray64 hr (chr64 L argb)).Ab (log (Dbl.val (j64 L argb))) - (conesV L argb).x2| ≤ 1.45 / 10 ^ 11 * (conesV L argb).x1 := by
  have hL := hS.pow
  have hE := hS.exp
  have s := sound_cones hL hE h
  obtain ⟨a, ia, ha⟩ := s.oa
  obtain ⟨b, ib, hb⟩ := s.ob
  have rs := rho_sharp hL hE h
  have ρ0 : 0 < rhoV L argb := rs.pos
  have eρ : rhoV L argb = Real.sqrt (a * a + b * b) := by unfold rhoV; rw [ia.2, ib.2]
  have z0 : ¬ (a = 0 ∧ b = 0) := by
    rintro ⟨rfl, rfl⟩
    rw [eρ] at ρ0; simp at ρ0
  obtain ⟨H, k, iH, H0, H1, eH⟩ := hue_chain hS hT ia ib z0
  have iH : Is (hue64 L argb) H := iH
  obtain ⟨H', r, m, iH', ir, r0, r1, er⟩ := hh
  obtain rfl := iH.unique iH'
  obtain ⟨iC, C0, C1⟩ := chroma_self hS hT h
  have st : Setting hr (chr64 L argb) :=
    setting_of hL hS.trig ⟨r, ir, r0, r1⟩ iC.1 (le_trans (by norm_num) C0) (C1.trans (by norm_num))
  have fine : Fine hr (chr64 L argb) := { st with lo := le_trans (by norm_num) C0, hi := C1 }
  refine ⟨fine, ?_⟩
  obtain ⟨it, ⟨t0, t1⟩, et⟩ := t_sharp hS hT h iH H0 H1
  have hTT := T_self hS hT h st it t0 t1
  have hPP := P_self hL hE h (hr := hr) (C := chr64 L argb)
  have hq := p1_of hL hS.trig ir r0 r1 er
  obtain ⟨pc, ps⟩ := polar_chain (C := chr64 L argb) hS.trig ir r0 r1 (x := a) (y := b) (δ := 1.04 / 10 ^ 12) (k := k + m) (by
    have e1 := abs_le.1 eH
    have e2 := abs_le.1 er
    push_cast
    rw [abs_le]
    norm_num at e1 e2 ⊢
    constructor <;> linarith)
  have ρp : 0 ≤ Real.sqrt (a * a + b * b) := Real.sqrt_nonneg _
  rw [← eρ] at pc ps ρp
  exact self_point (lt_of_lt_of_le (by norm_num) s.y0) s.r_lo s.r_hi s.b_lo s.b_hi ha hb eρ ρ0
    (pc.trans (mul_le_mul_of_nonneg_right (by norm_num) ρp)) (ps.trans (mul_le_mul_of_nonneg_right (by norm_num) ρp)) hPP hTT et hq.pos hq.val.2

set_option maxHeartbeats 800000 in
/-- Where the search should end. -/
theorem self_here (hS : L.Sound) (hT : L.TempOk) {argb : Int} (h : NotBlack argb) {hr : 𝔻} (hh : SelfHue L argb hr) :
    (ray64 hr (chr64 L argb)).Here (log (Dbl.val (j64 L argb))) ∧
    |(ray64 hr (chr64 L argb)).ch0 (log (Dbl.val (j64 L argb))) - linearized (redFromArgb argb)| ≤ 9e-10 * lumR argb ∧
    |(ray64 hr (chr64 L argb)).ch1 (log (Dbl.val (j64 L argb))) - linearized (greenFromArgb argb)| ≤ 9e-10 * lumR argb ∧
    |(ray64 hr (chr64 L argb)).ch2 (log (Dbl.val (j64 L argb))) - linearized (blueFromArgb argb)| ≤ 9e-10 * lumR argb := by
  have hL := hS.pow
  have hE := hS.exp
  obtain ⟨fine, d0, a0, a1, a2⟩ := self_fine hS hT h hh
  have hPP := P_self hL hE h (hr := hr) (C := chr64 L argb)
  obtain ⟨n0, n1, n2⟩ := nr_cones64 hL hE h
  have c0 := n0.val.2; have c1 := n1.val.2; have c2 := n2.val.2
  obtain ⟨g0, g1, g2⟩ := cones_ge h
  have g := near_slack h
  have gs := near_argb h
  have pw := opP_le argb
  have hv := sRgb_pos
  obtain ⟨b0, b1, b2⟩ := raw_bounds h
  have u0 : unadapt (conesR argb).x0 = vcR.fl * (vcR.rgbD.x0 * (rawR argb).x0) / 100 := by
    rw [conesR_eq]; exact unadapt_cone hv.fl (mul_pos hv.d0 (lt_of_lt_of_le (by norm_num) b0.1))
  have u1 : unadapt (conesR argb).x1 = vcR.fl * (vcR.rgbD.x1 * (rawR argb).x1) / 100 := by
    rw [conesR_eq]; exact unadapt_cone hv.fl (mul_pos hv.d1 (lt_of_lt_of_le (by norm_num) b1.1))
  have u2 : unadapt (conesR argb).x2 = vcR.fl * (vcR.rgbD.x2 * (rawR argb).x2) / 100 := by
    rw [conesR_eq]; exact unadapt_cone hv.fl (mul_pos hv.d2 (lt_of_lt_of_le (by norm_num) b2.1))
  have e := rawCones_argb argb
  simp only at e
  unfold rawR at u0 u1 u2
  rw [e] at u0 u1 u2
  dsimp only at u0 u1 u2
  obtain ⟨hrd, hg, hbl⟩ := channel_range argb
  have hr' := linearized_range _ hrd.1 hrd.2
  have hg' := linearized_range _ hg.1 hg.2
  have hb' := linearized_range _ hbl.1 hbl.2
  obtain ⟨m0, m1, m2⟩ := solver_matrix hr'.1 hg'.1 hb'.1
  rw [← u0, ← u1, ← u2] at m0 m1 m2
  have hz : (conesR argb).x2 ≤ (conesR argb).x1 → unadapt (conesR argb).x2 ≤ unadapt (conesR argb).x1 := by
    intro hc
    refine gs.x_b_one ?_ hc
    have : achromatic (conesR argb).x0 (conesR argb).x1 (conesR argb).x2 = opP2 (conesR argb) := by unfold achromatic opP2; norm_num; ring
    rw [this]; norm_num at pw ⊢; linarith
  clear u0 u1 u2 e b0 b1 b2
  have up : 0 < unadapt (conesR argb).x2 := by
    unfold unadapt
    have : (conesR argb).x2 < 400 := by
      unfold opP2 at pw; norm_num at pw g0 g1 ⊢; linarith
    have : 0 < 400 - (conesR argb).x2 := by linarith
    have : 0 < (conesR argb).x2 := lt_of_lt_of_le (by norm_num) g2
    positivity
  unfold opP2 at pw
  simp only [conesV, opP2] at hPP a0 a1 a2
  have cc0 := abs_le.1 c0; have cc1 := abs_le.1 c1; have cc2 := abs_le.1 c2
  have aa0 := abs_le.1 a0; have aa1 := abs_le.1 a1; have aa2 := abs_le.1 a2
  have pp := abs_le.1 hPP
  unfold Ray.ch0 Ray.ch1 Ray.ch2 Ray.lum lumR
  have ok := fine.toSetting.ok hL hE
  have hnear : NearGamut ((ray64 hr (chr64 L argb)).Ar (log (Dbl.val (j64 L argb)))) ((ray64 hr (chr64 L argb)).Ag (log (Dbl.val (j64 L argb))))
      ((ray64 hr (chr64 L argb)).Ab (log (Dbl.val (j64 L argb)))) ∧ (ray64 hr (chr64 L argb)).P (log (Dbl.val (j64 L argb))) ≤ 40 := by
    clear m0 m1 m2 hz up hr' hg' hb' a0 a1 a2 c0 c1 c2 hPP gs
    generalize (ray64 hr (chr64 L argb)).Ar (log (Dbl.val (j64 L argb))) = A at *
    generalize (ray64 hr (chr64 L argb)).Ag (log (Dbl.val (j64 L argb))) = B at *
    generalize (ray64 hr (chr64 L argb)).Ab (log (Dbl.val (j64 L argb))) = D at *
    generalize (ray64 hr (chr64 L argb)).P (log (Dbl.val (j64 L argb))) = P at *
    generalize (conesR argb).x0 = X at *
    generalize (conesR argb).x1 = Y at *
    generalize (conesR argb).x2 = Z at *
    generalize Dbl.val (cones64 L argb).x0 = X' at *
    generalize Dbl.val (cones64 L argb).x1 = Y' at *
    generalize Dbl.val (cones64 L argb).x2 = Z' at *
    clear n0 n1 n2
    norm_num at cc0 cc1 cc2 aa0 aa1 aa2 pp pw g g0 g1 g2
    refine ⟨⟨?_, ?_, ?_, ?_, ?_⟩, ?_⟩ <;> norm_num <;> linarith
  refine ⟨⟨ok, hnear.1, d0, hnear.2⟩, ?_⟩
  have f0 : |(ray64 hr (chr64 L argb)).Ar (log (Dbl.val (j64 L argb))) - (conesR argb).x0| ≤ 7.3 / 10 ^ 12 * (conesR argb).x0 := by
    rw [abs_le]; norm_num at cc0 cc1 cc2 aa0 g g0 g1 ⊢; constructor <;> linarith
  have f1 : |(ray64 hr (chr64 L argb)).Ag (log (Dbl.val (j64 L argb))) - (conesR argb).x1| ≤ 8.2 / 10 ^ 12 * (conesR argb).x1 := by
    rw [abs_le]; norm_num at cc0 cc1 cc2 aa1 g g0 g1 ⊢; constructor <;> linarith
  have s0 : (conesR argb).x0 ≤ 39 := by norm_num at pw g0 g1 g2 ⊢; linarith
  have s1 : (conesR argb).x1 ≤ 39 := by norm_num at pw g0 g1 g2 ⊢; linarith
  have s2 : (conesR argb).x2 ≤ 39 := by norm_num at pw g0 g1 g2 g ⊢; linarith
  have w0 := unadapt_tiny (lt_of_lt_of_le (by norm_num) g0) s0 f0 (by norm_num)
  have w1 := unadapt_tiny (lt_of_lt_of_le (by norm_num) g1) s1 f1 (by norm_num)
  have x0 : 0 ≤ unadapt (conesR argb).x0 := by unfold unadapt; norm_num at g0 s0; have : 0 ≤ 400 - (conesR argb).x0 := by linarith
                                               positivity
  have x1 : 0 ≤ unadapt (conesR argb).x1 := by unfold unadapt; norm_num at g1 s1; have : 0 ≤ 400 - (conesR argb).x1 := by linarith
                                               positivity
  rcases le_total (conesR argb).x1 (conesR argb).x2 with hc | hc
  · have f2 : |(ray64 hr (chr64 L argb)).Ab (log (Dbl.val (j64 L argb))) - (conesR argb).x2| ≤ 1.97 / 10 ^ 11 * (conesR argb).x2 := by
      rw [abs_le]; norm_num at cc0 cc1 cc2 aa2 g g0 g1 ⊢; constructor <;> linarith
    have w2 := unadapt_tiny (lt_of_lt_of_le (by norm_num) g2) s2 f2 (by norm_num)
    exact rows_real hr'.1 hg'.1 hb'.1 rfl m0 m1 m2 (w0.trans (mul_le_mul_of_nonneg_right (by norm_num) x0)) (w1.trans (mul_le_mul_of_nonneg_right (by norm_num) x1)) w2
      (.inl (mul_le_mul_of_nonneg_right (by norm_num) up.le))
  · have f2 : |(ray64 hr (chr64 L argb)).Ab (log (Dbl.val (j64 L argb))) - (conesR argb).x2| ≤ 3.65 / 10 ^ 11 * (conesR argb).x2 := by
      rw [abs_le]; norm_num at cc0 cc1 cc2 aa2 g g0 g1 ⊢; constructor <;> linarith
    have w2 := unadapt_tiny (lt_of_lt_of_le (by norm_num) g2) s2 f2 (by norm_num)
    exact rows_real hr'.1 hg'.1 hb'.1 rfl m0 m1 m2 (w0.trans (mul_le_mul_of_nonneg_right (by norm_num) x0)) (w1.trans (mul_le_mul_of_nonneg_right (by norm_num) x1)) w2
      (.inr ((mul_le_mul_of_nonneg_left (hz hc) (by norm_num)).trans (mul_le_mul_of_nonneg_right (by norm_num) x1)))

end Mcu.Lemmas
