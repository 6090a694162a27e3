import Verif.Lemmas.NewtonStart

/-! A colour lies on the ray of its own hue and chroma. -/

namespace Mcu.Lemmas

open Mcu.ColorUtils Mcu.MathUtils Mcu.HctSolver Real

/-- Undoing the compression of a cone response. -/
theorem unadapt_cone {fl d : ℝ} (hf : 0 < fl) (hd : 0 < d) : unadapt (cone fl d) = fl * d / 100 := by
  have hx : 0 < fl * d / 100 := by positivity
  have hp : 0 < (fl * d / 100) ^ (0.42 : ℝ) := by positivity
  have hb : 27.13 * cone fl d / (400 - cone fl d) = (fl * d / 100) ^ (0.42 : ℝ) := by
    unfold cone
    have hq : 0 < (fl * d / 100) ^ (0.42 : ℝ) + 27.13 := by positivity
    generalize (fl * d / 100) ^ (0.42 : ℝ) = p at *
    have hne : p + 27.13 ≠ 0 := hq.ne'
    have : 400 - 400 * p / (p + 27.13) = 400 * 27.13 / (p + 27.13) := by field_simp; ring
    rw [this]; field_simp
  unfold unadapt
  rw [hb, ← rpow_mul hx.le, show (0.42 : ℝ) * (1 / 0.42) = 1 by norm_num, rpow_one]

theorem self_ray {x y z : ℝ} (h : ConesNonneg x y z) (hC : 0 < (Cam16.fromXyzInViewingConditions x y z vc0).chroma)
    (hj : 0 < (Cam16.fromXyzInViewingConditions x y z vc0).j) :
    let cam := Cam16.fromXyzInViewingConditions x y z vc0
    let R := rayOf (cam.hue / 180 * π) cam.chroma
    let w := Cam16.adaptedCones x y z vc0
    R.Ar (log cam.j) = w.x0 ∧ R.Ag (log cam.j) = w.x1 ∧ R.Ab (log cam.j) = w.x2 ∧ 0 < R.den (log cam.j) ∧
      R.P (log cam.j) = opP2 w := by
  have hv := sRgb_pos
  intro cam R v
  have ha : 0 ≤ v.x0 ∧ 0 ≤ v.x1 ∧ 0 ≤ v.x2 := adapted_nonneg hv h
  have hp2 : 0 ≤ opP2 v := by
    obtain ⟨h0, h1, h2⟩ := ha
    unfold opP2; positivity
  have hu : 0 ≤ opU v := by
    obtain ⟨h0, h1, h2⟩ := ha
    unfold opU; positivity
  have ht := tTerm_nonneg hv ha
  have hk : 0 < kappaV vc0 := kappa_pos hv.n
  have hbase : 0 ≤ opP2 v * vc0.nbb / vc0.aw := by
    have := hv.nbb; have := hv.aw
    positivity
  have e100 : (100.0 : ℝ) = 100 := by norm_num
  have hj100 : cam.j / 100 = (opP2 v * vc0.nbb / vc0.aw) ^ (vc0.c * vc0.z) := by
    show (Cam16.fromXyzInViewingConditions x y z vc0).j / 100 = _
    rw [cam_j, e100, mul_div_cancel_left₀ _ (by norm_num)]
  have hch : cam.chroma = alphaTerm v vc0 * Real.sqrt (cam.j / 100) := by
    have : cam.chroma = alphaTerm v vc0 * Real.sqrt (cam.j / 100.0) := cam_chroma
    rw [this, e100]
  have hs : 0 < Real.sqrt (cam.j / 100) := by
    have : 0 < cam.j := hj
    positivity
  -- the achromatic response
  have hP : R.P (log cam.j) = opP2 v := by
    have hc := hv.c.ne'
    have hz := hv.z.ne'
    have hn := hv.nbb.ne'
    have haw := hv.aw.ne'
    have e := ray_P (cam.hue / 180 * π) cam.chroma hj
    show (rayOf (cam.hue / 180 * π) cam.chroma).P (log cam.j) = _
    rw [e, hj100, show (rayOf (cam.hue / 180 * π) cam.chroma).q = 1 / vc0.c / vc0.z from rfl, ← rpow_mul hbase,
      show vc0.c * vc0.z * (1 / vc0.c / vc0.z) = 1 by field_simp, rpow_one]
    unfold pWhite
    field_simp
  -- the saturation term
  have hT : R.T (log cam.j) = tTerm v vc0 := by
    have e := T_eq (v := log cam.j) hC (show 0 < 1 / kappaV vc0 by positivity)
    rw [exp_log hj] at e
    show (10 * cam.chroma * (1 / kappaV vc0)) ^ (1 / 0.9 : ℝ) * exp (-(1 / 1.8 * log cam.j)) = _
    rw [← e, show (Cam16.fromXyzInViewingConditions x y z vc0).chroma / Real.sqrt ((Cam16.fromXyzInViewingConditions x y z vc0).j / 100) = alphaTerm v vc0 by
      show cam.chroma / Real.sqrt (cam.j / 100) = _
      rw [hch, mul_div_assoc, div_self hs.ne', mul_one]]
    unfold alphaTerm
    rw [mul_assoc, mul_one_div, div_self hk.ne', mul_one, ← rpow_mul ht, show (0.9 : ℝ) * (1 / 0.9) = 1 by norm_num, rpow_one]
  -- the hue
  have hcos := hueDegrees_polar (opA v) (opB v)
  have hθ : cam.hue / 180 * π = Cam16.hueDegrees (opA v) (opB v) * π / 180 := by
    show Cam16.hueDegrees (opA v) (opB v) / 180 * π = _
    ring
  have ea : opA v = rho v * R.c := by
    show _ = rho v * cos (cam.hue / 180 * π)
    rw [hθ]; exact hcos.1
  have eb : opB v = rho v * R.s := by
    show _ = rho v * sin (cam.hue / 180 * π)
    rw [hθ]; exact hcos.2
  have hp1 : 0 < R.p1 := (rayOf_ok hC).p1
  have htp : tTerm v vc0 * (opU v + 0.305) = R.p1 * rho v := by
    have he : eccentricity (Cam16.hueDegrees (opA v) (opB v)) = cos (cam.hue / 180 * π + 2) + 3.8 := by
      unfold eccentricity; rw [hθ]
    have hne : opU v + 0.305 ≠ 0 := by positivity
    unfold tTerm
    rw [he, div_mul_cancel₀ _ hne, show R.p1 = 0.25 * (cos (cam.hue / 180 * π + 2) + 3.8) * (50000 / 13) * vc0.nC * vc0.ncb from rfl,
      show (0.25 : ℝ) = 1 / 4 by norm_num]
    ring
  have key : rho v * R.den (log cam.j) = 23 * (opP2 v + 0.305) * tTerm v vc0 := by
    rw [opU_eq, ea, eb] at htp
    have := gamma_key _ _ _ _ _ _ _ htp
    unfold Ray.den Ray.d
    rw [hT]
    linear_combination this
  have hr0 : 0 ≤ rho v := Real.sqrt_nonneg _
  have htpos : 0 < tTerm v vc0 := by rw [← hT]; exact Ray.T_pos (rayOf_ok hC) _
  have hden : 0 < R.den (log cam.j) := by
    have h1 : 0 < rho v * R.den (log cam.j) := by rw [key]; positivity
    by_contra hc
    push Not at hc
    have := mul_nonpos_of_nonneg_of_nonpos hr0 hc
    linarith
  have hg : R.gam (log cam.j) = rho v := by
    unfold Ray.gam
    rw [hP, hT, ← key, mul_div_assoc, div_self hden.ne', mul_one]
  obtain ⟨i0, i1, i2⟩ := op_inverse v
  rw [ea, eb] at i0 i1 i2
  refine ⟨?_, ?_, ?_, hden, hP⟩
  · unfold Ray.Ar; rw [hP, hg, ← i0]; norm_num; ring
  · unfold Ray.Ag; rw [hP, hg, ← i1]; norm_num; ring
  · unfold Ray.Ab; rw [hP, hg, ← i2]; norm_num; ring

end Mcu.Lemmas
