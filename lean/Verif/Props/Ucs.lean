import Verif.Props.Cam
import Mathlib.Analysis.MeanInequalitiesPow

/-! C86 and the triangle inequality of C30: the uniform colour space. -/

namespace Mcu.Props

open Mcu.ColorUtils Mcu.MathUtils Mcu.Lemmas Mcu.Spec Real

/-! ### C86 -/

/-- Length and angle of a point give the point back. -/
theorem polar_point (x y : ℝ) : √(x * x + y * y) * Real.cos (Complex.arg ⟨x, y⟩) = x ∧ √(x * x + y * y) * Real.sin (Complex.arg ⟨x, y⟩) = y := by
  have n : ‖(⟨x, y⟩ : ℂ)‖ = √(x * x + y * y) := by rw [Complex.norm_def, Complex.normSq_mk]
  rw [← n]
  exact ⟨Complex.norm_mul_cos_arg _, Complex.norm_mul_sin_arg _⟩

/-- C86: an appearance made from coordinates in the uniform colour space has these coordinates, and its hue is in [0, 360). -/
theorem c86_coordinates (x y z : ℝ) (vc : ViewingConditions ℝ) (hv : 0 < vc.fLroot) (hx : x ≠ 1700 / 7) :
    let cam := Cam16.fromUcsInViewingConditions x y z vc
    cam.jstar = x ∧ cam.astar = y ∧ cam.bstar = z ∧ 0 ≤ cam.hue ∧ cam.hue < 360 ∧ 0 ≤ cam.chroma := by
  intro cam
  have e0 : (0.0 : ℝ) = 0 := by norm_num
  have e1 : (1.0 : ℝ) = 1 := by norm_num
  have d : 1.0 - (x - 100.0) * 0.007 ≠ (0 : ℝ) := fun h => hx (by norm_num at h ⊢; linarith)
  obtain ⟨pc, ps⟩ := polar_point y z
  have r0 : 0 ≤ √(y * y + z * z) := Real.sqrt_nonneg _
  have hm : 1.0 / 0.0228 * Real.log (1.0 + 0.0228 * ((Real.exp (√(y * y + z * z) * 0.0228) - 1.0) / 0.0228 / vc.fLroot * vc.fLroot)) = √(y * y + z * z) := by
    rw [div_mul_cancel₀ _ hv.ne', mul_div_cancel₀ _ (by norm_num : (0.0228 : ℝ) ≠ 0), e1, add_sub_cancel, Real.log_exp]
    ring
  have hπ := Real.pi_pos
  have a1 := Complex.neg_pi_lt_arg ⟨y, z⟩
  have a2 := Complex.arg_le_pi ⟨y, z⟩
  have hh : ∃ k : ℤ, cam.hue * π / 180.0 = Complex.arg ⟨y, z⟩ + k * (2 * π) := by
    have e : cam.hue = if Complex.arg ⟨y, z⟩ * (180.0 / π) < 0.0 then Complex.arg ⟨y, z⟩ * (180.0 / π) + 360.0 else Complex.arg ⟨y, z⟩ * (180.0 / π) := rfl
    rw [e]
    split
    · refine ⟨1, ?_⟩
      field_simp; norm_num; ring
    · refine ⟨0, ?_⟩
      field_simp; norm_num
  have hr : 0 ≤ cam.hue ∧ cam.hue < 360 := by
    have e : cam.hue = if Complex.arg ⟨y, z⟩ * (180.0 / π) < 0.0 then Complex.arg ⟨y, z⟩ * (180.0 / π) + 360.0 else Complex.arg ⟨y, z⟩ * (180.0 / π) := rfl
    have b1 : -180 < Complex.arg ⟨y, z⟩ * (180.0 / π) := by
      rw [← mul_div_assoc, lt_div_iff₀ hπ]; norm_num; linarith
    have b2 : Complex.arg ⟨y, z⟩ * (180.0 / π) ≤ 180 := by
      rw [← mul_div_assoc, div_le_iff₀ hπ]; norm_num; linarith
    rw [e, e0]
    split
    · next h => constructor <;> norm_num <;> linarith
    · next h => exact ⟨not_lt.1 h, by linarith⟩
  refine ⟨?_, ?_, ?_, hr.1, hr.2, ?_⟩
  · have e : cam.jstar = (1.0 + 100.0 * 0.007) * (x / (1.0 - (x - 100.0) * 0.007)) / (1.0 + 0.007 * (x / (1.0 - (x - 100.0) * 0.007))) := rfl
    have d' : 1.0 + 0.007 * (x / (1.0 - (x - 100.0) * 0.007)) = 1.7 / (1.0 - (x - 100.0) * 0.007) := by
      rw [eq_div_iff d, add_mul, mul_assoc, div_mul_cancel₀ _ d]; norm_num; ring
    rw [e, d', mul_div_assoc', div_div_div_cancel_right₀ d]
    norm_num
  · obtain ⟨k, hk⟩ := hh
    have e : cam.astar = 1.0 / 0.0228 * Real.log (1.0 + 0.0228 * ((Real.exp (√(y * y + z * z) * 0.0228) - 1.0) / 0.0228 / vc.fLroot * vc.fLroot)) * Real.cos (cam.hue * π / 180.0) := rfl
    rw [e, hm, hk, Real.cos_add_int_mul_two_pi, pc]
  · obtain ⟨k, hk⟩ := hh
    have e : cam.bstar = 1.0 / 0.0228 * Real.log (1.0 + 0.0228 * ((Real.exp (√(y * y + z * z) * 0.0228) - 1.0) / 0.0228 / vc.fLroot * vc.fLroot)) * Real.sin (cam.hue * π / 180.0) := rfl
    rw [e, hm, hk, Real.sin_add_int_mul_two_pi, ps]
  · have e : cam.chroma = (Real.exp (√(y * y + z * z) * 0.0228) - 1.0) / 0.0228 / vc.fLroot := rfl
    rw [e, e1]
    have := Real.one_le_exp (show 0 ≤ √(y * y + z * z) * 0.0228 by positivity)
    exact div_nonneg (div_nonneg (by linarith) (by norm_num)) hv.le

/-- C86: blending two colours by `t` is blending them in the opposite order by `1 - t`. -/
theorem c86_swap (a b : Int) (t : ℝ) : Blend.cam16Ucs a b t = Blend.cam16Ucs b a (1 - t) := by
  simp only [Blend.cam16Ucs]
  congr 2 <;> ring

/-- The lightness coordinate of a colour is below the pole of the inverse. -/
theorem jstar_lt (argb : Int) : (Cam16.fromInt argb : Cam16 ℝ).jstar < 1700 / 7 := by
  obtain ⟨hj, -⟩ := c27_nonneg argb
  have e : (Cam16.fromInt argb : Cam16 ℝ).jstar = (1.0 + 100.0 * 0.007) * (Cam16.fromInt argb : Cam16 ℝ).j / (1.0 + 0.007 * (Cam16.fromInt argb : Cam16 ℝ).j) := rfl
  rw [e, div_lt_iff₀ (by norm_num at *; linarith)]
  norm_num; linarith

/-- C86: blending goes at an even pace: before the result is rounded to eight bits per channel, its Euclidean distance from the
first colour is `t` times, and from the second `1 - t` times, the distance between both. -/
theorem c86_even_pace (a b : Int) (t : ℝ) (h0 : 0 ≤ t) (h1 : t ≤ 1) :
    let p : Cam16 ℝ := Cam16.fromInt a
    let q : Cam16 ℝ := Cam16.fromInt b
    ∃ m : Cam16 ℝ, Blend.cam16Ucs a b t = m.toInt ∧ ucsDistance p m = t * ucsDistance p q ∧ ucsDistance m q = (1 - t) * ucsDistance p q := by
  intro p q
  have hp : p.jstar < 1700 / 7 := jstar_lt a
  have hq : q.jstar < 1700 / 7 := jstar_lt b
  have hm : p.jstar + (q.jstar - p.jstar) * t < 1700 / 7 := by
    rcases h1.eq_or_lt with rfl | h1
    · linarith
    · nlinarith
  obtain ⟨x, y, z, -⟩ := c86_coordinates (p.jstar + (q.jstar - p.jstar) * t) (p.astar + (q.astar - p.astar) * t) (p.bstar + (q.bstar - p.bstar) * t) _ sRgb_pos.fLroot hm.ne
  refine ⟨_, rfl, ?_, ?_⟩
  · change ucsDistance p (Cam16.fromUcsInViewingConditions _ _ _ _) = _
    unfold ucsDistance
    rw [x, y, z]
    conv_rhs => rw [← Real.sqrt_sq h0, ← Real.sqrt_mul (sq_nonneg t)]
    congr 1; ring
  · change ucsDistance (Cam16.fromUcsInViewingConditions _ _ _ _) q = _
    unfold ucsDistance
    rw [x, y, z]
    conv_rhs => rw [← Real.sqrt_sq (sub_nonneg.2 h1), ← Real.sqrt_mul (sq_nonneg (1 - t))]
    congr 1; ring

/-! ### C30 -/

theorem ucs_triangle (a b c : Cam16 ℝ) : ucsDistance a c ≤ ucsDistance a b + ucsDistance b c := by
  unfold ucsDistance
  have key (x y z u v w : ℝ) : √((x + u) ^ 2 + (y + v) ^ 2 + (z + w) ^ 2) ≤ √(x ^ 2 + y ^ 2 + z ^ 2) + √(u ^ 2 + v ^ 2 + w ^ 2) := by
    have p := Real.sq_sqrt (show 0 ≤ x ^ 2 + y ^ 2 + z ^ 2 by positivity)
    have q := Real.sq_sqrt (show 0 ≤ u ^ 2 + v ^ 2 + w ^ 2 by positivity)
    have p0 := Real.sqrt_nonneg (x ^ 2 + y ^ 2 + z ^ 2)
    have q0 := Real.sqrt_nonneg (u ^ 2 + v ^ 2 + w ^ 2)
    rw [Real.sqrt_le_left (by linarith)]
    have cs : x * u + y * v + z * w ≤ √(x ^ 2 + y ^ 2 + z ^ 2) * √(u ^ 2 + v ^ 2 + w ^ 2) := by
      rw [← Real.sqrt_mul (by positivity)]
      apply Real.le_sqrt_of_sq_le
      nlinarith [sq_nonneg (x * v - y * u), sq_nonneg (x * w - z * u), sq_nonneg (y * w - z * v)]
    nlinarith
  have := key (a.jstar - b.jstar) (a.astar - b.astar) (a.bstar - b.bstar) (b.jstar - c.jstar) (b.astar - c.astar) (b.bstar - c.bstar)
  simpa using this

/-- C30: the triangle inequality. -/
theorem c30_triangle (a b c : Cam16 ℝ) : a.distance c ≤ a.distance b + b.distance c := by
  rw [distance_eq, distance_eq, distance_eq, ← mul_add]
  have h1 : 0 ≤ ucsDistance a b := Real.sqrt_nonneg _
  have h2 : 0 ≤ ucsDistance b c := Real.sqrt_nonneg _
  have h3 : 0 ≤ ucsDistance a c := Real.sqrt_nonneg _
  refine mul_le_mul_of_nonneg_left ?_ (by norm_num)
  exact (Real.rpow_le_rpow h3 (ucs_triangle a b c) (by norm_num)).trans (Real.rpow_add_le_add_rpow h1 h2 (by norm_num) (by norm_num))

/-- The hypotheses can be met: a point of the uniform colour space, and a blend half way. -/
example : (Cam16.fromUcs 50 10 (-20) : Cam16 ℝ).bstar = -20 ∧ Blend.cam16Ucs 0xFFFF0000 0xFF0000FF (0.5 : ℝ) = Blend.cam16Ucs 0xFF0000FF 0xFFFF0000 (0.5 : ℝ) := by
  refine ⟨(c86_coordinates 50 10 (-20) _ sRgb_pos.fLroot (by norm_num)).2.2.1, ?_⟩
  rw [c86_swap]; norm_num

end Mcu.Props
