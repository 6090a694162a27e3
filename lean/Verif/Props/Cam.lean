import Verif.Lemmas.Cam
import Verif.Props.Opaque

/-! C27 - C31 and C64: the CAM16 appearance model, blending and viewing conditions. -/

namespace Mcu.Props

open Mcu.ColorUtils Mcu.MathUtils Mcu.Lemmas Mcu.Spec Real

/-! ### C27 -/

/-- C27: for every XYZ colour and all viewing conditions the asserted range of the hue holds. -/
theorem c27_hue_assertion (x y z : ℝ) (vc : ViewingConditions ℝ) :
    Cam16.hueAssert (Cam16.fromXyzInViewingConditions x y z vc).hue ∧
    0 ≤ (Cam16.fromXyzInViewingConditions x y z vc).hue ∧
    (Cam16.fromXyzInViewingConditions x y z vc).hue < 360 := by
  rw [cam_hue]
  have h := hueDegrees_range (opA (Cam16.adaptedCones x y z vc)) (opB (Cam16.adaptedCones x y z vc))
  refine ⟨?_, h⟩
  unfold Cam16.hueAssert
  norm_num
  exact h

theorem hue_range (argb : Int) : 0 ≤ (Cam16.fromInt argb : Cam16 ℝ).hue ∧
    (Cam16.fromInt argb : Cam16 ℝ).hue < 360 := (c27_hue_assertion _ _ _ _).2

/-- Every colour has non-negative cone responses. -/
theorem cones_of_argb (argb : Int) : ConesNonneg (xyzFromArgb argb : Vec3 ℝ).x0
    (xyzFromArgb argb : Vec3 ℝ).x1 (xyzFromArgb argb : Vec3 ℝ).x2 := by
  obtain ⟨hr, hg, hb⟩ := channel_range argb
  have r := (linearized_range _ hr.1 hr.2).1
  have g := (linearized_range _ hg.1 hg.2).1
  have b := (linearized_range _ hb.1 hb.2).1
  constructor <;> simp only [rawCones, xyzFromArgb, matrixMultiply, srgbToXyz] <;> norm_num <;> linarith

/-- C27: the coordinates of every colour are non-negative, under the default and under any other viewing
conditions with positive parameters (see `c64_positive`). -/
theorem c27_nonneg_in (argb : Int) (vc : ViewingConditions ℝ) (hv : VcPos vc) :
    let cam := Cam16.fromIntInViewingConditions argb vc
    0 ≤ cam.j ∧ 0 ≤ cam.chroma ∧ 0 ≤ cam.q ∧ 0 ≤ cam.m ∧ 0 ≤ cam.s := by
  obtain ⟨h1, h2, h3, h4⟩ := cam_nonneg hv (cones_of_argb argb)
  exact ⟨h1, h2, h3, h4, cam_s_nonneg⟩

theorem c27_nonneg (argb : Int) :
    let cam : Cam16 ℝ := Cam16.fromInt argb
    0 ≤ cam.j ∧ 0 ≤ cam.chroma ∧ 0 ≤ cam.q ∧ 0 ≤ cam.m ∧ 0 ≤ cam.s :=
  c27_nonneg_in argb _ sRgb_pos

/-! ### C28 -/

/-- The literal matrices: linear RGB to XYZ to cones and all the way back. -/
theorem cone_matrices (r g b : ℝ) (hr : 0 ≤ r ∧ r ≤ 100) (hg : 0 ≤ g ∧ g ≤ 100) (hb : 0 ≤ b ∧ b ≤ 100) :
    let xyz := matrixMultiply ⟨r, g, b⟩ srgbToXyz
    let v := matrixMultiply (unCones (rawCones xyz.x0 xyz.x1 xyz.x2)) xyzToSrgb
    |v.x0 - r| ≤ 0.001 ∧ |v.x1 - g| ≤ 0.001 ∧ |v.x2 - b| ≤ 0.001 := by
  simp only [matrixMultiply, srgbToXyz, xyzToSrgb, rawCones, unCones]
  norm_num
  refine ⟨?_, ?_, ?_⟩ <;> rw [abs_le] <;> constructor <;> linarith [hr.1, hr.2, hg.1, hg.2, hb.1, hb.2]

theorem argb_of_cones (argb : Int) :
    (fun v : Vec3 ℝ => argbFromXyz v.x0 v.x1 v.x2) (unCones (rawCones (xyzFromArgb argb : Vec3 ℝ).x0
      (xyzFromArgb argb : Vec3 ℝ).x1 (xyzFromArgb argb : Vec3 ℝ).x2)) = 0xFF000000 + argb % 2 ^ 24 := by
  obtain ⟨hr, hg, hb⟩ := channel_range argb
  have h := cone_matrices _ _ _ (linearized_range _ hr.1 hr.2) (linearized_range _ hg.1 hg.2)
    (linearized_range _ hb.1 hb.2)
  dsimp only
  rw [argbFromXyz_matrix, xyzFromArgb, argbFromLinrgb]
  dsimp only at h ⊢
  rw [delinearized_near hr.1 hr.2 (h.1.trans (by norm_num)),
    delinearized_near hg.1 hg.2 (h.2.1.trans (by norm_num)),
    delinearized_near hb.1 hb.2 (h.2.2.trans (by norm_num))]
  simp only [argbFromRgb, redFromArgb, greenFromArgb, blueFromArgb]
  omega

/-- C28: CAM16 coordinates under any viewing conditions with positive parameters, viewed under the same
conditions, give the colour back (alpha becomes 255). -/
theorem c28_round_trip_in (argb : Int) (vc : ViewingConditions ℝ) (hv : VcPos vc) :
    (Cam16.fromIntInViewingConditions argb vc).viewed vc = 0xFF000000 + argb % 2 ^ 24 := by
  rw [← argb_of_cones argb]
  simp only [Cam16.viewed, Cam16.fromIntInViewingConditions, xyz_inverse hv (cones_of_argb argb)]

/-- C28: in the default viewing conditions every opaque colour is recovered exactly. -/
theorem c28_round_trip (argb : Int) (h : Opaque32 argb) :
    (Cam16.fromInt argb : Cam16 ℝ).toInt = argb := by
  have := c28_round_trip_in argb _ sRgb_pos
  simp only [Opaque32] at h
  simp only [Cam16.toInt, Cam16.fromInt]
  omega

example : Opaque32 0xFF4285F4 := by unfold Opaque32; decide

/-- C28: the same through the J, C, h constructor. -/
theorem c28_jch (argb : Int) (h : Opaque32 argb) :
    let cam : Cam16 ℝ := Cam16.fromInt argb
    (Cam16.fromJch cam.j cam.chroma cam.hue).toInt = argb := by
  intro cam
  rw [← c28_round_trip argb h]
  simp only [Cam16.toInt, Cam16.viewed]
  rw [xyz_fields (Cam16.fromJch cam.j cam.chroma cam.hue) cam rfl rfl rfl]

/-- C28: so different opaque colours have different hue, chroma, lightness triples. -/
theorem c28_injective (a b : Int) (ha : Opaque32 a) (hb : Opaque32 b)
    (hj : (Cam16.fromInt a : Cam16 ℝ).j = (Cam16.fromInt b : Cam16 ℝ).j)
    (hc : (Cam16.fromInt a : Cam16 ℝ).chroma = (Cam16.fromInt b : Cam16 ℝ).chroma)
    (hh : (Cam16.fromInt a : Cam16 ℝ).hue = (Cam16.fromInt b : Cam16 ℝ).hue) : a = b := by
  rw [← c28_round_trip a ha, ← c28_round_trip b hb]
  simp only [Cam16.toInt, Cam16.viewed, xyz_fields _ _ hj hc hh]

/-! ### C29 -/

theorem cam_jstar (x y z : ℝ) (vc : ViewingConditions ℝ) :
    (Cam16.fromXyzInViewingConditions x y z vc).jstar =
      (1.0 + 100.0 * 0.007) * (Cam16.fromXyzInViewingConditions x y z vc).j /
        (1.0 + 0.007 * (Cam16.fromXyzInViewingConditions x y z vc).j) := rfl

/-- The radius in the UCS plane. -/
noncomputable def mstar (cam : Cam16 ℝ) : ℝ := Real.log (1.0 + 0.0228 * cam.m) / 0.0228

theorem cam_astar (x y z : ℝ) (vc : ViewingConditions ℝ) :
    (Cam16.fromXyzInViewingConditions x y z vc).astar =
      mstar (Cam16.fromXyzInViewingConditions x y z vc) *
        Real.cos ((Cam16.fromXyzInViewingConditions x y z vc).hue * π / 180.0) := rfl

theorem cam_bstar (x y z : ℝ) (vc : ViewingConditions ℝ) :
    (Cam16.fromXyzInViewingConditions x y z vc).bstar =
      mstar (Cam16.fromXyzInViewingConditions x y z vc) *
        Real.sin ((Cam16.fromXyzInViewingConditions x y z vc).hue * π / 180.0) := rfl

theorem jstar_inverse {j : ℝ} (h : 0 ≤ j) :
    (1.0 + 100.0 * 0.007) * j / (1.0 + 0.007 * j) /
      (1.0 - ((1.0 + 100.0 * 0.007) * j / (1.0 + 0.007 * j) - 100.0) * 0.007) = j := by
  norm_num
  have h1 : 0 < 1 + 7 / 1000 * j := by positivity
  have h2 : 1 - (17 / 10 * j / (1 + 7 / 1000 * j) - 100) * (7 / 1000) =
      17 / 10 / (1 + 7 / 1000 * j) := by
    field_simp; ring
  rw [h2]
  field_simp

/-- Going to UCS coordinates and back keeps lightness and chroma, and the hue if there is chroma. -/
theorem ucs_round_trip (argb : Int) :
    let cam : Cam16 ℝ := Cam16.fromInt argb
    let back := Cam16.fromUcs cam.jstar cam.astar cam.bstar
    back.j = cam.j ∧ back.chroma = cam.chroma ∧ (cam.chroma ≠ 0 → back.hue = cam.hue) := by
  intro cam back
  obtain ⟨hj, hc, -, hm, -⟩ := c27_nonneg argb
  have hvc := sRgb_pos
  have hfl := hvc.fLroot.ne'
  have hmeq : cam.m = cam.chroma * (ViewingConditions.sRgb : ViewingConditions ℝ).fLroot := cam_m
  have hm0 : 0 ≤ cam.m := hm
  have hms : 0 ≤ mstar cam := by
    unfold mstar
    apply div_nonneg _ (by norm_num)
    apply Real.log_nonneg
    norm_num; exact hm0
  have ha : cam.astar = mstar cam * Real.cos (cam.hue * π / 180.0) := rfl
  have hb : cam.bstar = mstar cam * Real.sin (cam.hue * π / 180.0) := rfl
  have hr : Real.sqrt (cam.astar * cam.astar + cam.bstar * cam.bstar) = mstar cam := by
    rw [ha, hb]
    have : mstar cam * Real.cos (cam.hue * π / 180.0) * (mstar cam * Real.cos (cam.hue * π / 180.0)) +
        mstar cam * Real.sin (cam.hue * π / 180.0) * (mstar cam * Real.sin (cam.hue * π / 180.0)) =
        mstar cam ^ 2 := by
      have h1 := Real.sin_sq_add_cos_sq (cam.hue * π / 180.0)
      generalize Real.sin (cam.hue * π / 180.0) = s at *
      generalize Real.cos (cam.hue * π / 180.0) = c at *
      generalize mstar cam = m
      linear_combination m ^ 2 * h1
    rw [this, Real.sqrt_sq hms]
  refine ⟨?_, ?_, ?_⟩
  · have : back.j = cam.jstar / (1.0 - (cam.jstar - 100.0) * 0.007) := rfl
    rw [this]
    have h2 : cam.jstar = (1.0 + 100.0 * 0.007) * cam.j / (1.0 + 0.007 * cam.j) := rfl
    rw [h2, jstar_inverse hj]
  · have : back.chroma = (Real.exp (Real.sqrt (cam.astar * cam.astar + cam.bstar * cam.bstar) * 0.0228)
        - 1.0) / 0.0228 / (ViewingConditions.sRgb : ViewingConditions ℝ).fLroot := rfl
    rw [this, hr]
    have h1 : mstar cam * 0.0228 = Real.log (1.0 + 0.0228 * cam.m) := by
      unfold mstar; rw [div_mul_cancel₀ _ (by norm_num)]
    rw [h1, Real.exp_log (by positivity), hmeq]
    rw [show (1.0 : ℝ) = 1 by norm_num, add_sub_cancel_left, mul_div_cancel_left₀ _ (by norm_num),
      mul_div_cancel_right₀ _ hfl]
  · intro hne
    have hmpos : 0 < cam.m := by
      rw [hmeq]
      exact mul_pos (lt_of_le_of_ne hc (Ne.symm hne)) hvc.fLroot
    have hms' : 0 < mstar cam := by
      unfold mstar
      apply div_pos _ (by norm_num)
      apply Real.log_pos
      norm_num; exact hmpos
    have hh := hue_range argb
    have hh0 : 0 ≤ cam.hue := hh.1
    have hh1 : cam.hue < 360 := hh.2
    have hpi := Real.pi_pos
    have e0 : (0.0 : ℝ) = 0 := by norm_num
    have e180 : (180.0 : ℝ) = 180 := by norm_num
    have e360 : (360.0 : ℝ) = 360 := by norm_num
    have hback : back.hue = if Complex.arg ⟨cam.astar, cam.bstar⟩ * (180.0 / π) < 0.0
        then Complex.arg ⟨cam.astar, cam.bstar⟩ * (180.0 / π) + 360.0
        else Complex.arg ⟨cam.astar, cam.bstar⟩ * (180.0 / π) := rfl
    have harg (θ : ℝ) (hθ : θ ∈ Set.Ioc (-π) π) (h1 : Real.cos θ = Real.cos (cam.hue * π / 180.0))
        (h2 : Real.sin θ = Real.sin (cam.hue * π / 180.0)) :
        Complex.arg ⟨cam.astar, cam.bstar⟩ = θ := by
      have : (⟨cam.astar, cam.bstar⟩ : ℂ) = (mstar cam : ℂ) * (Complex.cos θ + Complex.sin θ * Complex.I) := by
        apply Complex.ext
        · rw [← Complex.ofReal_cos, ← Complex.ofReal_sin]
          rw [ha, ← h1]; simp [-Complex.ofReal_cos, -Complex.ofReal_sin]
        · rw [← Complex.ofReal_cos, ← Complex.ofReal_sin]
          rw [hb, ← h2]; simp [-Complex.ofReal_cos, -Complex.ofReal_sin]
      rw [this, Complex.arg_mul_cos_add_sin_mul_I hms' hθ]
    rw [hback, e0, e180, e360]
    rw [e180] at harg
    rcases le_or_gt cam.hue 180 with hle | hgt
    · rw [harg (cam.hue * π / 180) ⟨by nlinarith, by rw [div_le_iff₀ (by norm_num)]; nlinarith⟩ rfl rfl]
      have : cam.hue * π / 180 * (180 / π) = cam.hue := by field_simp
      rw [this, if_neg (not_lt.2 hh0)]
    · have hsh : (cam.hue - 360) * π / 180 = cam.hue * π / 180 - 2 * π := by ring
      rw [harg ((cam.hue - 360) * π / 180)
        ⟨by rw [lt_div_iff₀ (by norm_num)]; nlinarith, by rw [div_le_iff₀ (by norm_num)]; nlinarith⟩
        (by rw [hsh, Real.cos_sub_two_pi]) (by rw [hsh, Real.sin_sub_two_pi])]
      have : (cam.hue - 360) * π / 180 * (180 / π) = cam.hue - 360 := by field_simp
      rw [this, if_pos (by linarith)]
      ring

/-- UCS coordinates identify the colour. -/
theorem ucs_to_int (argb : Int) (h : Opaque32 argb) :
    let cam : Cam16 ℝ := Cam16.fromInt argb
    (Cam16.fromUcs cam.jstar cam.astar cam.bstar).toInt = argb := by
  intro cam
  obtain ⟨hj, hc, hh⟩ := ucs_round_trip argb
  rw [← c28_round_trip argb h]
  simp only [Cam16.toInt, Cam16.viewed]
  by_cases h0 : cam.chroma = 0
  · rw [xyz_no_chroma _ cam hj (hc.trans h0) h0]
  · rw [xyz_fields _ cam hj hc (hh h0)]

/-- C29: blending by 0 gives the first colour and blending by 1 the second. -/
theorem c29_endpoints (a b : Int) (ha : Opaque32 a) (hb : Opaque32 b) :
    Blend.cam16Ucs a b (0 : ℝ) = a ∧ Blend.cam16Ucs a b (1 : ℝ) = b := by
  constructor
  · simp only [Blend.cam16Ucs, mul_zero, add_zero]
    exact ucs_to_int a ha
  · simp only [Blend.cam16Ucs, mul_one, add_sub_cancel]
    exact ucs_to_int b hb

/-- C29: blending a colour with itself gives that colour, whatever the amount. -/
theorem c29_same (a : Int) (ha : Opaque32 a) (t : ℝ) : Blend.cam16Ucs a a t = a := by
  simp only [Blend.cam16Ucs, sub_self, zero_mul, add_zero]
  exact ucs_to_int a ha

/-- C29: every blend is opaque. -/
theorem c29_opaque (a b : Int) (t : ℝ) : Opaque32 (Blend.cam16Ucs a b t) := (c14_blend a b t).2.1

example : Opaque32 0xFFFF0000 ∧ Opaque32 0xFF0000FF := by unfold Opaque32; decide

/-! ### C30 -/

/-- Euclidean distance of the UCS coordinates. -/
noncomputable def ucsDistance (a b : Cam16 ℝ) : ℝ :=
  Real.sqrt ((a.jstar - b.jstar) ^ 2 + (a.astar - b.astar) ^ 2 + (a.bstar - b.bstar) ^ 2)

theorem distance_eq (a b : Cam16 ℝ) : a.distance b = 1.41 * (ucsDistance a b) ^ (0.63 : ℝ) := by
  unfold ucsDistance
  rw [pow_two, pow_two, pow_two]
  rfl

/-- C30: the distance is non-negative and symmetric. -/
theorem c30_nonneg_symm (a b : Cam16 ℝ) : 0 ≤ a.distance b ∧ a.distance b = b.distance a := by
  rw [distance_eq, distance_eq]
  have h1 : ucsDistance a b = ucsDistance b a := by
    unfold ucsDistance
    congr 1; ring
  have h2 : 0 ≤ ucsDistance a b := Real.sqrt_nonneg _
  exact ⟨by positivity, by rw [h1]⟩

/-- C30: the distance is zero exactly for equal UCS coordinates. -/
theorem c30_zero_iff (a b : Cam16 ℝ) : a.distance b = 0 ↔
    a.jstar = b.jstar ∧ a.astar = b.astar ∧ a.bstar = b.bstar := by
  rw [distance_eq]
  have h2 : 0 ≤ ucsDistance a b := Real.sqrt_nonneg _
  have : (1.41 * ucsDistance a b ^ (0.63 : ℝ) = 0) ↔ ucsDistance a b = 0 := by
    rw [mul_eq_zero, rpow_eq_zero h2 (by norm_num)]
    norm_num
  rw [this]
  unfold ucsDistance
  rw [Real.sqrt_eq_zero (by positivity)]
  constructor
  · intro h
    have h1 := sq_nonneg (a.jstar - b.jstar)
    have h2 := sq_nonneg (a.astar - b.astar)
    have h3 := sq_nonneg (a.bstar - b.bstar)
    refine ⟨?_, ?_, ?_⟩ <;> rw [← sub_eq_zero] <;> rw [← sq_eq_zero_iff] <;> linarith
  · rintro ⟨h1, h2, h3⟩
    rw [h1, h2, h3]; ring

/-- C30: two opaque colours are at distance zero exactly if they are equal. -/
theorem c30_colors (a b : Int) (ha : Opaque32 a) (hb : Opaque32 b) :
    (Cam16.fromInt a : Cam16 ℝ).distance (Cam16.fromInt b) = 0 ↔ a = b := by
  constructor
  · intro h
    obtain ⟨h1, h2, h3⟩ := (c30_zero_iff _ _).1 h
    rw [← ucs_to_int a ha, ← ucs_to_int b hb]
    simp only [h1, h2, h3]
  · rintro rfl
    exact (c30_zero_iff _ _).2 ⟨rfl, rfl, rfl⟩

/-- C30: the distance is strictly increasing in the Euclidean distance. -/
theorem c30_increasing (a b c d : Cam16 ℝ) :
    ucsDistance a b < ucsDistance c d ↔ a.distance b < c.distance d := by
  rw [distance_eq, distance_eq]
  have h1 : 0 ≤ ucsDistance a b := Real.sqrt_nonneg _
  have h2 : 0 ≤ ucsDistance c d := Real.sqrt_nonneg _
  rw [mul_lt_mul_iff_right₀ (by norm_num), rpow_lt_rpow_iff h1 h2 (by norm_num)]

/-! ### C31 -/

/-- Two hues that differ by `δ ≤ 180` degrees in some direction, up to whole turns. -/
theorem difference_of_turn {a b δ : ℝ} (ha : 0 ≤ a ∧ a < 360) (hb : 0 ≤ b ∧ b < 360)
    (h0 : 0 ≤ δ) (h1 : δ ≤ 180) (h : ∃ k : ℤ, a - b = δ + 360 * k ∨ a - b = -δ + 360 * k) :
    differenceDegrees a b = δ := by
  rw [diff_eq]
  obtain ⟨k, hk⟩ := h
  have hc := abs_lt.1 (hues_close ha hb)
  have hk1 : (-2 : ℝ) < k := by rcases hk with h | h <;> linarith [hc.1]
  have hk2 : (k : ℝ) < 2 := by rcases hk with h | h <;> linarith [hc.2]
  have hk1' : -2 < k := by exact_mod_cast hk1
  have hk2' : k < 2 := by exact_mod_cast hk2
  have : k = -1 ∨ k = 0 ∨ k = 1 := by omega
  rcases this with rfl | rfl | rfl <;> rcases hk with hk | hk <;> push_cast at hk
  · rw [abs_of_nonpos (show a - b ≤ 0 by linarith), abs_of_nonneg (by linarith)]; linarith
  · exfalso; linarith [hc.1]
  · rw [abs_of_nonneg (show 0 ≤ a - b by linarith), abs_of_nonpos (by linarith)]; linarith
  · rw [abs_of_nonpos (show a - b ≤ 0 by linarith), abs_of_nonpos (by linarith)]; linarith
  · exfalso; linarith [hc.2]
  · rw [abs_of_nonneg (show 0 ≤ a - b by linarith), abs_of_nonneg (by linarith)]; linarith

/-- C31 on hues: the harmonised hue is a hue; it is turned from the design hue by half the difference but
at most 15 degrees; and exactly the rest of the difference remains to the source hue, that is, it was
turned towards the source hue the short way and does not overshoot. -/
theorem c31_hue (f t : ℝ) (hf : 0 ≤ f ∧ f < 360) (ht : 0 ≤ t ∧ t < 360) :
    let D := differenceDegrees f t
    let out := Blend.harmonizedHue f t
    (0 ≤ out ∧ out < 360) ∧ differenceDegrees f out = min (D / 2) 15 ∧
    differenceDegrees out t = D - min (D / 2) 15 := by
  intro D out
  have hD := c07_range f t (hues_close hf ht).le
  have hD0 : 0 ≤ D := hD.1
  have hD1 : D ≤ 180 := hD.2
  have hr : Fl.fmin (D * 0.5) (15.0 : ℝ) = min (D / 2) 15 := by
    rw [fl_fmin]; norm_num; rw [mul_one_div]
  have hout : out = sanitizeDegreesDouble (f + min (D / 2) 15 * rotationDirection f t) := by
    show sanitizeDegreesDouble (f + Fl.fmin (D * 0.5) (15.0 : ℝ) * rotationDirection f t) = _
    rw [hr]
  set r := min (D / 2) 15 with hrdef
  have hr0 : 0 ≤ r := le_min (by linarith) (by norm_num)
  have hr1 : r ≤ D / 2 := min_le_left _ _
  obtain ⟨o0, o1, k, hk⟩ := c06_sanitize_real (f + r * rotationDirection f t)
  rw [← hout] at o0 o1 hk
  have harr := c08_arrives_hues f t hf ht
  obtain ⟨-, -, l, hl⟩ := c06_sanitize_real (f + rotationDirection f t * differenceDegrees f t)
  rw [harr] at hl
  refine ⟨⟨o0, o1⟩, ?_, ?_⟩
  · apply difference_of_turn hf ⟨o0, o1⟩ hr0 (by linarith)
    refine ⟨-k, ?_⟩
    push_cast
    rcases c08_unit f t with h | h <;> rw [h] at hk
    · right; rw [hk]; ring
    · left; rw [hk]; ring
  · apply difference_of_turn ⟨o0, o1⟩ ht (by linarith) (by linarith)
    refine ⟨k - l, ?_⟩
    push_cast
    have hDd : differenceDegrees f t = D := rfl
    rcases c08_unit f t with h | h <;> rw [h] at hk hl <;> rw [hDd] at hl
    · right; rw [hk]; linarith
    · left; rw [hk]; linarith

example : (0 ≤ (10 : ℝ) ∧ (10 : ℝ) < 360) ∧ (0 ≤ (350 : ℝ) ∧ (350 : ℝ) < 360) := by norm_num

/-- C31 on colours: harmonising asks for the design colour's own chroma and tone and for the hue that is
turned towards the source by half the difference, at most 15 degrees. -/
theorem c31_harmonize (design source : Int) : ∃ out : ℝ,
    let d : Hct ℝ := Hct.fromInt design
    let s : Hct ℝ := Hct.fromInt source
    let D := differenceDegrees d.getHue s.getHue
    Blend.harmonize ℝ design source = (Hct.fromHct out d.getChroma d.getTone).toInt ∧
    (0 ≤ out ∧ out < 360) ∧ differenceDegrees d.getHue out = min (D / 2) 15 ∧
    differenceDegrees out s.getHue = D - min (D / 2) 15 :=
  ⟨_, rfl, c31_hue _ _ (hue_range design) (hue_range source)⟩

/-! ### C64 -/

/-- C64: making viewing conditions panics exactly when the surround is outside [0, 2]. -/
theorem c64_panics_iff (wp : Option (Vec3 ℝ)) (al bl s : Option ℝ) (di : Option Bool) :
    ViewingConditions.make wp al bl s di = none ↔ ¬ (0 ≤ s.getD 2 ∧ s.getD 2 ≤ 2) := by
  have e0 : (0.0 : ℝ) = 0 := by norm_num
  have e2 : (2.0 : ℝ) = 2 := by norm_num
  simp only [ViewingConditions.make, e0, e2]
  split
  · next h => simp only [reduceCtorEq, false_iff, not_not]; exact h
  · next h => simp only [true_iff]; exact h

/-- C64: the background tone is at least 0.1 and the discounting factors mix 100/w and 1 by a degree of
adaptation `d` between 0 and 1 (1 if the illuminant is discounted). -/
theorem c64_adaptation (wp : Option (Vec3 ℝ)) (al bl s : Option ℝ) (di : Option Bool) :
    let vc := ViewingConditions.makeCore wp al bl s di
    let w := wpCones (wp.getD whitePointD65)
    0.1 ≤ vc.backgroundLstar ∧ ∃ d : ℝ, 0 ≤ d ∧ d ≤ 1 ∧ (di = some true → d = 1) ∧
      vc.rgbD.x0 = d * (100 / w.x0) + (1 - d) ∧ vc.rgbD.x1 = d * (100 / w.x1) + (1 - d) ∧
      vc.rgbD.x2 = d * (100 / w.x2) + (1 - d) := by
  intro vc w
  refine ⟨le_max_left _ _, adaptD al (s.getD 2) (di.getD false), (adaptD_mem _ _ _).1,
    (adaptD_mem _ _ _).2, ?_, ?_⟩
  · rintro rfl
    simp [adaptD]
  · have := makeCore_rgbD wp al bl s di
    rw [show vc.rgbD = _ from this]
    refine ⟨?_, ?_, ?_⟩ <;> exact add_sub_assoc _ _ _

/-- C64: for a white point with positive luminance and cone responses every quantity the appearance model
divides by or raises to a power is positive, so all results are finite. -/
theorem c64_positive (wp : Option (Vec3 ℝ)) (al bl s : Option ℝ) (di : Option Bool)
    (vc : ViewingConditions ℝ) (h : ViewingConditions.make wp al bl s di = some vc)
    (h0 : 0 < (wpCones (wp.getD whitePointD65)).x0) (h1 : 0 < (wpCones (wp.getD whitePointD65)).x1)
    (h2 : 0 < (wpCones (wp.getD whitePointD65)).x2) (hy : 0 < (wp.getD whitePointD65).x1) :
    0 < vc.aw ∧ 0 < vc.nbb ∧ 0 < vc.ncb ∧ 0 < vc.c ∧ 0 < vc.nC ∧ 0 < vc.rgbD.x0 ∧ 0 < vc.rgbD.x1 ∧
    0 < vc.rgbD.x2 ∧ 0 < vc.fl ∧ 0 < vc.fLroot ∧ 0 < vc.z ∧ 0 < vc.backgroundYToWhitePointY := by
  have hs : 0 ≤ s.getD 2 ∧ s.getD 2 ≤ 2 := by
    by_contra hc
    rw [(c64_panics_iff wp al bl s di).2 hc] at h
    cases h
  have e : vc = ViewingConditions.makeCore wp al bl s di := by
    have e0 : (0.0 : ℝ) = 0 := by norm_num
    have e2 : (2.0 : ℝ) = 2 := by norm_num
    simp only [ViewingConditions.make, e0, e2] at h
    rw [if_pos ⟨hs.1, hs.2⟩] at h
    exact (Option.some.inj h).symm
  have p := makeCore_pos wp al bl s di hs h0 h1 h2 hy
  rw [← e] at p
  exact ⟨p.aw, p.nbb, p.ncb, p.c, p.nC, p.d0, p.d1, p.d2, p.fl, p.fLroot, p.z, p.n⟩

/-- The defaults meet the hypotheses. -/
example : ∃ vc, ViewingConditions.make (F := ℝ) none none none none none = some vc ∧
    0 < (wpCones whitePointD65).x0 ∧ 0 < (wpCones whitePointD65).x1 ∧
    0 < (wpCones whitePointD65).x2 := by
  have : ViewingConditions.make (F := ℝ) none none none none none ≠ none := by
    rw [Ne, c64_panics_iff]; norm_num
  obtain ⟨vc, hvc⟩ := Option.ne_none_iff_exists'.1 this
  exact ⟨vc, hvc, d65_cones⟩

end Mcu.Props
