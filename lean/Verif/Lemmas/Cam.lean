import Verif.Model.Cam16
import Verif.Lemmas.Viewing

/-! The CAM16 forward and inverse transforms over the reals. -/

namespace Mcu.Lemmas

open Mcu.ColorUtils Mcu.MathUtils Real

theorem signum_pos {x : ℝ} (h : 0 < x) : signum x = 1 := by
  have e0 : (0.0 : ℝ) = 0 := by norm_num
  simp only [signum, e0, if_neg (not_lt.2 h.le), fl_beq]
  rw [if_neg h.ne']

theorem signum_zero : signum (0 : ℝ) = 0 := by
  have e0 : (0.0 : ℝ) = 0 := by norm_num
  simp only [signum, e0, lt_irrefl, if_false, fl_beq, if_true]

/-- The compressed cone response of a non-negative discounted response `d`. -/
noncomputable def cone (fl d : ℝ) : ℝ :=
  400 * (fl * d / 100) ^ (0.42 : ℝ) / ((fl * d / 100) ^ (0.42 : ℝ) + 27.13)

theorem cone_model {fl d : ℝ} (hd : 0 ≤ d) :
    (Fl.ofInt (signum d) : ℝ) * 400.0 * Fl.powf (fl * Fl.abs d / 100.0) (0.42 : ℝ) /
      (Fl.powf (fl * Fl.abs d / 100.0) (0.42 : ℝ) + 27.13) = cone fl d := by
  have e400 : (400.0 : ℝ) = 400 := by norm_num
  have e100 : (100.0 : ℝ) = 100 := by norm_num
  rw [fl_abs, abs_of_nonneg hd, fl_powf, fl_ofInt, e400, e100]
  unfold cone
  rcases hd.eq_or_lt with h | h
  · subst h
    rw [signum_zero]
    simp only [Int.cast_zero, zero_mul, zero_div, mul_zero]
    rw [zero_rpow (by norm_num)]
    norm_num
  · rw [signum_pos h]; simp

theorem cone_zero (fl : ℝ) : cone fl 0 = 0 := by
  unfold cone
  rw [mul_zero, zero_div, zero_rpow (by norm_num)]; norm_num

theorem cone_pos {fl d : ℝ} (hf : 0 < fl) (hd : 0 < d) : 0 < cone fl d := by
  unfold cone; positivity

theorem cone_nonneg {fl d : ℝ} (hf : 0 < fl) (hd : 0 ≤ d) : 0 ≤ cone fl d := by
  unfold cone; positivity

theorem cone_lt {fl d : ℝ} (hf : 0 < fl) (hd : 0 ≤ d) : cone fl d < 400 := by
  unfold cone
  have : 0 ≤ (fl * d / 100) ^ (0.42 : ℝ) := by positivity
  rw [div_lt_iff₀ (by positivity)]
  norm_num

theorem cone_eq_zero {fl d : ℝ} (hf : 0 < fl) (hd : 0 ≤ d) (h : cone fl d = 0) : d = 0 := by
  rcases hd.eq_or_lt with h' | h'
  · exact h'.symm
  · exact absurd h (cone_pos hf h').ne'

/-- The compression is inverted exactly. -/
theorem invCone_cone {fl d : ℝ} (hf : 0 < fl) (hd : 0 ≤ d) : Cam16.invCone (cone fl d) fl = d := by
  have e400 : (400.0 : ℝ) = 400 := by norm_num
  have e100 : (100.0 : ℝ) = 100 := by norm_num
  have e0 : (0.0 : ℝ) = 0 := by norm_num
  have e1 : (1.0 : ℝ) = 1 := by norm_num
  simp only [Cam16.invCone, e400, e100, e0, e1, fl_fmax, fl_abs, fl_ofInt, fl_powf]
  rcases hd.eq_or_lt with h | h
  · subst h; rw [cone_zero, signum_zero]; simp
  · rw [abs_of_nonneg (cone_nonneg hf hd), signum_pos (cone_pos hf h)]
    have hx : 0 < fl * d / 100 := by positivity
    have hp : 0 < (fl * d / 100) ^ (0.42 : ℝ) := by positivity
    have hb : 27.13 * cone fl d / (400 - cone fl d) = (fl * d / 100) ^ (0.42 : ℝ) := by
      unfold cone
      have hq : 0 < (fl * d / 100) ^ (0.42 : ℝ) + 27.13 := by positivity
      generalize (fl * d / 100) ^ (0.42 : ℝ) = p at *
      have hne : p + 27.13 ≠ 0 := hq.ne'
      have : 400 - 400 * p / (p + 27.13) = 400 * 27.13 / (p + 27.13) := by field_simp; ring
      rw [this]; field_simp
    rw [hb, max_eq_right hp.le, ← rpow_mul hx.le, show (0.42 : ℝ) * (1 / 0.42) = 1 by norm_num,
      rpow_one]
    have := hf.ne'
    simp only [Int.cast_one, one_mul]
    field_simp

/-! ### Polar coordinates -/

theorem polar (a b : ℝ) :
    a = Real.sqrt (a * a + b * b) * Real.cos (Complex.arg ⟨a, b⟩) ∧
    b = Real.sqrt (a * a + b * b) * Real.sin (Complex.arg ⟨a, b⟩) := by
  have hn : ‖(⟨a, b⟩ : ℂ)‖ = Real.sqrt (a * a + b * b) := by
    rw [Complex.norm_def, Complex.normSq_mk]
  constructor
  · rw [← hn]; exact (Complex.norm_mul_cos_arg ⟨a, b⟩).symm
  · rw [← hn]; exact (Complex.norm_mul_sin_arg ⟨a, b⟩).symm

/-- The angle in degrees before the adjustment. -/
noncomputable def argDeg (a b : ℝ) : ℝ := Complex.arg ⟨a, b⟩ * 180 / π

theorem argDeg_range (a b : ℝ) : -180 < argDeg a b ∧ argDeg a b ≤ 180 := by
  have h := Complex.arg_mem_Ioc (⟨a, b⟩ : ℂ)
  have hp := Real.pi_pos
  unfold argDeg
  constructor
  · rw [lt_div_iff₀ hp]; nlinarith [h.1]
  · rw [div_le_iff₀ hp]; nlinarith [h.2]

theorem hueDegrees_eq (a b : ℝ) : Cam16.hueDegrees a b =
    if argDeg a b < 0 then argDeg a b + 360 else argDeg a b := by
  have e0 : (0.0 : ℝ) = 0 := by norm_num
  have e180 : (180.0 : ℝ) = 180 := by norm_num
  have e360 : (360.0 : ℝ) = 360 := by norm_num
  simp only [Cam16.hueDegrees, e0, e180, e360]
  have : Fl.atan2 b a * 180 / Fl.pi = argDeg a b := rfl
  rw [this]
  have h := argDeg_range a b
  split
  · rfl
  · rw [if_neg (by linarith [h.2])]

theorem hueDegrees_range (a b : ℝ) :
    0 ≤ Cam16.hueDegrees a b ∧ Cam16.hueDegrees a b < 360 := by
  rw [hueDegrees_eq]
  have h := argDeg_range a b
  split <;> constructor <;> linarith [h.1, h.2]

theorem hueDegrees_polar (a b : ℝ) :
    a = Real.sqrt (a * a + b * b) * Real.cos (Cam16.hueDegrees a b * π / 180) ∧
    b = Real.sqrt (a * a + b * b) * Real.sin (Cam16.hueDegrees a b * π / 180) := by
  have hp := Real.pi_pos.ne'
  have h1 : argDeg a b * π / 180 = Complex.arg ⟨a, b⟩ := by unfold argDeg; field_simp
  have h2 : (argDeg a b + 360) * π / 180 = Complex.arg ⟨a, b⟩ + 2 * π := by
    rw [← h1]; ring
  rw [hueDegrees_eq]
  split
  · rw [h2, Real.cos_add_two_pi, Real.sin_add_two_pi]; exact polar a b
  · rw [h1]; exact polar a b

/-! ### Forward transform -/

/-- Raw cone responses of an XYZ colour. -/
noncomputable def rawCones (x y z : ℝ) : Vec3 ℝ :=
  ⟨0.401288 * x + 0.650173 * y - 0.051461 * z, (-0.250268) * x + 1.204414 * y + 0.045854 * z,
   (-0.002079) * x + 0.048952 * y + 0.953127 * z⟩

/-- An XYZ colour all of whose cone responses are non-negative (true of every sRGB colour). -/
structure ConesNonneg (x y z : ℝ) : Prop where
  c0 : 0 ≤ (rawCones x y z).x0
  c1 : 0 ≤ (rawCones x y z).x1
  c2 : 0 ≤ (rawCones x y z).x2

theorem adaptedCones_eq {x y z : ℝ} {vc : ViewingConditions ℝ} (hv : VcPos vc)
    (h : ConesNonneg x y z) :
    Cam16.adaptedCones x y z vc =
      ⟨cone vc.fl (vc.rgbD.x0 * (rawCones x y z).x0), cone vc.fl (vc.rgbD.x1 * (rawCones x y z).x1),
       cone vc.fl (vc.rgbD.x2 * (rawCones x y z).x2)⟩ := by
  rw [← cone_model (mul_nonneg hv.d0.le h.c0), ← cone_model (mul_nonneg hv.d1.le h.c1),
    ← cone_model (mul_nonneg hv.d2.le h.c2)]
  rfl

theorem kappa_pos {n : ℝ} (h : 0 < n) : 0 < (1.64 - (0.29 : ℝ) ^ n) ^ (0.73 : ℝ) := by
  have : (0.29 : ℝ) ^ n ≤ 1 := rpow_le_one (by norm_num) (by norm_num) h.le
  apply rpow_pos_of_pos
  norm_num at this ⊢; linarith

theorem ehue_pos (x : ℝ) : 0 < Real.cos x + 3.8 := by
  have := Real.neg_one_le_cos x
  norm_num; linarith

/-- Opponent coordinates, lightness and saturation terms computed from the adapted cones. -/
noncomputable def opA (v : Vec3 ℝ) : ℝ := (11.0 * v.x0 + (-12.0) * v.x1 + v.x2) / 11.0
noncomputable def opB (v : Vec3 ℝ) : ℝ := (v.x0 + v.x1 - 2.0 * v.x2) / 9.0
noncomputable def opU (v : Vec3 ℝ) : ℝ := (20.0 * v.x0 + 20.0 * v.x1 + 21.0 * v.x2) / 20.0
noncomputable def opP2 (v : Vec3 ℝ) : ℝ := (40.0 * v.x0 + 20.0 * v.x1 + v.x2) / 20.0
noncomputable def rho (v : Vec3 ℝ) : ℝ := Real.sqrt (opA v * opA v + opB v * opB v)

noncomputable def eccentricity (hue : ℝ) : ℝ := Real.cos (hue * π / 180 + 2) + 3.8

noncomputable def tTerm (v : Vec3 ℝ) (vc : ViewingConditions ℝ) : ℝ :=
  50000 / 13 * (1 / 4 * eccentricity (Cam16.hueDegrees (opA v) (opB v))) * vc.nC * vc.ncb *
    rho v / (opU v + 0.305)

noncomputable def kappaV (vc : ViewingConditions ℝ) : ℝ :=
  (1.64 - (0.29 : ℝ) ^ vc.backgroundYToWhitePointY) ^ (0.73 : ℝ)

noncomputable def alphaTerm (v : Vec3 ℝ) (vc : ViewingConditions ℝ) : ℝ :=
  tTerm v vc ^ (0.9 : ℝ) * kappaV vc

section forward

variable {x y z : ℝ} {vc : ViewingConditions ℝ}

theorem cam_hue : (Cam16.fromXyzInViewingConditions x y z vc).hue =
    Cam16.hueDegrees (opA (Cam16.adaptedCones x y z vc)) (opB (Cam16.adaptedCones x y z vc)) := rfl

theorem cam_j : (Cam16.fromXyzInViewingConditions x y z vc).j =
    100.0 * (opP2 (Cam16.adaptedCones x y z vc) * vc.nbb / vc.aw) ^ (vc.c * vc.z) := rfl

theorem cam_chroma : (Cam16.fromXyzInViewingConditions x y z vc).chroma =
    alphaTerm (Cam16.adaptedCones x y z vc) vc *
      Real.sqrt ((Cam16.fromXyzInViewingConditions x y z vc).j / 100.0) := by
  have e : eccentricity (Cam16.hueDegrees (opA (Cam16.adaptedCones x y z vc))
      (opB (Cam16.adaptedCones x y z vc))) =
      Real.cos ((if Cam16.hueDegrees (opA (Cam16.adaptedCones x y z vc))
          (opB (Cam16.adaptedCones x y z vc)) < 20.14 then
        Cam16.hueDegrees (opA (Cam16.adaptedCones x y z vc))
          (opB (Cam16.adaptedCones x y z vc)) + 360.0 else
        Cam16.hueDegrees (opA (Cam16.adaptedCones x y z vc))
          (opB (Cam16.adaptedCones x y z vc))) * π / 180.0 + 2.0) + 3.8 := by
    generalize Cam16.hueDegrees (opA (Cam16.adaptedCones x y z vc))
          (opB (Cam16.adaptedCones x y z vc)) = h
    unfold eccentricity
    have e2 : (2.0 : ℝ) = 2 := by norm_num
    have e180 : (180.0 : ℝ) = 180 := by norm_num
    have e360 : (360.0 : ℝ) = 360 := by norm_num
    rw [e2, e180, e360]
    split
    · rw [show (h + 360) * π / 180 + 2 = (h * π / 180 + 2) + 2 * π by ring, Real.cos_add_two_pi]
    · rfl
  have e5 : (50000.0 / 13.0 : ℝ) = 50000 / 13 := by norm_num
  have e14 : (1.0 / 4.0 : ℝ) = 1 / 4 := by norm_num
  unfold alphaTerm tTerm kappaV
  rw [e, ← e5, ← e14]
  rfl

theorem cam_m : (Cam16.fromXyzInViewingConditions x y z vc).m =
    (Cam16.fromXyzInViewingConditions x y z vc).chroma * vc.fLroot := rfl

theorem cam_q : (Cam16.fromXyzInViewingConditions x y z vc).q =
    (4.0 / vc.c) * Real.sqrt ((Cam16.fromXyzInViewingConditions x y z vc).j / 100.0) *
      (vc.aw + 4.0) * vc.fLroot := rfl

theorem cam_s_nonneg : 0 ≤ (Cam16.fromXyzInViewingConditions x y z vc).s := by
  have : ∃ w : ℝ, (Cam16.fromXyzInViewingConditions x y z vc).s = 50.0 * Real.sqrt w := ⟨_, rfl⟩
  obtain ⟨w, hw⟩ := this
  rw [hw]; positivity

theorem adapted_nonneg (hv : VcPos vc) (h : ConesNonneg x y z) :
    0 ≤ (Cam16.adaptedCones x y z vc).x0 ∧ 0 ≤ (Cam16.adaptedCones x y z vc).x1 ∧
    0 ≤ (Cam16.adaptedCones x y z vc).x2 := by
  rw [adaptedCones_eq hv h]
  exact ⟨cone_nonneg hv.fl (mul_nonneg hv.d0.le h.c0), cone_nonneg hv.fl (mul_nonneg hv.d1.le h.c1),
    cone_nonneg hv.fl (mul_nonneg hv.d2.le h.c2)⟩

theorem tTerm_nonneg (hv : VcPos vc) {v : Vec3 ℝ} (h : 0 ≤ v.x0 ∧ 0 ≤ v.x1 ∧ 0 ≤ v.x2) :
    0 ≤ tTerm v vc := by
  have hu : 0 ≤ opU v := by
    obtain ⟨h0, h1, h2⟩ := h
    unfold opU; positivity
  have he : 0 < eccentricity (Cam16.hueDegrees (opA v) (opB v)) := ehue_pos _
  have hr : 0 ≤ rho v := Real.sqrt_nonneg _
  have := hv.nC
  have := hv.ncb
  unfold tTerm
  positivity

theorem alpha_nonneg (hv : VcPos vc) {v : Vec3 ℝ} (h : 0 ≤ v.x0 ∧ 0 ≤ v.x1 ∧ 0 ≤ v.x2) :
    0 ≤ alphaTerm v vc := by
  have h1 := tTerm_nonneg hv h
  have h2 := (kappa_pos hv.n).le
  unfold alphaTerm
  exact mul_nonneg (rpow_nonneg h1 _) h2

theorem cam_nonneg (hv : VcPos vc) (h : ConesNonneg x y z) :
    0 ≤ (Cam16.fromXyzInViewingConditions x y z vc).j ∧
    0 ≤ (Cam16.fromXyzInViewingConditions x y z vc).chroma ∧
    0 ≤ (Cam16.fromXyzInViewingConditions x y z vc).q ∧
    0 ≤ (Cam16.fromXyzInViewingConditions x y z vc).m := by
  have ha := adapted_nonneg hv h
  have hp2 : 0 ≤ opP2 (Cam16.adaptedCones x y z vc) := by
    obtain ⟨h0, h1, h2⟩ := ha
    unfold opP2; positivity
  have hj : 0 ≤ (Cam16.fromXyzInViewingConditions x y z vc).j := by
    rw [cam_j]
    have := hv.nbb; have := hv.aw
    positivity
  have hc : 0 ≤ (Cam16.fromXyzInViewingConditions x y z vc).chroma := by
    rw [cam_chroma]
    exact mul_nonneg (alpha_nonneg hv ha) (Real.sqrt_nonneg _)
  refine ⟨hj, hc, ?_, ?_⟩
  · rw [cam_q]
    have := hv.c; have := hv.aw; have := hv.fLroot
    positivity
  · rw [cam_m]; exact mul_nonneg hc hv.fLroot.le

/-! ### Inverse transform -/

/-- The inverse transform is a function of lightness, of `alpha` (chroma over root lightness) and hue. -/
theorem xyz_fields (c1 c2 : Cam16 ℝ) (hj : c1.j = c2.j) (hc : c1.chroma = c2.chroma)
    (hh : c1.hue = c2.hue) :
    c1.xyzInViewingConditions vc = c2.xyzInViewingConditions vc := by
  simp only [Cam16.xyzInViewingConditions, hj, hc, hh]

/-- Without chroma the hue does not matter. -/
theorem xyz_no_chroma (c1 c2 : Cam16 ℝ) (hj : c1.j = c2.j) (h1 : c1.chroma = 0) (h2 : c2.chroma = 0) :
    c1.xyzInViewingConditions vc = c2.xyzInViewingConditions vc := by
  have e0 : (0.0 : ℝ) = 0 := by norm_num
  have hb : ((0 : ℝ) == 0) = true := (fl_beq 0 0).2 rfl
  have hz : Fl.powf (0 : ℝ) (1.0 / 0.9) = 0 := by
    rw [fl_powf, zero_rpow (by norm_num)]
  simp only [Cam16.xyzInViewingConditions, hj, h1, h2, e0, hb, Bool.true_or, if_true, hz, mul_zero,
    zero_mul, zero_div]

/-- The literal inverse of the cone matrix. -/
noncomputable def unCones (v : Vec3 ℝ) : Vec3 ℝ :=
  ⟨1.86206786 * v.x0 - 1.01125463 * v.x1 + 0.14918677 * v.x2,
   0.38752654 * v.x0 + 0.62144744 * v.x1 - 0.00897398 * v.x2,
   (-0.01584150) * v.x0 - 0.03412294 * v.x1 + 1.04996444 * v.x2⟩

theorem op_inverse (v : Vec3 ℝ) :
    (460.0 * opP2 v + 451.0 * opA v + 288.0 * opB v) / 1403.0 = v.x0 ∧
    (460.0 * opP2 v - 891.0 * opA v - 261.0 * opB v) / 1403.0 = v.x1 ∧
    (460.0 * opP2 v - 220.0 * opA v - 6300.0 * opB v) / 1403.0 = v.x2 := by
  unfold opP2 opA opB
  refine ⟨?_, ?_, ?_⟩ <;> norm_num <;> ring

theorem opU_eq (v : Vec3 ℝ) : opU v = opP2 v - (11 * opA v + 108 * opB v) / 23 := by
  unfold opU opP2 opA opB; norm_num; ring

theorem gamma_key (t p w r c s q : ℝ)
    (h : t * (p - (11 * (r * c) + 108 * (r * s)) / 23 + w) = q * r) :
    r * (23 * q + 11 * t * c + 108 * t * s) = 23 * (p + w) * t := by
  linear_combination (-23) * h

theorem xyz_inverse (hv : VcPos vc) (h : ConesNonneg x y z) :
    (Cam16.fromXyzInViewingConditions x y z vc).xyzInViewingConditions vc =
      unCones (rawCones x y z) := by
  set cam := Cam16.fromXyzInViewingConditions x y z vc with hcam
  set v := Cam16.adaptedCones x y z vc with hvdef
  have ha : 0 ≤ v.x0 ∧ 0 ≤ v.x1 ∧ 0 ≤ v.x2 := adapted_nonneg hv h
  have hp2 : 0 ≤ opP2 v := by
    obtain ⟨h0, h1, h2⟩ := ha
    unfold opP2; positivity
  have hu : 0 ≤ opU v := by
    obtain ⟨h0, h1, h2⟩ := ha
    unfold opU; positivity
  have ht := tTerm_nonneg hv ha
  have hk : 0 < kappaV vc := kappa_pos hv.n
  have hbase : 0 ≤ opP2 v * vc.nbb / vc.aw := by
    have := hv.nbb; have := hv.aw
    positivity
  have hcz : 0 < vc.c * vc.z := mul_pos hv.c hv.z
  have e100 : (100.0 : ℝ) = 100 := by norm_num
  have e0 : (0.0 : ℝ) = 0 := by norm_num
  have hj100 : cam.j / 100.0 = (opP2 v * vc.nbb / vc.aw) ^ (vc.c * vc.z) := by
    rw [hcam, cam_j, e100, ← hvdef, mul_div_cancel_left₀ _ (by norm_num)]
  -- alpha
  have halpha : (if (cam.chroma == 0.0 || cam.j == 0.0) = true then (0.0 : ℝ)
      else cam.chroma / Real.sqrt (cam.j / 100.0)) = alphaTerm v vc := by
    have hch : cam.chroma = alphaTerm v vc * Real.sqrt (cam.j / 100.0) := cam_chroma
    by_cases hj : cam.j = 0
    · have hz : (opP2 v * vc.nbb / vc.aw) ^ (vc.c * vc.z) = 0 := by
        rw [← hj100, hj]; norm_num
      rw [rpow_eq_zero hbase hcz.ne'] at hz
      have hp : opP2 v = 0 := by
        have h1 := hv.nbb.ne'
        have h2 := hv.aw.ne'
        rw [div_eq_zero_iff, mul_eq_zero] at hz
        rcases hz with (hz | hz) | hz
        · exact hz
        · exact absurd hz h1
        · exact absurd hz h2
      have hx : v.x0 = 0 ∧ v.x1 = 0 ∧ v.x2 = 0 := by
        unfold opP2 at hp
        norm_num at hp
        refine ⟨?_, ?_, ?_⟩ <;> linarith [ha.1, ha.2.1, ha.2.2]
      have hr : rho v = 0 := by
        unfold rho opA opB
        rw [hx.1, hx.2.1, hx.2.2]; norm_num
      have ht0 : tTerm v vc = 0 := by unfold tTerm; rw [hr]; simp
      have : (cam.chroma == 0.0 || cam.j == 0.0) = true := by
        rw [Bool.or_eq_true]; right; rw [fl_beq, hj, e0]
      rw [if_pos this, e0]
      unfold alphaTerm
      rw [ht0, zero_rpow (by norm_num), zero_mul]
    · have hs : Real.sqrt (cam.j / 100.0) ≠ 0 := by
        have hjn : 0 ≤ cam.j := (cam_nonneg hv h).1
        have : 0 < cam.j := lt_of_le_of_ne hjn (Ne.symm hj)
        rw [e100]; positivity
      by_cases hc : cam.chroma = 0
      · have : (cam.chroma == 0.0 || cam.j == 0.0) = true := by
          rw [Bool.or_eq_true]; left; rw [fl_beq, hc, e0]
        rw [if_pos this, e0]
        rw [hc] at hch
        rcases mul_eq_zero.1 hch.symm with h' | h'
        · exact h'.symm
        · exact absurd h' hs
      · have : ¬ (cam.chroma == 0.0 || cam.j == 0.0) = true := by
          rw [Bool.or_eq_true, not_or, fl_beq, fl_beq, e0]; exact ⟨hc, hj⟩
        rw [if_neg this, hch, mul_div_assoc, div_self hs, mul_one]
  -- t
  have hT : (alphaTerm v vc / (1.64 - (0.29 : ℝ) ^ vc.backgroundYToWhitePointY) ^ (0.73 : ℝ)) ^
      (1.0 / 0.9 : ℝ) = tTerm v vc := by
    have : alphaTerm v vc / (1.64 - (0.29 : ℝ) ^ vc.backgroundYToWhitePointY) ^ (0.73 : ℝ) =
        tTerm v vc ^ (0.9 : ℝ) := by
      show alphaTerm v vc / kappaV vc = _
      unfold alphaTerm; rw [mul_div_assoc, div_self hk.ne', mul_one]
    rw [this, ← rpow_mul ht, show (0.9 : ℝ) * (1.0 / 0.9) = 1 by norm_num, rpow_one]
  -- ac
  have hac : vc.aw * (cam.j / 100.0) ^ (1.0 / vc.c / vc.z) / vc.nbb = opP2 v := by
    have hc := hv.c.ne'
    have hz := hv.z.ne'
    have hn := hv.nbb.ne'
    have haw := hv.aw.ne'
    rw [hj100, ← rpow_mul hbase, show vc.c * vc.z * (1.0 / vc.c / vc.z) = 1 by
        rw [show (1.0 : ℝ) = 1 by norm_num]; field_simp,
      rpow_one]
    field_simp
  -- hue
  have hcos := hueDegrees_polar (opA v) (opB v)
  have hhue : cam.hue = Cam16.hueDegrees (opA v) (opB v) := rfl
  set θ := cam.hue * π / 180.0 with hθ
  have e180 : (180.0 : ℝ) = 180 := by norm_num
  have hθ' : θ = Cam16.hueDegrees (opA v) (opB v) * π / 180 := by rw [hθ, hhue, e180]
  rw [← hθ'] at hcos
  -- gamma
  have hp1 : 0 < 0.25 * (Real.cos (θ + 2.0) + 3.8) * (50000.0 / 13.0) * vc.nC * vc.ncb := by
    have := ehue_pos (θ + 2.0)
    have := hv.nC; have := hv.ncb
    positivity
  set p1 := 0.25 * (Real.cos (θ + 2.0) + 3.8) * (50000.0 / 13.0) * vc.nC * vc.ncb with hp1def
  have htp : tTerm v vc * (opU v + 0.305) = p1 * rho v := by
    have e2 : (2.0 : ℝ) = 2 := by norm_num
    have he : eccentricity (Cam16.hueDegrees (opA v) (opB v)) = Real.cos (θ + 2.0) + 3.8 := by
      unfold eccentricity; rw [hθ', e2]
    have hne : opU v + 0.305 ≠ 0 := by positivity
    unfold tTerm
    rw [he, div_mul_cancel₀ _ hne, hp1def, show (0.25 : ℝ) = 1 / 4 by norm_num,
      show (50000.0 / 13.0 : ℝ) = 50000 / 13 by norm_num]
    generalize Real.cos (θ + 2.0) + 3.8 = w
    ring
  have huU := opU_eq v
  have hgamma : 23.0 * (opP2 v + 0.305) * tTerm v vc /
      (23.0 * p1 + 11.0 * tTerm v vc * Real.cos θ + 108.0 * tTerm v vc * Real.sin θ) = rho v := by
    have hr0 : 0 ≤ rho v := Real.sqrt_nonneg _
    have ea : opA v = rho v * Real.cos θ := hcos.1
    have eb : opB v = rho v * Real.sin θ := hcos.2
    have key : rho v * (23 * p1 + 11 * tTerm v vc * Real.cos θ + 108 * tTerm v vc * Real.sin θ) =
        23 * (opP2 v + 0.305) * tTerm v vc := by
      rw [huU, ea, eb] at htp
      exact gamma_key _ _ _ _ _ _ _ htp
    rw [show (23.0 : ℝ) = 23 by norm_num, show (11.0 : ℝ) = 11 by norm_num,
      show (108.0 : ℝ) = 108 by norm_num]
    rcases hr0.eq_or_lt with h0 | h0
    · have ht0 : tTerm v vc = 0 := by unfold tTerm; rw [← h0]; simp
      rw [ht0, ← h0]; simp
    · have htpos : 0 < tTerm v vc := by
        have : 0 < p1 * rho v := mul_pos hp1 h0
        rw [← htp] at this
        exact (pos_iff_pos_of_mul_pos this).2 (by positivity)
      have hD : 0 < 23 * p1 + 11 * tTerm v vc * Real.cos θ + 108 * tTerm v vc * Real.sin θ := by
        have : 0 < rho v * (23 * p1 + 11 * tTerm v vc * Real.cos θ + 108 * tTerm v vc * Real.sin θ) := by
          rw [key]; positivity
        exact (pos_iff_pos_of_mul_pos this).1 h0
      rw [div_eq_iff hD.ne', key]
  -- assemble
  have hga : rho v * Real.cos θ = opA v := hcos.1.symm
  have hgb : rho v * Real.sin θ = opB v := hcos.2.symm
  obtain ⟨hr, hg, hb⟩ := op_inverse v
  have hveq := adaptedCones_eq hv h
  rw [← hvdef] at hveq
  have i0 : Cam16.invCone v.x0 vc.fl / vc.rgbD.x0 = (rawCones x y z).x0 := by
    rw [hveq, invCone_cone hv.fl (mul_nonneg hv.d0.le h.c0)]
    have := hv.d0.ne'; field_simp
  have i1 : Cam16.invCone v.x1 vc.fl / vc.rgbD.x1 = (rawCones x y z).x1 := by
    rw [hveq, invCone_cone hv.fl (mul_nonneg hv.d1.le h.c1)]
    have := hv.d1.ne'; field_simp
  have i2 : Cam16.invCone v.x2 vc.fl / vc.rgbD.x2 = (rawCones x y z).x2 := by
    rw [hveq, invCone_cone hv.fl (mul_nonneg hv.d2.le h.c2)]
    have := hv.d2.ne'; field_simp
  simp only [Cam16.xyzInViewingConditions, fl_powf, fl_sqrt, fl_cos, fl_sin, fl_pi]
  rw [halpha, hT]
  simp only [hac, ← hθ, ← hp1def, hgamma, hga, hgb, hr, hg, hb, i0, i1, i2]
  rfl

end forward

end Mcu.Lemmas
