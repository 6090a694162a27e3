import Verif.Lemmas.Srgb
import Verif.Props.Bits

/-! C10 - C13, C15, C16: transfer functions, luminance and tone, XYZ and L*a*b* round trips. -/

namespace Mcu.Props

open Mcu.ColorUtils Mcu.MathUtils Mcu.Lemmas Real

/-! ### C10 -/

/-- C10: converting a channel to linear light and back returns the channel. -/
theorem c10_round_trip (c : Int) (h0 : 0 ≤ c) (h1 : c ≤ 255) :
    delinearized (linearized c : ℝ) = c :=
  delinearized_near h0 h1 (by norm_num)

example : (0 : Int) ≤ 128 ∧ (128 : Int) ≤ 255 := by decide

/-- C10: linearisation starts at 0, ends at 100. -/
theorem c10_endpoints : (linearized 0 : ℝ) = 0 ∧ (linearized 255 : ℝ) = 100 := by
  constructor
  · rw [linearized_small (by norm_num)]; norm_num
  · rw [linearized_large (by norm_num)]
    unfold gpow
    rw [show ((((255 : ℤ) : ℝ) / 255 + 0.055) / 1.055) = 1 by norm_num, one_rpow]; norm_num

theorem linearized_step (c d : Int) (h : c < d) : (linearized c : ℝ) < linearized d := by
  have hr : (c : ℝ) < d := by exact_mod_cast h
  rcases le_or_gt d 10 with hd | hd
  · rw [linearized_small hd, linearized_small (by omega)]
    gcongr
  · have hd : 11 ≤ d := hd
    rcases le_or_gt c 10 with hc | hc
    · rw [linearized_small hc, linearized_large hd]
      have hcr : (c : ℝ) ≤ 10 := by exact_mod_cast hc
      have hdr : (11 : ℝ) ≤ d := by exact_mod_cast hd
      have h1 : (0.0031 : ℝ) < gpow (11 / 255) := by
        unfold gpow; rw [e24]; apply lt_rpow_of_pow_lt <;> norm_num
      have h2 := gpow_mono (v := 11 / 255) (w := d / 255) (by norm_num) (by gcongr)
      norm_num at h1 ⊢
      linarith
    · have hc : 11 ≤ c := hc
      have hcr : (11 : ℝ) ≤ c := by exact_mod_cast hc
      rw [linearized_large hc, linearized_large hd]
      have := gpow_strictMono (v := c / 255) (w := d / 255) (by norm_num; linarith) (by gcongr)
      linarith

/-- C10: linearisation is strictly increasing. -/
theorem c10_strictMono : StrictMono (fun c : Int => (linearized c : ℝ)) :=
  fun c d h => linearized_step c d h

/-- C10: for every number type whatsoever (hence for IEEE doubles including NaN and infinities, with any
math library) a delinearised channel lies in 0..255. -/
theorem c10_range {F : Type} [Fl F] (x : F) : 0 ≤ delinearized x ∧ delinearized x ≤ 255 :=
  (c09_clamp_int 0 255 _ (by decide)).1

/-- C10: delinearisation is monotone, is 0 for non-positive values and 255 from 100 on. -/
theorem c10_delinearized_monotone : Monotone (delinearized : ℝ → Int) :=
  fun _ _ h => delinearized_mono h

theorem c10_delinearized_ends (x : ℝ) :
    (x ≤ 0 → delinearized x = 0) ∧ (100 ≤ x → delinearized x = 255) := by
  constructor
  · intro h
    have h1 := delinearized_mono h
    have h2 := c10_round_trip 0 (by norm_num) (by norm_num)
    rw [c10_endpoints.1] at h2
    have := (c10_range x).1
    omega
  · intro h
    have h1 := delinearized_mono h
    have h2 := c10_round_trip 255 (by norm_num) (by norm_num)
    rw [c10_endpoints.2] at h2
    have := (c10_range x).2
    omega

/-! ### C11 -/

/-- C11: tone to luminance to tone is the identity (on all reals, in particular on [0, 100]). -/
theorem c11_lstar_y_lstar (l : ℝ) : lstarFromY (yFromLstar l) = l := by
  rw [lstarFromY_eq, yFromLstar_eq, show 100 * labInvf ((l + 16) / 116) / 100 =
    labInvf ((l + 16) / 116) by ring, labF_labInvf]
  ring

/-- C11: luminance to tone to luminance is the identity. -/
theorem c11_y_lstar_y (y : ℝ) : yFromLstar (lstarFromY y) = y := by
  rw [yFromLstar_eq, lstarFromY_eq, show (labF (y / 100) * 116 - 16 + 16) / 116 = labF (y / 100) by ring,
    labInvf_labF]
  ring

/-- C11: both conversions are strictly increasing. -/
theorem c11_strictMono :
    StrictMono (yFromLstar : ℝ → ℝ) ∧ StrictMono (lstarFromY : ℝ → ℝ) := by
  constructor
  · intro a b h
    rw [yFromLstar_eq, yFromLstar_eq]
    have : (a + 16) / 116 < (b + 16) / 116 := by gcongr
    have := labInvf_strictMono this
    linarith
  · intro a b h
    rw [lstarFromY_eq, lstarFromY_eq]
    have : a / 100 < b / 100 := by gcongr
    have := labF_strictMono this
    linarith

/-- C11: 0 maps to 0 and 100 to 100. -/
theorem c11_endpoints : yFromLstar (0 : ℝ) = 0 ∧ yFromLstar (100 : ℝ) = 100 ∧
    lstarFromY (0 : ℝ) = 0 ∧ lstarFromY (100 : ℝ) = 100 := by
  have h0 : yFromLstar (0 : ℝ) = 0 := by
    rw [yFromLstar_eq, labInvf_of_le (by norm_num)]; norm_num
  have h1 : yFromLstar (100 : ℝ) = 100 := by
    rw [yFromLstar_eq, labInvf_of_gt (by norm_num)]; norm_num
  refine ⟨h0, h1, ?_, ?_⟩
  · have := c11_lstar_y_lstar 0; rwa [h0] at this
  · have := c11_lstar_y_lstar 100; rwa [h1] at this

/-- C11: the interval [0, 100] is mapped onto itself in both directions. -/
theorem c11_range (x : ℝ) : (0 ≤ x ∧ x ≤ 100 ↔ 0 ≤ yFromLstar x ∧ yFromLstar x ≤ 100) ∧
    (0 ≤ x ∧ x ≤ 100 ↔ 0 ≤ lstarFromY x ∧ lstarFromY x ≤ 100) := by
  obtain ⟨m1, m2⟩ := c11_strictMono
  obtain ⟨a, b, c, d⟩ := c11_endpoints
  constructor
  · have h0 := m1.le_iff_le (a := 0) (b := x)
    have h1 := m1.le_iff_le (a := x) (b := 100)
    rw [a] at h0; rw [b] at h1; rw [h0, h1]
  · have h0 := m2.le_iff_le (a := 0) (b := x)
    have h1 := m2.le_iff_le (a := x) (b := 100)
    rw [c] at h0; rw [d] at h1; rw [h0, h1]

/-! ### C12 -/

theorem channel_range (argb : Int) : (0 ≤ redFromArgb argb ∧ redFromArgb argb ≤ 255) ∧
    (0 ≤ greenFromArgb argb ∧ greenFromArgb argb ≤ 255) ∧
    (0 ≤ blueFromArgb argb ∧ blueFromArgb argb ≤ 255) := by
  simp only [redFromArgb, greenFromArgb, blueFromArgb]; omega

theorem linearized_range (c : Int) (h0 : 0 ≤ c) (h1 : c ≤ 255) :
    0 ≤ (linearized c : ℝ) ∧ (linearized c : ℝ) ≤ 100 := by
  have a := c10_strictMono.monotone h0
  have b := c10_strictMono.monotone h1
  simp only [c10_endpoints.1, c10_endpoints.2] at a b
  exact ⟨a, b⟩

/-- Multiplying by the sRGB to XYZ matrix and by its printed inverse moves no channel by more than 0.001
(of 100). -/
theorem xyz_matrices (r g b : ℝ) (hr : 0 ≤ r ∧ r ≤ 100) (hg : 0 ≤ g ∧ g ≤ 100) (hb : 0 ≤ b ∧ b ≤ 100) :
    let v := matrixMultiply (matrixMultiply ⟨r, g, b⟩ srgbToXyz) xyzToSrgb
    |v.x0 - r| ≤ 0.001 ∧ |v.x1 - g| ≤ 0.001 ∧ |v.x2 - b| ≤ 0.001 := by
  simp only [matrixMultiply, srgbToXyz, xyzToSrgb]
  norm_num
  refine ⟨?_, ?_, ?_⟩ <;> rw [abs_le] <;> constructor <;> linarith [hr.1, hr.2, hg.1, hg.2, hb.1, hb.2]

theorem argbFromXyz_matrix (v : Vec3 ℝ) : argbFromXyz v.x0 v.x1 v.x2 =
    argbFromLinrgb (matrixMultiply v xyzToSrgb) := by
  simp only [argbFromXyz, argbFromLinrgb, matrixMultiply, mul_comm]

/-- C12: converting a colour to XYZ and back keeps the three channels and sets alpha to 255. -/
theorem c12_xyz_round_trip (argb : Int) :
    argbFromXyz (xyzFromArgb argb : Vec3 ℝ).x0 (xyzFromArgb argb : Vec3 ℝ).x1
      (xyzFromArgb argb : Vec3 ℝ).x2 = 0xFF000000 + argb % 2 ^ 24 := by
  obtain ⟨hr, hg, hb⟩ := channel_range argb
  have h := xyz_matrices _ _ _ (linearized_range _ hr.1 hr.2) (linearized_range _ hg.1 hg.2)
    (linearized_range _ hb.1 hb.2)
  rw [argbFromXyz_matrix, xyzFromArgb, argbFromLinrgb]
  simp only at h ⊢
  rw [delinearized_near hr.1 hr.2 (h.1.trans (by norm_num)),
    delinearized_near hg.1 hg.2 (h.2.1.trans (by norm_num)),
    delinearized_near hb.1 hb.2 (h.2.2.trans (by norm_num))]
  exact c02_unpack_pack argb

/-- C12 for opaque colours: the identity. -/
theorem c12_xyz_identity (argb : Int) (h : 0xFF000000 ≤ argb ∧ argb ≤ 0xFFFFFFFF) :
    argbFromXyz (xyzFromArgb argb : Vec3 ℝ).x0 (xyzFromArgb argb : Vec3 ℝ).x1
      (xyzFromArgb argb : Vec3 ℝ).x2 = argb := by
  rw [c12_xyz_round_trip]; omega

example : (0xFF000000 : Int) ≤ 0xFF12AB56 ∧ (0xFF12AB56 : Int) ≤ 0xFFFFFFFF := by decide

/-! ### C13 -/

/-- C13: converting a colour to L*a*b* and back keeps the three channels and sets alpha to 255. -/
theorem c13_lab_round_trip (argb : Int) :
    argbFromLab (labFromArgb argb : Vec3 ℝ).x0 (labFromArgb argb : Vec3 ℝ).x1
      (labFromArgb argb : Vec3 ℝ).x2 = 0xFF000000 + argb % 2 ^ 24 := by
  rw [← c12_xyz_round_trip argb]
  have e116 : (116.0 : ℝ) = 116 := by norm_num
  have e16 : (16.0 : ℝ) = 16 := by norm_num
  have e500 : (500.0 : ℝ) = 500 := by norm_num
  have e200 : (200.0 : ℝ) = 200 := by norm_num
  simp only [argbFromLab, labFromArgb, whitePointD65, xyzFromArgb, matrixMultiply, e116, e16, e500, e200]
  have f1 (f : ℝ) : (116 * f - 16 + 16) / 116 = f := by ring
  have f2 (f g : ℝ) : 500 * (f - g) / 500 + g = f := by ring
  have f3 (f g : ℝ) : g - 200 * (g - f) / 200 = f := by ring
  simp only [f1, f2, f3, labInvf_labF]
  congr 1
  · rw [div_mul_cancel₀ _ (by norm_num)]; simp only [mul_comm]
  · rw [div_mul_cancel₀ _ (by norm_num)]; simp only [mul_comm]
  · rw [div_mul_cancel₀ _ (by norm_num)]; simp only [mul_comm]

theorem c13_lab_identity (argb : Int) (h : 0xFF000000 ≤ argb ∧ argb ≤ 0xFFFFFFFF) :
    argbFromLab (labFromArgb argb : Vec3 ℝ).x0 (labFromArgb argb : Vec3 ℝ).x1
      (labFromArgb argb : Vec3 ℝ).x2 = argb := by
  rw [c13_lab_round_trip]; omega

/-! ### C15 -/

/-- Relative luminance of a colour in the range 0..100. -/
theorem luminance_eq (argb : Int) : (xyzFromArgb argb : Vec3 ℝ).x1 =
    0.2126 * linearized (redFromArgb argb) + 0.7152 * linearized (greenFromArgb argb) +
      0.0722 * linearized (blueFromArgb argb) := by
  simp only [xyzFromArgb, matrixMultiply, srgbToXyz]; ring

theorem lstarFromArgb_eq (argb : Int) :
    (lstarFromArgb argb : ℝ) = lstarFromY (xyzFromArgb argb : Vec3 ℝ).x1 := by
  show (116.0 : ℝ) * labF (_ / 100.0) - 16.0 = labF (_ / 100.0) * 116.0 - 16.0
  rw [mul_comm]

theorem luminance_range (argb : Int) :
    0 ≤ (xyzFromArgb argb : Vec3 ℝ).x1 ∧ (xyzFromArgb argb : Vec3 ℝ).x1 ≤ 100 := by
  obtain ⟨hr, hg, hb⟩ := channel_range argb
  have r := linearized_range _ hr.1 hr.2
  have g := linearized_range _ hg.1 hg.2
  have b := linearized_range _ hb.1 hb.2
  rw [luminance_eq]
  norm_num
  constructor <;> linarith [r.1, r.2, g.1, g.2, b.1, b.2]

/-- C15: the tone of every colour lies in [0, 100]. -/
theorem c15_range (argb : Int) : 0 ≤ (lstarFromArgb argb : ℝ) ∧ (lstarFromArgb argb : ℝ) ≤ 100 := by
  rw [lstarFromArgb_eq]
  exact (c11_range _).2.1 (luminance_range argb)

/-- C15: the tone does not depend on alpha (nor on higher bits). -/
theorem c15_ignores_alpha {F : Type} [Fl F] (a b : Int) (h : a % 2 ^ 24 = b % 2 ^ 24) :
    (lstarFromArgb a : F) = lstarFromArgb b := by
  have h1 : redFromArgb a = redFromArgb b := by simp only [redFromArgb]; omega
  have h2 : greenFromArgb a = greenFromArgb b := by simp only [greenFromArgb]; omega
  have h3 : blueFromArgb a = blueFromArgb b := by simp only [blueFromArgb]; omega
  simp only [lstarFromArgb, xyzFromArgb, h1, h2, h3]

example : (0xFF102030 : Int) % 2 ^ 24 = 0x80102030 % 2 ^ 24 := by decide

/-- C15: the tone strictly increases when some channel increases and none decreases. -/
theorem c15_strictly_monotone (a b : Int) (hr : redFromArgb a ≤ redFromArgb b)
    (hg : greenFromArgb a ≤ greenFromArgb b) (hb : blueFromArgb a ≤ blueFromArgb b)
    (hne : redFromArgb a < redFromArgb b ∨ greenFromArgb a < greenFromArgb b ∨
      blueFromArgb a < blueFromArgb b) :
    (lstarFromArgb a : ℝ) < lstarFromArgb b := by
  rw [lstarFromArgb_eq, lstarFromArgb_eq]
  apply c11_strictMono.2
  rw [luminance_eq, luminance_eq]
  have r : (linearized _ : ℝ) ≤ linearized _ := c10_strictMono.monotone hr
  have g : (linearized _ : ℝ) ≤ linearized _ := c10_strictMono.monotone hg
  have b : (linearized _ : ℝ) ≤ linearized _ := c10_strictMono.monotone hb
  norm_num
  rcases hne with h | h | h
  · have := linearized_step _ _ h; linarith
  · have := linearized_step _ _ h; linarith
  · have := linearized_step _ _ h; linarith

example : redFromArgb 0xFF102030 ≤ redFromArgb 0xFF112030 ∧
    redFromArgb 0xFF102030 < redFromArgb 0xFF112030 := by decide

theorem lstar_black : (lstarFromArgb 0 : ℝ) = 0 := by
  rw [lstarFromArgb_eq, luminance_eq]
  have h1 : redFromArgb 0 = 0 := by decide
  have h2 : greenFromArgb 0 = 0 := by decide
  have h3 : blueFromArgb 0 = 0 := by decide
  rw [h1, h2, h3, c10_endpoints.1]
  norm_num [c11_endpoints.2.2.1]

theorem lstar_white : (lstarFromArgb 0xFFFFFF : ℝ) = 100 := by
  rw [lstarFromArgb_eq, luminance_eq]
  have h1 : redFromArgb 0xFFFFFF = 255 := by decide
  have h2 : greenFromArgb 0xFFFFFF = 255 := by decide
  have h3 : blueFromArgb 0xFFFFFF = 255 := by decide
  rw [h1, h2, h3, c10_endpoints.2]
  norm_num [c11_endpoints.2.2.2]

/-- C15: only black has tone 0 and only white has tone 100. -/
theorem c15_extremes (argb : Int) :
    ((lstarFromArgb argb : ℝ) = 0 ↔ argb % 2 ^ 24 = 0) ∧
    ((lstarFromArgb argb : ℝ) = 100 ↔ argb % 2 ^ 24 = 0xFFFFFF) := by
  obtain ⟨hr, hg, hb⟩ := channel_range argb
  have h1 : redFromArgb 0 = 0 := by decide
  have h2 : greenFromArgb 0 = 0 := by decide
  have h3 : blueFromArgb 0 = 0 := by decide
  have k1 : redFromArgb 0xFFFFFF = 255 := by decide
  have k2 : greenFromArgb 0xFFFFFF = 255 := by decide
  have k3 : blueFromArgb 0xFFFFFF = 255 := by decide
  constructor
  · constructor
    · intro h
      by_contra hne
      have := c15_strictly_monotone 0 argb (by omega) (by omega) (by omega) (by
        rw [h1, h2, h3]
        simp only [redFromArgb, greenFromArgb, blueFromArgb] at *
        omega)
      rw [lstar_black, h] at this
      exact lt_irrefl _ this
    · intro h
      rw [← lstar_black]
      exact c15_ignores_alpha _ _ (by rw [h]; rfl)
  · constructor
    · intro h
      by_contra hne
      have := c15_strictly_monotone argb 0xFFFFFF (by omega) (by omega) (by omega) (by
        rw [k1, k2, k3]
        simp only [redFromArgb, greenFromArgb, blueFromArgb] at *
        omega)
      rw [lstar_white, h] at this
      exact lt_irrefl _ this
    · intro h
      rw [← lstar_white]
      exact c15_ignores_alpha _ _ (by rw [h]; rfl)

/-! ### C16 -/

/-- C16: the colour built from a tone has three equal channels (for any number type). -/
theorem c16_gray {F : Type} [Fl F] (t : F) :
    redFromArgb (argbFromLstar t) = greenFromArgb (argbFromLstar t) ∧
    greenFromArgb (argbFromLstar t) = blueFromArgb (argbFromLstar t) ∧
    alphaFromArgb (argbFromLstar t) = 255 := by
  have h := c01_channels (delinearized (yFromLstar t)) (delinearized (yFromLstar t))
    (delinearized (yFromLstar t))
  simp only [argbFromLstar]
  omega

/-- The gray level chosen for a tone. -/
theorem argbFromLstar_level (t : ℝ) :
    redFromArgb (argbFromLstar t) = delinearized (yFromLstar t) ∧
    greenFromArgb (argbFromLstar t) = delinearized (yFromLstar t) ∧
    blueFromArgb (argbFromLstar t) = delinearized (yFromLstar t) := by
  have hr := c10_range (yFromLstar t)
  have := c01_pack_unpack _ _ _ hr hr hr
  simpa only [argbFromLstar] using this

/-- C16: a larger tone never gives a darker gray. -/
theorem c16_monotone (s t : ℝ) (h : s ≤ t) :
    redFromArgb (argbFromLstar s) ≤ redFromArgb (argbFromLstar t) := by
  rw [(argbFromLstar_level s).1, (argbFromLstar_level t).1]
  exact delinearized_mono (c11_strictMono.1.monotone h)

/-- C16: tones up to 0 give black, tones from 100 on give white. -/
theorem c16_saturates (t : ℝ) : (t ≤ 0 → argbFromLstar t = 0xFF000000) ∧
    (100 ≤ t → argbFromLstar t = 0xFFFFFFFF) := by
  constructor
  · intro h
    have := c11_strictMono.1.monotone h
    rw [c11_endpoints.1] at this
    simp only [argbFromLstar, (c10_delinearized_ends _).1 this]
    decide
  · intro h
    have := c11_strictMono.1.monotone h
    rw [c11_endpoints.2.1] at this
    simp only [argbFromLstar, (c10_delinearized_ends _).2 this]
    decide

/-- Luminance of a gray is the linear value of its level. -/
theorem lstar_of_gray (argb c : Int) (hr : redFromArgb argb = c) (hg : greenFromArgb argb = c)
    (hb : blueFromArgb argb = c) : (lstarFromArgb argb : ℝ) = lstarFromY (linearized c) := by
  rw [lstarFromArgb_eq, luminance_eq, hr, hg, hb]
  congr 1
  ring

/-- C16: asking for the tone of a gray returns exactly that gray. -/
theorem c16_exact_on_grays (argb : Int) (h : 0xFF000000 ≤ argb ∧ argb ≤ 0xFFFFFFFF)
    (hrg : redFromArgb argb = greenFromArgb argb) (hgb : greenFromArgb argb = blueFromArgb argb) :
    argbFromLstar (lstarFromArgb argb : ℝ) = argb := by
  obtain ⟨hr, -, -⟩ := channel_range argb
  rw [lstar_of_gray argb (redFromArgb argb) rfl hrg.symm (hrg.trans hgb).symm]
  simp only [argbFromLstar, c11_y_lstar_y, c10_round_trip _ hr.1 hr.2]
  have := c02_opaque_identity argb h
  rwa [← hgb, ← hrg] at this

example : (0xFF000000 : Int) ≤ 0xFF777777 ∧ redFromArgb 0xFF777777 = greenFromArgb 0xFF777777 := by
  decide

/-- L* of a relative luminance in 0..1. -/
noncomputable def lOf (y : ℝ) : ℝ := 116 * labF y - 16

theorem lOf_small {y : ℝ} (h : y ≤ 216 / 24389) : lOf y = 24389 / 27 * y := by
  rw [lOf, labF_of_le h]; ring

/-- Slope of the power branch from above. -/
theorem gpow_sub_le {v w : ℝ} (hv : -0.055 ≤ v) (hvw : v ≤ w) (hw : gpow w ≤ 216 / 24389) :
    gpow w - gpow v ≤ 0.1447 * (w - v) := by
  rcases eq_or_lt_of_le hvw with rfl | hlt
  · simp
  have hv0 : 0 ≤ v + 0.055 := by norm_num at hv ⊢; linarith
  have hw0 : 0 < w + 0.055 := by linarith
  have hb := one_add_mul_self_le_rpow_one_add (s := -(w - v) / (w + 0.055)) (p := 2.4)
    (by rw [le_div_iff₀ hw0]; linarith) (by norm_num)
  have e : gpow v = gpow w * (1 + -(w - v) / (w + 0.055)) ^ (2.4 : ℝ) := by
    have : 1 + -(w - v) / (w + 0.055) = (v + 0.055) / (w + 0.055) := by field_simp; ring
    unfold gpow
    rw [this, ← mul_rpow (div_nonneg hw0.le (by norm_num)) (div_nonneg hv0 hw0.le)]
    congr 1
    field_simp
  have hu : (w + 0.055) / 1.055 ≤ 0.1396 := by
    by_contra hc
    have h1 : (0.1396 : ℝ) ^ (2.4 : ℝ) ≤ gpow w := by
      unfold gpow
      exact rpow_le_rpow (by norm_num) (not_le.1 hc).le (by norm_num)
    have h2 : (216 / 24389 : ℝ) < (0.1396 : ℝ) ^ (2.4 : ℝ) := by
      rw [e24]; apply lt_rpow_of_pow_lt <;> norm_num
    linarith
  have hs : ((w + 0.055) / 1.055) ^ (1.4 : ℝ) ≤ 0.0636 := by
    calc ((w + 0.055) / 1.055) ^ (1.4 : ℝ) ≤ (0.1396 : ℝ) ^ (1.4 : ℝ) := by
          apply rpow_le_rpow (by positivity) hu (by norm_num)
      _ ≤ 0.0636 := by
          rw [show (1.4 : ℝ) = ((7 : ℕ) : ℝ) / ((5 : ℕ) : ℝ) by norm_num]
          apply rpow_le_of_le_pow <;> norm_num
  have e2 : gpow w = (w + 0.055) / 1.055 * ((w + 0.055) / 1.055) ^ (1.4 : ℝ) := by
    unfold gpow
    rw [show (2.4 : ℝ) = 1 + 1.4 by norm_num, rpow_add (by positivity), rpow_one]
  have hg : 0 ≤ gpow w := gpow_nonneg (by linarith)
  calc gpow w - gpow v ≤ gpow w * (2.4 * ((w - v) / (w + 0.055))) := by
        rw [e]
        have : -(w - v) / (w + 0.055) = -((w - v) / (w + 0.055)) := by ring
        rw [this] at hb ⊢
        nlinarith
    _ = 2.4 * (w - v) / 1.055 * ((w + 0.055) / 1.055) ^ (1.4 : ℝ) := by
        rw [e2]; field_simp
    _ ≤ 2.4 * (w - v) / 1.055 * 0.0636 := by
        have : 0 ≤ 2.4 * (w - v) / 1.055 := by
          have : 0 ≤ w - v := by linarith
          positivity
        gcongr
    _ ≤ 0.1447 * (w - v) := by norm_num; nlinarith

theorem cbrt_gpow {v : ℝ} (hv : 0 ≤ v) : (gpow v) ^ (1 / 3 : ℝ) = ((v + 0.055) / 1.055) ^ (0.8 : ℝ) := by
  unfold gpow
  rw [← rpow_mul (by positivity)]; norm_num

/-- At the breakpoint both branches of the L* curve agree. -/
theorem labF_of_ge {t : ℝ} (h : 216 / 24389 ≤ t) : labF t = t ^ (1 / 3 : ℝ) := by
  rcases eq_or_lt_of_le h with h | h
  · rw [← h, labF_of_le le_rfl, show (216 / 24389 : ℝ) = (6 / 29) ^ 3 by norm_num,
      show (1 / 3 : ℝ) = ((3 : ℕ) : ℝ)⁻¹ by norm_num,
      pow_rpow_inv_natCast (by norm_num) (by norm_num)]
    norm_num
  · exact labF_of_gt h

/-- Slope of the L* curve above its own breakpoint. -/
theorem lOf_gpow_large {v w : ℝ} (hv : 0 ≤ v) (hvw : v ≤ w) (he : 216 / 24389 ≤ gpow v) :
    lOf (gpow w) - lOf (gpow v) ≤ 131 * (w - v) := by
  have hv0 : 0 < v + 0.055 := by norm_num; linarith
  have hw0 : 0 < w + 0.055 := by norm_num; linarith
  have hw := gpow_mono (by norm_num; linarith) hvw
  rw [lOf, lOf, labF_of_ge he, labF_of_ge (he.trans hw), cbrt_gpow hv, cbrt_gpow (hv.trans hvw)]
  have hb := rpow_one_add_le_one_add_mul_self (s := (w - v) / (v + 0.055)) (p := 0.8)
    (by have : 0 ≤ (w - v) / (v + 0.055) := div_nonneg (by linarith) hv0.le
        linarith) (by norm_num) (by norm_num)
  have e : ((w + 0.055) / 1.055) ^ (0.8 : ℝ) =
      ((v + 0.055) / 1.055) ^ (0.8 : ℝ) * (1 + (w - v) / (v + 0.055)) ^ (0.8 : ℝ) := by
    have : 1 + (w - v) / (v + 0.055) = (w + 0.055) / (v + 0.055) := by field_simp; ring
    rw [this, ← mul_rpow (by positivity) (by positivity)]
    congr 1
    field_simp
  have hu : 0.1395 ≤ (v + 0.055) / 1.055 := by
    by_contra hc
    have h1 : gpow v ≤ (0.1395 : ℝ) ^ (2.4 : ℝ) := by
      unfold gpow
      exact rpow_le_rpow (by positivity) (not_le.1 hc).le (by norm_num)
    have h2 : (0.1395 : ℝ) ^ (2.4 : ℝ) < (216 / 24389 : ℝ) := by
      rw [e24]; apply rpow_lt_of_lt_pow <;> norm_num
    linarith
  have hs : ((v + 0.055) / 1.055) ^ (0.8 : ℝ) ≤ (v + 0.055) / 1.055 * 1.485 := by
    have hup : 0 < (v + 0.055) / 1.055 := by positivity
    have : ((v + 0.055) / 1.055) ^ (0.8 : ℝ) =
        (v + 0.055) / 1.055 * ((1 : ℝ) / ((v + 0.055) / 1.055)) ^ (0.2 : ℝ) := by
      rw [one_div, inv_rpow hup.le, ← rpow_neg hup.le]
      conv_rhs => rw [← rpow_one ((v + 0.055) / 1.055)]
      rw [← rpow_mul hup.le, ← rpow_add hup]; norm_num
    rw [this]
    gcongr
    calc ((1 : ℝ) / ((v + 0.055) / 1.055)) ^ (0.2 : ℝ) ≤ (1 / 0.1395 : ℝ) ^ (0.2 : ℝ) := by
          apply rpow_le_rpow (by positivity) _ (by norm_num)
          gcongr
      _ ≤ 1.485 := by
          rw [show (0.2 : ℝ) = ((1 : ℕ) : ℝ) / ((5 : ℕ) : ℝ) by norm_num]
          apply rpow_le_of_le_pow <;> norm_num
  have hq : 0 ≤ (w - v) / (v + 0.055) := div_nonneg (by linarith) hv0.le
  have hp : 0 ≤ ((v + 0.055) / 1.055) ^ (0.8 : ℝ) := by positivity
  calc 116 * ((w + 0.055) / 1.055) ^ (0.8 : ℝ) - 16 - (116 * ((v + 0.055) / 1.055) ^ (0.8 : ℝ) - 16)
      ≤ 116 * (((v + 0.055) / 1.055) ^ (0.8 : ℝ) * (0.8 * ((w - v) / (v + 0.055)))) := by
        rw [e]; nlinarith
    _ ≤ 116 * ((v + 0.055) / 1.055 * 1.485 * (0.8 * ((w - v) / (v + 0.055)))) := by gcongr
    _ = 116 * 1.485 * 0.8 / 1.055 * (w - v) := by field_simp
    _ ≤ 131 * (w - v) := by norm_num; nlinarith

/-- L* as a function of the encoded value has slope at most 131. -/
theorem lOf_gpow_lipschitz {v w : ℝ} (hv : -0.055 ≤ v) (hvw : v ≤ w) :
    lOf (gpow w) - lOf (gpow v) ≤ 131 * (w - v) := by
  have small {a b : ℝ} (ha : -0.055 ≤ a) (hab : a ≤ b) (hb : gpow b ≤ 216 / 24389) :
      lOf (gpow b) - lOf (gpow a) ≤ 131 * (b - a) := by
    have ham := gpow_mono (v := a) (w := b) ha hab
    rw [lOf_small hb, lOf_small (ham.trans hb)]
    have := gpow_sub_le ha hab hb
    norm_num at this ⊢
    linarith
  rcases le_or_gt (gpow w) (216 / 24389) with h | h
  · exact small hv hvw h
  · rcases lt_or_ge (216 / 24389) (gpow v) with h' | h'
    · have hv1 : 0 ≤ v := by
        by_contra hc
        have h1 := gpow_mono (w := 0) hv (not_le.1 hc).le
        have h2 : gpow 0 ≤ 216 / 24389 := by
          unfold gpow
          rw [e24]; apply rpow_le_of_le_pow <;> norm_num
        linarith
      exact lOf_gpow_large hv1 hvw h'.le
    · -- split at the breakpoint
      set m : ℝ := 1.055 * (216 / 24389 : ℝ) ^ (1.0 / 2.4 : ℝ) - 0.055 with hm
      have gm : gpow m = 216 / 24389 := gpow_encode_pow (by norm_num)
      have hm0 : 0 ≤ m := by
        have : (0.1 : ℝ) ≤ (216 / 24389 : ℝ) ^ (1.0 / 2.4 : ℝ) := by
          rw [e124]; apply le_rpow_of_pow_le <;> norm_num
        rw [hm]; norm_num at this ⊢; linarith
      have hvm : v ≤ m := by
        by_contra hc
        have := gpow_strictMono (v := m) (w := v) (by norm_num; linarith) (not_le.1 hc)
        linarith
      have hmw : m ≤ w := by
        by_contra hc
        have := gpow_strictMono (v := w) (w := m) (by linarith) (not_le.1 hc)
        linarith
      have p1 := small hv hvm gm.le
      have p2 := lOf_gpow_large hm0 hmw gm.ge
      linarith

/-- The gray level nearest to an encoded luminance (with a little slack) has nearly its tone. -/
theorem lOf_of_level {y : ℝ} {n : ℤ} (hy0 : 0 ≤ y / 100)
    (habs : -0.501 ≤ n - encode (y / 100) * 255 ∧ n - encode (y / 100) * 255 ≤ 0.501) :
    |lOf (linearized n / 100) - lOf (y / 100)| ≤ 0.26 := by
  norm_num at habs
  by_cases hb : y / 100 ≤ 0.0031308
  · -- linear branch
    have he : encode (y / 100) = y / 100 * 12.92 := by unfold encode; rw [if_pos hb]
    rw [he] at habs
    have hn10 : n ≤ 10 := by
      have : (n : ℝ) < 11 := by norm_num at hb habs ⊢; linarith [habs.2]
      have : n < 11 := by exact_mod_cast this
      omega
    have hnr : (n : ℝ) ≤ 10 := by exact_mod_cast hn10
    rw [linearized_small hn10, lOf_small (by norm_num; linarith), lOf_small (by norm_num at hb ⊢; linarith)]
    rw [abs_le]
    norm_num at habs ⊢
    constructor <;> linarith [habs.1, habs.2]
  · have hbr := encode_break hb
    have he : encode (y / 100) = 1.055 * (y / 100) ^ (1.0 / 2.4 : ℝ) - 0.055 := by
      unfold encode; rw [if_neg hb]
    have hgv : gpow (encode (y / 100)) = y / 100 := by rw [he]; exact gpow_encode_pow hy0
    set v := encode (y / 100) with hv
    have hv0 : 0 ≤ v := by norm_num at hbr; linarith
    have hn10 : 10 ≤ n := by
      have : (9 : ℝ) < n := by norm_num at hbr; linarith [habs.1]
      have : 9 < n := by exact_mod_cast this
      omega
    rcases eq_or_lt_of_le hn10 with h10 | h11
    · subst h10
      rw [linearized_small (by norm_num)]
      have hv1 : v ≤ 10.501 / 255 := by
        have := habs.1; push_cast at this; norm_num; linarith
      have hy2 : y / 100 ≤ 0.00319 := by
        rw [← hgv]
        refine (gpow_mono (by norm_num; linarith) hv1).trans ?_
        unfold gpow; rw [e24]; apply rpow_le_of_le_pow <;> norm_num
      rw [lOf_small (by norm_num), lOf_small (by norm_num at hy2 ⊢; linarith), abs_le]
      norm_num at hb hy2 ⊢
      constructor <;> linarith
    · have h11 : 11 ≤ n := h11
      have hnr : (11 : ℝ) ≤ n := by exact_mod_cast h11
      rw [linearized_large h11, ← hgv, mul_div_cancel_right₀ _ (by norm_num)]
      have hn0r : (0 : ℝ) ≤ n / 255 := by positivity
      rw [abs_le]
      rcases le_total v (n / 255) with hle | hle
      · have := lOf_gpow_lipschitz (by norm_num; linarith) hle
        have mono : lOf (gpow v) ≤ lOf (gpow (n / 255)) := by
          have := labF_strictMono.monotone (gpow_mono (v := v) (by norm_num; linarith) hle)
          unfold lOf; linarith
        norm_num
        constructor <;> linarith [habs.2]
      · have := lOf_gpow_lipschitz (by norm_num; linarith) hle
        have mono : lOf (gpow (n / 255)) ≤ lOf (gpow v) := by
          have := labF_strictMono.monotone (gpow_mono (v := n / 255) (by norm_num; linarith) hle)
          unfold lOf; linarith
        norm_num
        constructor <;> linarith [habs.1]

/-- C16: the tone of the gray built from a tone in [0, 100] differs from it by at most 0.26. -/
theorem c16_accuracy (t : ℝ) (h0 : 0 ≤ t) (h1 : t ≤ 100) :
    |(lstarFromArgb (argbFromLstar t) : ℝ) - t| ≤ 0.26 := by
  obtain ⟨r, g, b⟩ := argbFromLstar_level t
  rw [lstar_of_gray _ _ r g b]
  have hy := (c11_range t).1.1 ⟨h0, h1⟩
  set y := yFromLstar t with hydef
  have ht : t = lOf (y / 100) := by
    have := c11_lstar_y_lstar t
    rw [lstarFromY_eq] at this
    rw [← this, lOf]; ring
  set c := delinearized y with hc
  have hL : lstarFromY (linearized c : ℝ) = lOf (linearized c / 100) := by
    rw [lstarFromY_eq, lOf]; ring
  rw [hL, ht]
  -- the encoded value and its rounding
  obtain ⟨n, hn⟩ := realRound_int (encode (y / 100) * 255)
  have habs := abs_realRound_sub (encode (y / 100) * 255)
  have hy0 : 0 ≤ y / 100 := by linarith [hy.1]
  have hy1 : y / 100 ≤ 1 := by linarith [hy.2]
  have henc0 : 0 ≤ realRound (encode (y / 100) * 255) := by
    have := realRound_encode_mono hy0
    have e0 : encode 0 = 0 := by unfold encode; norm_num
    rw [e0, zero_mul, show (0 : ℝ) = ((0 : ℤ) : ℝ) by norm_num, realRound_intCast] at this
    exact_mod_cast this
  have henc1 : realRound (encode (y / 100) * 255) ≤ 255 := by
    have := realRound_encode_mono hy1
    have e1 : encode 1 = 1 := by unfold encode; norm_num
    rw [e1, one_mul, show (255 : ℝ) = ((255 : ℤ) : ℝ) by norm_num, realRound_intCast] at this
    exact_mod_cast this
  rw [hn] at henc0 henc1 habs
  have hn0 : 0 ≤ n := by exact_mod_cast henc0
  have hn1 : n ≤ 255 := by exact_mod_cast henc1
  have hcn : c = n := by rw [hc, delinearized_of_round hn, clamp_sat_of_mem hn0 hn1]
  rw [hcn]
  rw [abs_le] at habs
  exact lOf_of_level hy0 ⟨by norm_num; linarith [habs.1], by norm_num; linarith [habs.2]⟩

example : (0 : ℝ) ≤ 49.6 ∧ (49.6 : ℝ) ≤ 100 := by norm_num

end Mcu.Props
