import Verif.Model.ViewingConditions
import Verif.Lemmas.Srgb

/-! Positivity of viewing conditions over the reals. -/

namespace Mcu.Lemmas

open Mcu.ColorUtils Mcu.MathUtils Real

/-- All quantities the appearance model divides by or takes powers of are positive. -/
structure VcPos (vc : ViewingConditions ℝ) : Prop where
  aw : 0 < vc.aw
  nbb : 0 < vc.nbb
  ncb : 0 < vc.ncb
  c : 0 < vc.c
  nC : 0 < vc.nC
  d0 : 0 < vc.rgbD.x0
  d1 : 0 < vc.rgbD.x1
  d2 : 0 < vc.rgbD.x2
  fl : 0 < vc.fl
  fLroot : 0 < vc.fLroot
  z : 0 < vc.z
  n : 0 < vc.backgroundYToWhitePointY

theorem yFromLstar_pos {l : ℝ} (h : 0 < l) : 0 < (yFromLstar l : ℝ) := by
  rw [yFromLstar_eq]
  have h0 : labInvf ((0 + 16 : ℝ) / 116) = 0 := by
    rw [labInvf_of_le (by norm_num)]; norm_num
  have := labInvf_strictMono (show (0 + 16 : ℝ) / 116 < (l + 16) / 116 by gcongr)
  rw [h0] at this
  positivity

/-- The luminance used when none (or a non-positive one) is given. -/
noncomputable def adaptLum (al : Option ℝ) : ℝ :=
  if al.getD (-1) > 0 then al.getD (-1) else 200 / π * yFromLstar 50 / 100

theorem adaptLum_pos (al : Option ℝ) : 0 < adaptLum al := by
  unfold adaptLum
  split
  · next h => exact h
  · have := yFromLstar_pos (l := 50) (by norm_num)
    have := Real.pi_pos
    positivity

/-- The degree of adaptation. -/
noncomputable def adaptD (al : Option ℝ) (s : ℝ) (di : Bool) : ℝ :=
  let d : ℝ := if di then 1 else (4 / 5 + s / 10) * (1 - (1 / 3.6) * exp ((-adaptLum al - 42) / 92))
  if d > 1 then 1 else if d < 0 then 0 else d

theorem adaptD_mem (al : Option ℝ) (s : ℝ) (di : Bool) : 0 ≤ adaptD al s di ∧ adaptD al s di ≤ 1 := by
  unfold adaptD
  dsimp only
  generalize (if di = true then (1 : ℝ)
    else (4 / 5 + s / 10) * (1 - (1 / 3.6) * exp ((-adaptLum al - 42) / 92))) = d
  split
  · norm_num
  · split
    · norm_num
    · constructor <;> linarith

/-- Cone responses of the white point. -/
noncomputable def wpCones (w : Vec3 ℝ) : Vec3 ℝ :=
  ⟨w.x0 * 0.401288 + w.x1 * 0.650173 + w.x2 * (-0.051461),
   w.x0 * (-0.250268) + w.x1 * 1.204414 + w.x2 * 0.045854,
   w.x0 * (-0.002079) + w.x1 * 0.048952 + w.x2 * 0.953127⟩

theorem d65_cones : 0 < (wpCones whitePointD65).x0 ∧ 0 < (wpCones whitePointD65).x1 ∧
    0 < (wpCones whitePointD65).x2 := by
  simp only [wpCones, whitePointD65]; norm_num

theorem makeCore_rgbD (wp : Option (Vec3 ℝ)) (al bl s : Option ℝ) (di : Option Bool) :
    (ViewingConditions.makeCore wp al bl s di).rgbD =
      let d := adaptD al (s.getD 2) (di.getD false)
      let w := wpCones (wp.getD whitePointD65)
      ⟨d * (100 / w.x0) + 1 - d, d * (100 / w.x1) + 1 - d, d * (100 / w.x2) + 1 - d⟩ := by
  have e0 : (0.0 : ℝ) = 0 := by norm_num
  have e1 : (1.0 : ℝ) = 1 := by norm_num
  have e2 : (2.0 : ℝ) = 2 := by norm_num
  have e10 : (10.0 : ℝ) = 10 := by norm_num
  have e42 : (42.0 : ℝ) = 42 := by norm_num
  have e50 : (50.0 : ℝ) = 50 := by norm_num
  have e92 : (92.0 : ℝ) = 92 := by norm_num
  have e100 : (100.0 : ℝ) = 100 := by norm_num
  have e200 : (200.0 : ℝ) = 200 := by norm_num
  have e8 : (0.8 : ℝ) = 4 / 5 := by norm_num
  simp only [ViewingConditions.makeCore, e0, e1, e2, e10, e42, e50, e92, e100, e200, e8]
  rfl

theorem blend_pos {d w : ℝ} (h0 : 0 ≤ d) (h1 : d ≤ 1) (hw : 0 < w) : 0 < d * (100 / w) + 1 - d := by
  have hq : 0 < 100 / w := by positivity
  rcases eq_or_lt_of_le h1 with h | h
  · rw [h]; linarith
  · nlinarith

theorem makeCore_pos (wp : Option (Vec3 ℝ)) (al bl s : Option ℝ) (di : Option Bool)
    (hs : 0 ≤ s.getD 2 ∧ s.getD 2 ≤ 2)
    (h0 : 0 < (wpCones (wp.getD whitePointD65)).x0) (h1 : 0 < (wpCones (wp.getD whitePointD65)).x1)
    (h2 : 0 < (wpCones (wp.getD whitePointD65)).x2) (hy : 0 < (wp.getD whitePointD65).x1) :
    VcPos (ViewingConditions.makeCore wp al bl s di) := by
  have hd := adaptD_mem al (s.getD 2) (di.getD false)
  have hrgb := makeCore_rgbD wp al bl s di
  have e0 : (0.0 : ℝ) = 0 := by norm_num
  have e2 : (2.0 : ℝ) = 2 := by norm_num
  have hal := adaptLum_pos al
  set vc := ViewingConditions.makeCore wp al bl s di with hvc
  have d0 : 0 < vc.rgbD.x0 := by rw [hrgb]; exact blend_pos hd.1 hd.2 h0
  have d1 : 0 < vc.rgbD.x1 := by rw [hrgb]; exact blend_pos hd.1 hd.2 h1
  have d2 : 0 < vc.rgbD.x2 := by rw [hrgb]; exact blend_pos hd.1 hd.2 h2
  have eal : adaptLum al = vc.adaptingLuminance := by
    simp only [hvc, ViewingConditions.makeCore, adaptLum]; norm_num; rfl
  have hbl : (0.1 : ℝ) ≤ vc.backgroundLstar := le_max_left _ _
  have hn : 0 < vc.backgroundYToWhitePointY := by
    have : vc.backgroundYToWhitePointY = yFromLstar vc.backgroundLstar / (wp.getD whitePointD65).x1 := rfl
    rw [this]
    have := yFromLstar_pos (l := vc.backgroundLstar) (by norm_num at hbl ⊢; linarith)
    positivity
  have hfl : 0 < vc.fl := by
    have e : vc.fl = (fun k4 => k4 * vc.adaptingLuminance + 0.1 * (1.0 - k4) * (1.0 - k4) *
        (5.0 * vc.adaptingLuminance) ^ (1.0 / 3.0 : ℝ))
        ((1.0 / (5.0 * vc.adaptingLuminance + 1.0)) * (1.0 / (5.0 * vc.adaptingLuminance + 1.0)) *
         (1.0 / (5.0 * vc.adaptingLuminance + 1.0)) * (1.0 / (5.0 * vc.adaptingLuminance + 1.0))) := rfl
    rw [e, ← eal]
    have hk : 0 < 1.0 / (5.0 * adaptLum al + 1.0) := by positivity
    dsimp only
    have h3 : 0 ≤ (5.0 * adaptLum al) ^ (1.0 / 3.0 : ℝ) := by positivity
    generalize (1.0 / (5.0 * adaptLum al + 1.0)) = k at *
    have hk4 : 0 < k * k * k * k := by positivity
    have hsq : 0 ≤ 0.1 * (1.0 - k * k * k * k) * (1.0 - k * k * k * k) := by
      rw [mul_assoc]; apply mul_nonneg (by norm_num) (mul_self_nonneg _)
    have := mul_nonneg hsq h3
    have := mul_pos hk4 hal
    linarith
  have hnbb : 0 < vc.nbb := by
    have : vc.nbb = 0.725 / vc.backgroundYToWhitePointY ^ (0.2 : ℝ) := rfl
    rw [this]; positivity
  have haw : 0 < vc.aw := by
    have e : vc.aw = (fun x y z : ℝ => (40.0 * (400.0 * x / (x + 27.13)) +
        20.0 * (400.0 * y / (y + 27.13)) + 400.0 * z / (z + 27.13)) / 20.0 * vc.nbb)
        ((vc.fl * vc.rgbD.x0 * (wpCones (wp.getD whitePointD65)).x0 / 100.0) ^ (0.42 : ℝ))
        ((vc.fl * vc.rgbD.x1 * (wpCones (wp.getD whitePointD65)).x1 / 100.0) ^ (0.42 : ℝ))
        ((vc.fl * vc.rgbD.x2 * (wpCones (wp.getD whitePointD65)).x2 / 100.0) ^ (0.42 : ℝ)) := rfl
    rw [e]
    have a0 : 0 < (vc.fl * vc.rgbD.x0 * (wpCones (wp.getD whitePointD65)).x0 / 100.0) ^ (0.42 : ℝ) := by
      positivity
    have a1 : 0 < (vc.fl * vc.rgbD.x1 * (wpCones (wp.getD whitePointD65)).x1 / 100.0) ^ (0.42 : ℝ) := by
      positivity
    have a2 : 0 < (vc.fl * vc.rgbD.x2 * (wpCones (wp.getD whitePointD65)).x2 / 100.0) ^ (0.42 : ℝ) := by
      positivity
    dsimp only
    positivity
  have hnC : vc.nC = 0.8 + s.getD 2.0 / 10.0 := rfl
  have hnCp : 0 < vc.nC := by
    rw [hnC, e2]; have := hs.1; positivity
  refine ⟨haw, hnbb, hnbb, ?_, hnCp, d0, d1, d2, hfl, ?_, ?_, hn⟩
  · have : vc.c = if vc.nC ≥ 0.9 then lerp 0.59 0.69 ((vc.nC - 0.9) * 10.0)
        else lerp 0.525 0.59 ((vc.nC - 0.8) * 10.0) := rfl
    rw [this, hnC, e2]
    have h1 := hs.1
    have h2 := hs.2
    split
    · next h => simp only [lerp]; norm_num at h ⊢; linarith
    · next h => simp only [lerp]; norm_num at h ⊢; linarith
  · have : vc.fLroot = vc.fl ^ (0.25 : ℝ) := rfl
    rw [this]; positivity
  · have : vc.z = 1.48 + Real.sqrt vc.backgroundYToWhitePointY := rfl
    rw [this]; positivity

theorem sRgb_pos : VcPos (ViewingConditions.sRgb : ViewingConditions ℝ) := by
  apply makeCore_pos
  · simp
  · exact d65_cones.1
  · exact d65_cones.2.1
  · exact d65_cones.2.2
  · simp only [Option.getD_none, whitePointD65]; norm_num

end Mcu.Lemmas
