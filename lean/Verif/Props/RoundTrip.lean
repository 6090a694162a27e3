import Verif.Lemmas.SelfColor
import Verif.Props.Solver
import Verif.Props.Opaque
import Verif.Model.Blend
import Verif.Model.TonalPalette

/-! Property C84 (requesting the hue, chroma and tone of a colour gives that colour), over exact reals. -/

namespace Mcu.Props

open Mcu.HctSolver Mcu.ColorUtils Mcu.MathUtils Mcu.Spec Mcu.Lemmas Real

/-- The tone of a colour that is neither black nor white. -/
theorem tone_inside {argb : Int} (hb : NotBlack argb) (hw : NotWhite argb) :
    0.0001 ≤ (lstarFromArgb argb : ℝ) ∧ (lstarFromArgb argb : ℝ) ≤ 99.9999 := by
  obtain ⟨hr, hg, hbl⟩ := channel_range argb
  have hr' := linearized_range _ hr.1 hr.2
  have hg' := linearized_range _ hg.1 hg.2
  have hb' := linearized_range _ hbl.1 hbl.2
  have s := lin_sum' hb
  have w := mix_white hw (a := 0.2126) (b := 0.7152) (c := 0.0722) (by norm_num) (by norm_num) (by norm_num)
  rw [lstarFromArgb_eq, luminance_eq, lstarFromY_eq]
  generalize (linearized (redFromArgb argb) : ℝ) = R at *
  generalize (linearized (greenFromArgb argb) : ℝ) = G at *
  generalize (linearized (blueFromArgb argb) : ℝ) = B at *
  have y0 : 0.0021 ≤ 0.2126 * R + 0.7152 * G + 0.0722 * B := by norm_num at s ⊢; linarith [hr'.1, hg'.1, hb'.1]
  generalize 0.2126 * R + 0.7152 * G + 0.0722 * B = y at *
  constructor
  · have m := labF_strictMono.monotone (show (0.0021 : ℝ) / 100 ≤ y / 100 by gcongr)
    rw [labF_of_le (by norm_num)] at m
    norm_num at m ⊢; linarith
  · have m := labF_strictMono.monotone (show y / 100 ≤ 0.99978 by norm_num at w ⊢; linarith)
    rw [labF_of_gt (t := 0.99978) (by norm_num)] at m
    have : (0.99978 : ℝ) ^ (1 / 3 : ℝ) ≤ 0.99993 := by
      rw [show (1 / 3 : ℝ) = ((1 : ℕ) : ℝ) / ((3 : ℕ) : ℝ) by norm_num]
      exact rpow_le_of_le_pow (by norm_num) (by norm_num) (by norm_num) (by norm_num)
    have m := m.trans this
    norm_num at m ⊢; linarith

/-- C84: for every colour whatsoever, solving for its own hue, chroma and tone gives the colour back, with
alpha 255. -/
theorem c84_solve (argb : Int) :
    solveToInt (Cam16.fromInt argb : Cam16 ℝ).hue (Cam16.fromInt argb : Cam16 ℝ).chroma (lstarFromArgb argb : ℝ) = 0xFF000000 + argb % 2 ^ 24 := by
  obtain ⟨hr, hg, hbl⟩ := channel_range argb
  by_cases hb : NotBlack argb
  · by_cases hw : NotWhite argb
    · obtain ⟨t0, t1⟩ := tone_inside hb hw
      have c0 := chroma_ge hb
      obtain ⟨h0, h1⟩ := hue_range argb
      have A := aim_argb hb hw
      obtain ⟨L0, L1, L2, e, g0, g1, g2⟩ := A.exact (lt_of_lt_of_le (by norm_num) c0) (lin_Code hr.1 hr.2) (lin_Code hg.1 hg.2) (lin_Code hbl.1 hbl.2)
      have ea : argbFromLinrgb (⟨L0, L1, L2⟩ : Vec3 ℝ) = 0xFF000000 + argb % 2 ^ 24 := by
        rw [argbFromLinrgb, delinearized_good hr.1 hr.2 g0, delinearized_good hg.1 hg.2 g1, delinearized_good hbl.1 hbl.2 g2]
        simp only [argbFromRgb, redFromArgb, greenFromArgb, blueFromArgb]
        omega
      have ey : yFromLstar (lstarFromArgb argb : ℝ) = lumR argb := by
        rw [lstarFromArgb_eq, c11_y_lstar_y, luminance_eq]; rfl
      simp only [solveToInt]
      rw [if_neg, c06_fixed _ h0 h1, ey, fl_pi, show (180.0 : ℝ) = 180 by norm_num, e, ea, if_pos]
      · omega
      · norm_num at t0 t1 c0 ⊢
        refine ⟨by linarith, by linarith, by linarith⟩
    · have : redFromArgb argb = 255 ∧ greenFromArgb argb = 255 ∧ blueFromArgb argb = 255 := not_not.1 hw
      have e : argb % 2 ^ 24 = 0xFFFFFF := by simp only [redFromArgb, greenFromArgb, blueFromArgb] at this; omega
      have l := (c15_extremes argb).2.2 e
      simp only [solveToInt]
      rw [l, if_pos (by norm_num), (c16_saturates 100).2 le_rfl, e]
      norm_num
  · have : redFromArgb argb = 0 ∧ greenFromArgb argb = 0 ∧ blueFromArgb argb = 0 := not_not.1 hb
    have e : argb % 2 ^ 24 = 0 := by simp only [redFromArgb, greenFromArgb, blueFromArgb] at this; omega
    have l := (c15_extremes argb).1.2 e
    simp only [solveToInt]
    rw [l, if_pos (by norm_num), (c16_saturates 0).1 le_rfl, e]
    norm_num

/-- C84: every opaque colour is what one gets by requesting its hue, chroma and tone. -/
theorem c84_round_trip (argb : Int) (h : Opaque32 argb) :
    let x : Hct ℝ := Hct.fromInt argb
    (Hct.fromHct x.getHue x.getChroma x.getTone).toInt = argb := by
  intro x
  have := c84_solve argb
  simp only [Opaque32] at h
  show solveToInt (Cam16.fromInt argb : Cam16 ℝ).hue (Cam16.fromInt argb : Cam16 ℝ).chroma (lstarFromArgb argb : ℝ) = argb
  omega

example : Opaque32 0xFF0000FF ∧ Opaque32 0xFF010203 ∧ Opaque32 0xFFFFFFFE := by unfold Opaque32; decide

/-- C84: whatever was requested, requesting what was obtained changes nothing more. -/
theorem c84_stable (hue chroma tone : ℝ) :
    let x : Hct ℝ := Hct.fromHct hue chroma tone
    Hct.fromHct x.getHue x.getChroma x.getTone = x := by
  intro x
  have h : Opaque32 x.argb := c14_solver hue chroma tone
  have := c84_round_trip x.argb h
  exact congrArg Hct.fromInt this

/-- C84: setting hue, chroma or tone to the present value changes nothing. -/
theorem c84_setters (argb : Int) (h : Opaque32 argb) :
    let x : Hct ℝ := Hct.fromInt argb
    x.setHue x.getHue = x ∧ x.setChroma x.getChroma = x ∧ x.setTone x.getTone = x := by
  have e : solveToInt (Cam16.fromInt argb : Cam16 ℝ).hue (Cam16.fromInt argb : Cam16 ℝ).chroma (lstarFromArgb argb : ℝ) = argb := c84_round_trip argb h
  have s (a : Int) (ha : a = argb) : ({ hue := (Cam16.fromInt a : Cam16 ℝ).hue, chroma := (Cam16.fromInt a : Cam16 ℝ).chroma, tone := lstarFromArgb a, argb := a } : Hct ℝ) = Hct.fromInt argb := by
    subst ha; rfl
  exact ⟨s _ e, s _ e, s _ e⟩

/-- C84: hue, chroma and tone determine an opaque colour. -/
theorem c84_injective (a b : Int) (ha : Opaque32 a) (hb : Opaque32 b)
    (hh : (Hct.fromInt a : Hct ℝ).getHue = (Hct.fromInt b : Hct ℝ).getHue)
    (hc : (Hct.fromInt a : Hct ℝ).getChroma = (Hct.fromInt b : Hct ℝ).getChroma)
    (ht : (Hct.fromInt a : Hct ℝ).getTone = (Hct.fromInt b : Hct ℝ).getTone) : a = b := by
  rw [← c84_round_trip a ha, ← c84_round_trip b hb, hh, hc, ht]

/-- C84: the palette of a colour contains the colour, at its tone. -/
theorem c84_palette (argb : Int) (h : Opaque32 argb) :
    let x : Hct ℝ := Hct.fromInt argb
    ((TonalPalette.fromHct x).getHct x.getTone).toInt = argb := c84_round_trip argb h

/-- C84: blending by hue with amount 0, and harmonising or blending a colour with itself, give the first colour. -/
theorem c84_blend (a b : Int) (ha : Opaque32 a) (hb : Opaque32 b) (t : ℝ) :
    Blend.hctHue a b (0 : ℝ) = a ∧ Blend.hctHue a a t = a ∧ Blend.harmonize ℝ a a = a := by
  have e : solveToInt (Cam16.fromInt a : Cam16 ℝ).hue (Cam16.fromInt a : Cam16 ℝ).chroma (lstarFromArgb a : ℝ) = a := c84_round_trip a ha
  refine ⟨?_, ?_, ?_⟩
  · simp only [Blend.hctHue]; rw [(c29_endpoints a b ha hb).1]; exact e
  · simp only [Blend.hctHue]; rw [c29_same a ha]; exact e
  · obtain ⟨h0, h1⟩ := hue_range a
    have : Blend.harmonizedHue (Cam16.fromInt a : Cam16 ℝ).hue (Cam16.fromInt a : Cam16 ℝ).hue = (Cam16.fromInt a : Cam16 ℝ).hue := by
      generalize (Cam16.fromInt a : Cam16 ℝ).hue = h at *
      have d : Fl.fmin (differenceDegrees h h * 0.5) (15.0 : ℝ) = 0 := by
        have : differenceDegrees h h = 0 := by simp only [differenceDegrees, sub_self, fl_abs]; norm_num
        rw [this, fl_fmin]; norm_num
      simp only [Blend.harmonizedHue]
      rw [d, zero_mul, add_zero]
      exact c06_fixed h h0 h1
    show solveToInt (Blend.harmonizedHue (Cam16.fromInt a : Cam16 ℝ).hue (Cam16.fromInt a : Cam16 ℝ).hue) (Cam16.fromInt a : Cam16 ℝ).chroma (lstarFromArgb a : ℝ) = a
    rw [this]; exact e

end Mcu.Props
