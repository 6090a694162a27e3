import Verif.Lemmas.F64SelfSolve
import Verif.Props.Binary64Temperature
import Verif.Props.RoundTrip

/-! Property C84 (requesting the hue, chroma and tone of a colour gives that colour) in IEEE-754 binary64, all rounding errors
of the appearance model and of the search included. -/

namespace Mcu.Props.Binary64

open Mcu.Ieee MathUtils ColorUtils HctSolver Lemmas Spec

variable {L : Libm}

local notation "𝔻" => F64 L

theorem gray_back (hL : L.PowOk) {argb : Int} (hrg : redFromArgb argb = greenFromArgb argb) (hgb : greenFromArgb argb = blueFromArgb argb) :
    argbFromLstar (lstarFromArgb argb : 𝔻) = 0xFF000000 + argb % 2 ^ 24 := by
  obtain ⟨hr, -, -⟩ := channel_range argb
  have hl := c15_range argb
  have a := ap_yFromLstar (ap_lstarFromArgb hL argb) (by linarith [hl.1]) (by linarith [hl.2]) (by norm_num)
  rw [lstar_of_gray argb (redFromArgb argb) rfl hrg.symm (hrg.trans hgb).symm, c11_y_lstar_y] at a
  simp only [argbFromLstar, delinearized_ap hL a hr.1 hr.2 (by rw [sub_self, abs_zero]; norm_num)]
  have e : argbFromRgb (redFromArgb argb) (greenFromArgb argb) (blueFromArgb argb) = 0xFF000000 + argb % 2 ^ 24 := by
    simp only [argbFromRgb, redFromArgb, greenFromArgb, blueFromArgb]
    omega
  rwa [← hgb, ← hrg] at e

/-- The tone of a colour that is neither black nor white passes the tests of the solver. -/
theorem tone_inside64 {argb : Int} (hb : NotBlack argb) (hw : NotWhite argb) :
    0.018 ≤ (lstarFromArgb argb : ℝ) ∧ (lstarFromArgb argb : ℝ) ≤ 99.993 := by
  obtain ⟨l0, l1⟩ := lum_range hb hw
  have e : (xyzFromArgb argb : Vec3 ℝ).x1 = lumR argb := luminance_eq argb
  rw [lstarFromArgb_eq, e, lstarFromY_eq]
  generalize lumR argb = y at *
  constructor
  · have m := labF_strictMono.monotone (show (0.00218 : ℝ) / 100 ≤ y / 100 by gcongr)
    rw [labF_of_le (by norm_num)] at m
    norm_num at m ⊢; linarith
  · have m := labF_strictMono.monotone (show y / 100 ≤ 0.99978 by norm_num at l1 ⊢; linarith)
    rw [labF_of_gt (t := 0.99978) (by norm_num)] at m
    have : (0.99978 : ℝ) ^ (1 / 3 : ℝ) ≤ 0.99993 := by
      rw [show (1 / 3 : ℝ) = ((1 : ℕ) : ℝ) / ((3 : ℕ) : ℝ) by norm_num]
      exact rpow_le_of_le_pow (by norm_num) (by norm_num) (by norm_num) (by norm_num)
    have m := m.trans this
    norm_num at m ⊢; linarith

/-- The solver, with a hue that is the one of the colour up to whole turns. -/
theorem solve_turn (hS : L.Sound) (hT : L.TempOk) (argb : Int) {h' : 𝔻} (hh : NotBlack argb → SelfHue L argb (radians h')) :
    solveToInt h' (Cam16.fromInt argb : Cam16 𝔻).chroma (lstarFromArgb argb : 𝔻) = 0xFF000000 + argb % 2 ^ 24 := by
  have hL := hS.pow
  obtain ⟨v, iv, hv⟩ := ap_lstarFromArgb hL argb
  have hv' := abs_le.1 hv
  have ll : Nr (0.0001 : 𝔻) (0.0001 : ℝ) (1 / 10 ^ 15) 4 := nr_lit 4 (by norm_num) (by norm_num) (by norm_num)
  have lh : Nr (99.9999 : 𝔻) (99.9999 : ℝ) (1 / 10 ^ 15) 2 := nr_lit 2 (by norm_num) (by norm_num) (by norm_num)
  obtain ⟨il, el⟩ := ll.val
  obtain ⟨ih, eh⟩ := lh.val
  have el := abs_le.1 el
  have eh := abs_le.1 eh
  simp only [solveToInt]
  by_cases hb : NotBlack argb
  · by_cases hw : NotWhite argb
    · obtain ⟨t0, t1⟩ := tone_inside64 hb hw
      obtain ⟨iC, C0, -⟩ := chroma_self hS hT hb
      have ec : (Cam16.fromInt argb : Cam16 𝔻).chroma = chr64 L argb := rfl
      have f := found_self hS hT hb hw (hh hb)
      rw [ec, if_neg]
      · change (if findResultByJ (radians h') (chr64 L argb) (yFromLstar (lstarFromArgb argb : 𝔻)) ≠ 0 then findResultByJ (radians h') (chr64 L argb) (yFromLstar (lstarFromArgb argb : 𝔻)) else _) = _
        rw [f, if_pos]
        omega
      · rw [gt_iff_lt, iC.lt_iff il, iv.lt_iff il, ih.lt_iff iv]
        generalize Dbl.val (0.0001 : 𝔻) = p at *
        generalize Dbl.val (99.9999 : 𝔻) = q at *
        generalize Dbl.val (chr64 L argb) = C at *
        push Not
        norm_num at *
        refine ⟨?_, ?_, ?_⟩ <;> linarith
    · have c : redFromArgb argb = 255 ∧ greenFromArgb argb = 255 ∧ blueFromArgb argb = 255 := not_not.1 hw
      have e : argb % 2 ^ 24 = 0xFFFFFF := by simp only [redFromArgb, greenFromArgb, blueFromArgb] at c; omega
      have l := (c15_extremes argb).2.2 e
      rw [if_pos, gray_back hL (by omega) (by omega)]
      right; right
      rw [gt_iff_lt, ih.lt_iff iv]
      rw [l] at hv'
      generalize Dbl.val (99.9999 : 𝔻) = q at *
      norm_num at *; linarith
  · have c : redFromArgb argb = 0 ∧ greenFromArgb argb = 0 ∧ blueFromArgb argb = 0 := not_not.1 hb
    have e : argb % 2 ^ 24 = 0 := by simp only [redFromArgb, greenFromArgb, blueFromArgb] at c; omega
    have l := (c15_extremes argb).1.2 e
    rw [if_pos, gray_back hL (by omega) (by omega)]
    right; left
    rw [iv.lt_iff il]
    rw [l] at hv'
    generalize Dbl.val (0.0001 : 𝔻) = q at *
    norm_num at *; linarith

/-- C84 (binary64): for every colour whatsoever, solving for the hue, chroma and tone computed for it gives the colour back,
with alpha 255. -/
theorem c84_binary64_solve (hS : L.Sound) (hT : L.TempOk) (argb : Int) :
    solveToInt (Cam16.fromInt argb : Cam16 𝔻).hue (Cam16.fromInt argb : Cam16 𝔻).chroma (lstarFromArgb argb : 𝔻) = 0xFF000000 + argb % 2 ^ 24 := by
  refine solve_turn hS hT argb fun hb => ?_
  obtain ⟨H, iH, H0, -⟩ := hue_self hS hT hb
  exact selfHue_of hS hT hb (h' := Lemmas.hue64 L argb) iH H0 (k := 0) (by rw [iH.2]; simp)

/-- C84 (binary64): every opaque colour is what one gets by requesting its hue, chroma and tone. -/
theorem c84_binary64_round_trip (hS : L.Sound) (hT : L.TempOk) (argb : Int) (h : Opaque32 argb) :
    let x : Hct 𝔻 := Hct.fromInt argb
    (Hct.fromHct x.getHue x.getChroma x.getTone).toInt = argb := by
  intro x
  have := c84_binary64_solve hS hT argb
  simp only [Opaque32] at h
  show solveToInt (Cam16.fromInt argb : Cam16 𝔻).hue (Cam16.fromInt argb : Cam16 𝔻).chroma (lstarFromArgb argb : 𝔻) = argb
  omega

example : ∃ L : Libm, (L.Sound ∧ L.TempOk) ∧ Opaque32 0xFF0000FF ∧ Opaque32 0xFF010203 ∧ Opaque32 0xFFFFFFFE := by
  obtain ⟨L, h⟩ := temp_sound_exists
  exact ⟨L, h, by unfold Opaque32; decide⟩

/-- C84 (binary64): whatever was requested, NaN and infinities included, requesting what was obtained changes nothing more. -/
theorem c84_binary64_stable (hS : L.Sound) (hT : L.TempOk) (hue chroma tone : 𝔻) :
    let x : Hct 𝔻 := Hct.fromHct hue chroma tone
    Hct.fromHct x.getHue x.getChroma x.getTone = x := by
  intro x
  have h : Opaque32 x.argb := c14_solver hue chroma tone
  have := c84_binary64_round_trip hS hT x.argb h
  exact congrArg Hct.fromInt this

/-- C84 (binary64): setting hue, chroma or tone to the present value changes nothing. -/
theorem c84_binary64_setters (hS : L.Sound) (hT : L.TempOk) (argb : Int) (h : Opaque32 argb) :
    let x : Hct 𝔻 := Hct.fromInt argb
    x.setHue x.getHue = x ∧ x.setChroma x.getChroma = x ∧ x.setTone x.getTone = x := by
  have e : solveToInt (Cam16.fromInt argb : Cam16 𝔻).hue (Cam16.fromInt argb : Cam16 𝔻).chroma (lstarFromArgb argb : 𝔻) = argb := c84_binary64_round_trip hS hT argb h
  have s (a : Int) (ha : a = argb) : ({ hue := (Cam16.fromInt a : Cam16 𝔻).hue, chroma := (Cam16.fromInt a : Cam16 𝔻).chroma, tone := lstarFromArgb a, argb := a } : Hct 𝔻) = Hct.fromInt argb := by
    subst ha; rfl
  exact ⟨s _ e, s _ e, s _ e⟩

/-- C84 (binary64): the computed hue, chroma and tone determine an opaque colour. -/
theorem c84_binary64_injective (hS : L.Sound) (hT : L.TempOk) (a b : Int) (ha : Opaque32 a) (hb : Opaque32 b)
    (hh : (Hct.fromInt a : Hct 𝔻).getHue = (Hct.fromInt b : Hct 𝔻).getHue)
    (hc : (Hct.fromInt a : Hct 𝔻).getChroma = (Hct.fromInt b : Hct 𝔻).getChroma)
    (ht : (Hct.fromInt a : Hct 𝔻).getTone = (Hct.fromInt b : Hct 𝔻).getTone) : a = b := by
  rw [← c84_binary64_round_trip hS hT a ha, ← c84_binary64_round_trip hS hT b hb, hh, hc, ht]

/-- C84 (binary64): the palette of a colour contains the colour, at its tone. -/
theorem c84_binary64_palette (hS : L.Sound) (hT : L.TempOk) (argb : Int) (h : Opaque32 argb) :
    let x : Hct 𝔻 := Hct.fromInt argb
    ((TonalPalette.fromHct x).getHct x.getTone).toInt = argb := c84_binary64_round_trip hS hT argb h

/-- Harmonising a hue with itself turns it by whole turns at most. -/
theorem harmonized_self (h : 𝔻) (hh : HueIn h) : ∃ k : ℤ, Is (Blend.harmonizedHue h h) (val h + 360 * k) ∧ 0 ≤ val h + 360 * (k : ℝ) := by
  obtain ⟨s, e, hs, is, -⟩ := direction64 hh hh
  obtain ⟨d1, -⟩ := c07_binary64 h h hh.1 hh.1 hh.2 hh.2
  have d0 := c07_binary64_zero h h hh.1 hh.1 (by rw [sub_self, abs_zero]; positivity)
  have id := is_of _ d1
  rw [d0] at id
  have lhalf : Is (0.5 : 𝔻) (1 / 2) := by
    have := half_lit (L := L) (m := 5) (e := 1) (by norm_num) (by norm_num)
    rwa [show (OfScientific.ofScientific 5 true 1 : ℝ) = 1 / 2 by norm_num] at this
  have l15 : Is (15.0 : 𝔻) 15 := by simpa using lit (L := L) 150 1 true 15 (by norm_num) (by norm_num)
  have i1 := id.mul lhalf (by norm_num [rnd_zero])
  rw [zero_mul, rnd_zero] at i1
  have i2 := i1.fmin l15
  rw [min_eq_left (by norm_num)] at i2
  have i3 := i2.mul is (by norm_num [rnd_zero])
  rw [zero_mul, rnd_zero] at i3
  have ih := is_of h hh.1
  have i4 := ih.add i3 (by rw [add_zero, ih.rep.rnd_eq]; exact ih.lt_max)
  rw [add_zero, ih.rep.rnd_eq] at i4
  obtain ⟨f, f0, -, -, hk⟩ := c06_binary64_partial _ i4.1
  rw [show val _ = val h from i4.2] at hk
  obtain ⟨-, k, hk⟩ := hk hh.2.1
  refine ⟨k, ⟨f, hk⟩, ?_⟩
  rw [← hk]; exact f0

/-- C84 (binary64): harmonising a colour with itself gives the colour. -/
theorem c84_binary64_harmonize (hS : L.Sound) (hT : L.TempOk) (a : Int) (ha : Opaque32 a) : Blend.harmonize 𝔻 a a = a := by
  have e : Blend.harmonize 𝔻 a a = 0xFF000000 + a % 2 ^ 24 := by
    refine solve_turn hS hT a fun hb => ?_
    obtain ⟨k, i, h0⟩ := harmonized_self _ (hue64 (L := L) hS a)
    exact selfHue_of hS hT hb i h0 (k := k) rfl
  rw [e]
  simp only [Opaque32] at ha
  omega

end Mcu.Props.Binary64
