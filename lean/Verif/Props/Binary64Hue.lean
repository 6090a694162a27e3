import Verif.Props.Binary64Cam
import Verif.Lemmas.F64HueBlack

/-! Property C27, and more about C83, in IEEE-754 binary64: the hue of no colour is 360. -/

namespace Mcu.Props.Binary64

open Mcu.Ieee Lemmas MathUtils ColorUtils

variable {L : Libm}

local notation "𝔻" => F64 L

/-! ## C27 -/

/-- C27 in binary64: the CAM16 coordinates of every colour are finite numbers that are not negative, and the assertion that the hue is
at least 0 and below 360 holds; the hue is even below 360 − 10⁻⁸. -/
theorem c27_binary64 (hS : L.Sound) (hT : L.TempOk) (hZ : L.AtanZero) (argb : Int) :
    let k : Cam16 𝔻 := Cam16.fromInt argb
    (∀ x ∈ [k.hue, k.chroma, k.j, k.q, k.m, k.s], Fin x ∧ 0 ≤ val x) ∧ Cam16.hueAssert k.hue ∧ val k.hue ≤ 360 - 1 / 10 ^ 8 := by
  intro k
  obtain ⟨h, -, -⟩ := c27_binary64_partial hS argb
  obtain ⟨v, iv, v0, v1⟩ := hue_lt hS hT hZ argb
  refine ⟨h, ⟨(l0'.le_iff iv).2 v0, (iv.lt_iff l360).2 ?_⟩, ?_⟩
  · norm_num at v1; linarith
  · rw [show val k.hue = v from iv.2]; exact v1

/-- C27 in binary64, for all colours but black with fewer assumptions: the hue is strictly between 0 and 360. -/
theorem c27_binary64_not_black (hS : L.Sound) (hT : L.TempOk) (argb : Int) (h : argb % 2 ^ 24 ≠ 0) :
    let k : Cam16 𝔻 := Cam16.fromInt argb
    Cam16.hueAssert k.hue ∧ 0 < val k.hue ∧ val k.hue < 360 := by
  intro k
  obtain ⟨v, iv, v0, v1, -⟩ := hue_near' hS hT ((not_black_iff argb).2 h)
  have iv : Is k.hue v := iv
  have v0' : 0 < v := lt_of_lt_of_le (by norm_num) v0
  have v1' : v < 360 := lt_of_le_of_lt v1 (by norm_num)
  refine ⟨⟨(l0'.le_iff iv).2 v0'.le, (iv.lt_iff l360).2 v1'⟩, ?_, ?_⟩
  · rw [show val k.hue = v from iv.2]; exact v0'
  · rw [show val k.hue = v from iv.2]; exact v1'

/-! ## C83 -/

/-- C83: the computed hue of every colour but black is within 2·10⁻⁴ degrees of the exact one.  No colour is so close to hue 0 that the
computed hue would be at the other end of the range. -/
theorem c83_hue_no_wrap (hS : L.Sound) (hT : L.TempOk) (argb : Int) (h : argb % 2 ^ 24 ≠ 0) :
    Fin (Hct.fromInt argb : Hct 𝔻).getHue ∧ |val (Hct.fromInt argb : Hct 𝔻).getHue - (Hct.fromInt argb : Hct ℝ).getHue| ≤ 2 / 10 ^ 4 := by
  obtain ⟨v, iv, -, -, hv⟩ := hue_near' hS hT ((not_black_iff argb).2 h)
  have iv : Is (Hct.fromInt argb : Hct 𝔻).getHue v := iv
  refine ⟨iv.1, ?_⟩
  rw [show val (Hct.fromInt argb : Hct 𝔻).getHue = v from iv.2]
  exact hv.trans (by norm_num)

/-- C83: no colour but black has the exact hue 0 or 180. -/
theorem c83_hue_far (argb : Int) (h : argb % 2 ^ 24 ≠ 0) :
    0 < (Hct.fromInt argb : Hct ℝ).getHue ∧ (Hct.fromInt argb : Hct ℝ).getHue < 360 ∧ (Hct.fromInt argb : Hct ℝ).getHue ≠ 180 :=
  hueR_far ((not_black_iff argb).2 h)

/-- The hypotheses can be met: red, black and white with a correctly rounding library. -/
example : ∃ L : Libm, Cam16.hueAssert (Cam16.fromInt 0xFF000000 : Cam16 (F64 L)).hue ∧ Cam16.hueAssert (Cam16.fromInt 0xFFFF0000 : Cam16 (F64 L)).hue ∧
    |val (Hct.fromInt 0xFFFFFFFF : Hct (F64 L)).getHue - (Hct.fromInt 0xFFFFFFFF : Hct ℝ).getHue| ≤ 2 / 10 ^ 4 := by
  obtain ⟨L, hS, hT, -, hZ⟩ := hue_sound_exists
  exact ⟨L, (c27_binary64 hS hT hZ _).2.1, (c27_binary64 hS hT hZ _).2.1, (c83_hue_no_wrap hS hT _ (by norm_num)).2⟩

end Mcu.Props.Binary64
