import Verif.Lemmas.F64BackBlack
import Verif.Props.Binary64Cam

/-! Property C28 in IEEE-754 binary64: CAM16 coordinates give back the colour they were computed from. -/

namespace Mcu.Props.Binary64

open Mcu.Ieee MathUtils ColorUtils Lemmas Spec

variable {L : Libm}

local notation "𝔻" => F64 L

/-- C28 in binary64: lightness, chroma and hue of a colour, whatever the other coordinates, give back the colour (with alpha 255). -/
theorem c28_binary64_fields (hS : L.Sound) (hT : L.TempOk) (hC : L.CamOk) (argb : Int) (c : Cam16 𝔻) (hj : c.j = (Cam16.fromInt argb : Cam16 𝔻).j)
    (hc : c.chroma = (Cam16.fromInt argb : Cam16 𝔻).chroma) (hh : c.hue = (Cam16.fromInt argb : Cam16 𝔻).hue) : c.toInt = 0xFF000000 + argb % 2 ^ 24 := by
  by_cases h : NotBlack argb
  · exact back_near hS hT h (close_self hS hT h hj hc hh)
  · have e : argb % 2 ^ 24 = 0 := not_not.1 (fun h' => h ((not_black_iff argb).2 h'))
    rw [e, add_zero]
    obtain ⟨z, -⟩ := black_cam hS hC h
    obtain ⟨H, iH, H0, H1⟩ := hue_in hS argb
    refine back_zero hS hC (by rw [hj]; exact z) ⟨H, ?_, H0, by linarith⟩
    rw [hh]; exact iH

/-- C28 in binary64: every opaque colour is recovered exactly from its CAM16 coordinates. -/
theorem c28_binary64_round_trip (hS : L.Sound) (hT : L.TempOk) (hC : L.CamOk) (argb : Int) (h : Opaque32 argb) : (Cam16.fromInt argb : Cam16 𝔻).toInt = argb := by
  rw [c28_binary64_fields hS hT hC argb _ (by rfl) (by rfl) (by rfl)]
  simp only [Opaque32] at h
  omega

/-- C28 in binary64: the same through the J, C, h constructor. -/
theorem c28_binary64_jch (hS : L.Sound) (hT : L.TempOk) (hC : L.CamOk) (argb : Int) (h : Opaque32 argb) :
    let cam : Cam16 𝔻 := Cam16.fromInt argb
    (Cam16.fromJch cam.j cam.chroma cam.hue).toInt = argb := by
  intro cam
  rw [c28_binary64_fields hS hT hC argb (Cam16.fromJch cam.j cam.chroma cam.hue) rfl rfl rfl]
  simp only [Opaque32] at h
  omega

/-- C28 in binary64: different opaque colours have different (hue, chroma, lightness) triples of floating-point numbers. -/
theorem c28_binary64_injective (hS : L.Sound) (hT : L.TempOk) (hC : L.CamOk) (a b : Int) (ha : Opaque32 a) (hb : Opaque32 b)
    (hj : (Cam16.fromInt a : Cam16 𝔻).j = (Cam16.fromInt b : Cam16 𝔻).j) (hc : (Cam16.fromInt a : Cam16 𝔻).chroma = (Cam16.fromInt b : Cam16 𝔻).chroma)
    (hh : (Cam16.fromInt a : Cam16 𝔻).hue = (Cam16.fromInt b : Cam16 𝔻).hue) : a = b := by
  have h1 := c28_binary64_fields hS hT hC b _ hj hc hh
  rw [c28_binary64_round_trip hS hT hC a ha] at h1
  simp only [Opaque32] at ha hb
  omega

/-- The hypotheses can be met: a blue, black and white with a correctly rounding library. -/
example : ∃ L : Libm, (Cam16.fromInt 0xFF4285F4 : Cam16 (F64 L)).toInt = 0xFF4285F4 ∧ (Cam16.fromInt 0xFF000000 : Cam16 (F64 L)).toInt = 0xFF000000 ∧
    (Cam16.fromInt 0xFFFFFFFF : Cam16 (F64 L)).toInt = 0xFFFFFFFF := by
  obtain ⟨L, hS, hT, hC⟩ := cam_sound_exists
  refine ⟨L, c28_binary64_round_trip hS hT hC _ ?_, c28_binary64_round_trip hS hT hC _ ?_, c28_binary64_round_trip hS hT hC _ ?_⟩ <;> unfold Opaque32 <;> decide

end Mcu.Props.Binary64
