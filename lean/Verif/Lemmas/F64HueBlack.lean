import Verif.Lemmas.F64HueFar
import Verif.Lemmas.F64UcsNear

/-! The hue of black in IEEE-754 binary64. -/

namespace Mcu.Lemmas

open Mcu.Ieee Props Props.Binary64 MathUtils ColorUtils Real

variable {L : Libm}

local notation "𝔻" => F64 L

theorem hue_zero (hA : L.AtanRange) (hZ : L.AtanZero) {a b : 𝔻} (ha : Is a 0) (hb : Is b 0) : ∃ v, Is (Cam16.hueDegrees a b) v ∧ 0 ≤ v ∧ v ≤ 190 := by
  obtain ⟨v, iv, v0, v1⟩ := in_hueDegrees hA ha.1 hb.1
  refine ⟨v, iv, v0, ?_⟩
  obtain ⟨f, hθ⟩ := hA b a hb.1 ha.1
  have hz := hZ b a hb.1 ha.1 hb.2 ha.2
  obtain ⟨θ, iθ, hθ, hz⟩ : ∃ θ, Is (Fl.atan2 b a : 𝔻) θ ∧ |θ| ≤ 3.1416 ∧ (θ = 0 ∨ 3 ≤ |θ|) := ⟨_, ⟨f, rfl⟩, hθ, hz⟩
  have h360 : Is (360.0 : 𝔻) 360 := by simpa using lit (L := L) 3600 1 true 360 (by norm_num) (by norm_num)
  obtain ⟨u, iu, hu⟩ := ap_degrees iθ hθ
  have hp := pi_pos
  have hp6 := pi_gt_d6
  have hp6' := pi_lt_d6
  have hd : |θ * 180 / π| = |θ| * 180 / π := by rw [abs_div, abs_mul, abs_of_pos hp, abs_of_pos (show (0:ℝ) < 180 by norm_num)]
  have hup : |θ * 180 / π| ≤ 181 := by
    rw [hd, div_le_iff₀ hp]; norm_num at *; linarith
  have hu' := abs_le.1 hu
  have hup' := abs_le.1 hup
  unfold Cam16.hueDegrees at iv
  simp only at iv
  by_cases hneg : u < 0
  · rw [if_pos (by rw [iu.lt_iff l0']; exact hneg)] at iv
    have ub : u ≤ -171 := by
      rcases hz with h0 | h3
      · exfalso
        rw [h0] at iθ
        have i180 : Is (180.0 : 𝔻) 180 := by simpa using lit (L := L) 1800 1 true 180 (by norm_num) (by norm_num)
        obtain ⟨p, ip, p0, -⟩ := in_pi (L := L)
        have := iu.unique ((iθ.zero_mul i180).zero_div ip (by norm_num at p0; linarith))
        linarith
      · have hl : 171.5 ≤ |θ * 180 / π| := by
          rw [hd, le_div_iff₀ hp]; norm_num at *; linarith
        rcases le_abs.1 hl with h1 | h1 <;> (norm_num at h1 hu'; linarith)
    obtain ⟨r1, r2⟩ := rnd_ok (v := u + 360) (by rw [abs_le]; norm_num at hu'; constructor <;> linarith)
    obtain rfl := iv.unique (iu.add h360 r1)
    have r2 := abs_le.1 r2
    unfold ρ at r2
    norm_num at r2
    linarith
  · rw [if_neg (by rw [iu.lt_iff l0']; exact hneg), if_neg (by rw [ge_iff_le, h360.le_iff iu]; norm_num at hu'; linarith)] at iv
    obtain rfl := iv.unique iu
    norm_num at hu'
    linarith

/-- The hue of every colour, black included, is at least 0 and below 360. -/
theorem hue_lt (hS : L.Sound) (hT : L.TempOk) (hZ : L.AtanZero) (argb : Int) :
    ∃ v, Is (Cam16.fromInt argb : Cam16 𝔻).hue v ∧ 0 ≤ v ∧ v ≤ 360 - 1 / 10 ^ 8 := by
  by_cases h : NotBlack argb
  · obtain ⟨v, iv, v0, v1, -⟩ := hue_near' hS hT h
    exact ⟨v, iv, (by norm_num : (0:ℝ) ≤ 1 / 10 ^ 8).trans v0, v1⟩
  · obtain ⟨z0, z1, z2⟩ := cones_black hS h
    have i11 : Is (11.0 : 𝔻) 11 := by simpa using lit (L := L) 110 1 true 11 (by norm_num) (by norm_num)
    obtain ⟨m12, i12⟩ : ∃ v, Is (-12.0 : 𝔻) v := ⟨_, ((by simpa using lit (L := L) 120 1 true 12 (by norm_num) (by norm_num) : Is (12.0 : 𝔻) 12)).neg⟩
    have i2 : Is (2.0 : 𝔻) 2 := by simpa using lit (L := L) 20 1 true 2 (by norm_num) (by norm_num)
    have i9 : Is (9.0 : 𝔻) 9 := by simpa using lit (L := L) 90 1 true 9 (by norm_num) (by norm_num)
    have ha : Is (oa64 (cones64 L argb)) 0 := (((i11.mul_zero z0).add_zero (i12.mul_zero z1)).add_zero z2).zero_div i11 (by norm_num)
    have hb : Is (ob64 (cones64 L argb)) 0 := by
      have s := (z0.add_zero z1).sub (i2.mul_zero z2) (by simp [rnd_zero])
      rw [sub_zero, rnd_zero] at s
      exact s.zero_div i9 (by norm_num)
    obtain ⟨v, iv, v0, v1⟩ := hue_zero hS.atan hZ ha hb
    exact ⟨v, iv, v0, v1.trans (by norm_num)⟩

end Mcu.Lemmas
