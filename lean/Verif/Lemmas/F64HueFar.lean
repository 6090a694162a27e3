import Verif.Lemmas.OpponentSign
import Verif.Lemmas.F64HueNear

/-! The hue of a colour in IEEE-754 binary64 is not close to 0 or 360 and lies on the right side of 180. -/

namespace Mcu.Lemmas

open Mcu.Ieee Props Props.Binary64 MathUtils ColorUtils Real

variable {L : Libm}

local notation "𝔻" => F64 L

theorem cone_den {fl d t : ℝ} (e : fl * d / 100 = t) (ht : 0 ≤ t) : cone fl d = 400 - 400 * 27.13 / Opp.den t := by
  have h := Opp.den_ge ht
  unfold cone
  rw [e]
  unfold Opp.den at *
  generalize t ^ (0.42 : ℝ) = p at *
  have hp : p + 27.13 ≠ 0 := by norm_num at h ⊢; linarith
  field_simp
  ring

theorem opB_yb (argb : Int) : 9 * opB (conesR argb) = Opp.yb (linearized (redFromArgb argb)) (linearized (greenFromArgb argb)) (linearized (blueFromArgb argb)) := by
  obtain ⟨hr, hg, hb⟩ := channel_range argb
  have k (c : Int) (h : 0 ≤ c ∧ c ≤ 255) : 0 ≤ (linearized c : ℝ) ∧ (linearized c : ℝ) ≤ 100 := by
    obtain ⟨n, rfl⟩ : ∃ n : ℕ, c = n := ⟨c.toNat, by omega⟩
    exact Opp.ll_range (by omega)
  obtain ⟨⟨a0, -⟩, ⟨a1, -⟩, ⟨a2, -⟩⟩ := Opp.s_range (k _ hr) (k _ hg) (k _ hb)
  have e := rawCones_argb argb
  dsimp only at e
  rw [conesR_eq]
  unfold rawR
  rw [e]
  unfold opB Opp.yb
  dsimp only
  rw [cone_den (t := Opp.s0 (linearized (redFromArgb argb)) (linearized (greenFromArgb argb)) (linearized (blueFromArgb argb))) (by unfold Opp.s0 Opp.k0; ring) a0,
    cone_den (t := Opp.s1 (linearized (redFromArgb argb)) (linearized (greenFromArgb argb)) (linearized (blueFromArgb argb))) (by unfold Opp.s1 Opp.k1; ring) a1,
    cone_den (t := Opp.s2 (linearized (redFromArgb argb)) (linearized (greenFromArgb argb)) (linearized (blueFromArgb argb))) (by unfold Opp.s2 Opp.k2; ring) a2]
  norm_num
  ring

/-- The yellow-blue coordinate of no colour but black is close to 0. -/
theorem opB_far {argb : Int} (h : NotBlack argb) : 9 / 10 ^ 8 ≤ |opB (conesR argb)| := by
  obtain ⟨hr, hg, hb⟩ := channel_range argb
  have e := opB_yb argb
  unfold NotBlack at h
  obtain ⟨r, er⟩ : ∃ n : ℕ, redFromArgb argb = n := ⟨(redFromArgb argb).toNat, by omega⟩
  obtain ⟨g, eg⟩ : ∃ n : ℕ, greenFromArgb argb = n := ⟨(greenFromArgb argb).toNat, by omega⟩
  obtain ⟨b, eb⟩ : ∃ n : ℕ, blueFromArgb argb = n := ⟨(blueFromArgb argb).toNat, by omega⟩
  rw [er, eg, eb] at e h
  have far := Opp.yb_far (r := r) (g := g) (b := b) (by omega) (by omega) (by omega) (by omega)
  unfold Opp.ll at far
  rw [← e, abs_mul, abs_of_pos (show (0:ℝ) < 9 by norm_num)] at far
  norm_num at far ⊢
  linarith

theorem rho_le_120 {argb : Int} (h : NotBlack argb) : rho (conesR argb) ≤ 120 := by
  obtain ⟨c0, c1, c2⟩ := cones_pos h
  obtain ⟨-, s1⟩ := opp_sum h
  have c0 := c0.1; have c1 := c1.1; have c2 := c2.1
  unfold rho opA opB
  generalize (conesR argb).x0 = x at *
  generalize (conesR argb).x1 = y at *
  generalize (conesR argb).x2 = z at *
  have a : |(11.0 * x + (-12.0) * y + z) / 11.0| ≤ 100 := by rw [abs_le]; norm_num at *; constructor <;> linarith
  have b : |(x + y - 2.0 * z) / 9.0| ≤ 20 := by rw [abs_le]; norm_num at *; constructor <;> linarith
  have a' := pow_le_pow_left₀ (abs_nonneg _) a 2
  have b' := pow_le_pow_left₀ (abs_nonneg _) b 2
  rw [sq_abs] at a' b'
  rw [Real.sqrt_le_left (by norm_num), ← sq, ← sq]
  linarith

/-- The computed opponent coordinates: the yellow-blue one has the sign of the exact one and is not close to 0. -/
theorem opp_far (hL : L.PowOk) (hE : L.ExpOk) {argb : Int} (h : NotBlack argb) : ∃ x y, Is (oa64 (cones64 L argb)) x ∧ Is (ob64 (cones64 L argb)) y ∧
    ‖(⟨x, y⟩ : ℂ)‖ ≤ 121 ∧ 89 / 10 ^ 9 ≤ |y| ∧ (0 < y ↔ 0 < opB (conesR argb)) := by
  obtain ⟨x, y, ix, iy, hxy⟩ := opp_near hL hE h
  obtain ⟨y', iy', hy⟩ := ap_ob hL hE h
  obtain rfl := iy.unique iy'
  refine ⟨x, y, ix, iy, ?_, ?_⟩
  · have h1 := norm_sub_norm_le (⟨x, y⟩ : ℂ) ⟨opA (conesR argb), opB (conesR argb)⟩
    rw [norm_rho] at h1
    have h2 := rho_le_120 h
    generalize ‖(⟨x, y⟩ : ℂ)‖ = n at *
    generalize rho (conesR argb) = r at *
    norm_num at *
    linarith
  · have hf := opB_far h
    obtain ⟨-, s1⟩ := opp_sum h
    generalize (conesR argb).x0 + (conesR argb).x1 + (conesR argb).x2 = S at *
    generalize opB (conesR argb) = t at *
    have hy := abs_le.1 hy
    norm_num at hf hy ⊢
    rcases le_abs.1 hf with h1 | h1
    · exact ⟨le_abs.2 (.inl (by linarith)), iff_of_true (by linarith) (by linarith)⟩
    · exact ⟨le_abs.2 (.inr (by linarith)), iff_of_false (by linarith) (by linarith)⟩

/-- The computed hue lies on the same side of 180 degrees as the exact one, and is not close to 0 or 360. -/
theorem hue_side (hS : L.Sound) (hT : L.TempOk) {argb : Int} (h : NotBlack argb) :
    ∃ v, Is (Cam16.hueDegrees (oa64 (cones64 L argb)) (ob64 (cones64 L argb))) v ∧
      (0 < opB (conesR argb) ∧ 1 / 10 ^ 8 ≤ v ∧ v ≤ 181 ∨ opB (conesR argb) < 0 ∧ 179 ≤ v ∧ v ≤ 360 - 1 / 10 ^ 8) := by
  obtain ⟨x, y, ix, iy, hn, hy, hs⟩ := opp_far hS.pow hS.exp h
  have hf := opB_far h
  have hin := in_hueDegrees hS.atan ix.1 iy.1
  generalize opB (conesR argb) = t at *
  have y0 : y ≠ 0 := by rintro rfl; norm_num at hy
  have z0 : ¬ (x = 0 ∧ y = 0) := fun h => y0 h.2
  obtain ⟨f, hθ⟩ := hS.atan _ _ iy.1 ix.1
  have hang := hT.atan _ _ iy.1 ix.1
  rw [ix.2, iy.2] at hang
  obtain ⟨θ, iθ, hθ, hang⟩ : ∃ θ, Is (Fl.atan2 (ob64 (cones64 L argb)) (oa64 (cones64 L argb)) : 𝔻) θ ∧ |θ| ≤ 3.1416 ∧ (¬ (x = 0 ∧ y = 0) →
      ∃ k : ℤ, |θ - (Complex.arg ⟨x, y⟩ + k * (2 * π))| ≤ 1 / 10 ^ 12) := ⟨_, ⟨f, rfl⟩, hθ, hang⟩
  obtain ⟨k2, hk2⟩ := hang z0
  have hp := pi_pos
  have hp6 := pi_gt_d6
  have hp6' := pi_lt_d6
  -- the angle
  have sa : 7 / 10 ^ 10 ≤ |Complex.arg ⟨x, y⟩| := by
    have n0 : 0 < ‖(⟨x, y⟩ : ℂ)‖ := norm_pos_iff.2 (fun e => y0 (by simpa using congrArg Complex.im e))
    have h1 := Real.abs_sin_le_abs (x := Complex.arg ⟨x, y⟩)
    rw [Complex.sin_arg, abs_div, abs_of_pos n0] at h1
    refine le_trans ?_ h1
    rw [le_div_iff₀ n0]
    dsimp only
    generalize ‖(⟨x, y⟩ : ℂ)‖ = n at *
    generalize |y| = w at *
    norm_num at *
    linarith
  have sg : (0 ≤ Complex.arg ⟨x, y⟩ ↔ 0 ≤ y) := Complex.arg_nonneg_iff
  have ra := Complex.abs_arg_le_pi ⟨x, y⟩
  generalize Complex.arg ⟨x, y⟩ = A at *
  have key : |θ * 180 / π - (A * 180 / π + k2 * 360)| ≤ 1 / 10 ^ 10 := by
    have e : θ * 180 / π - (A * 180 / π + k2 * 360) = (θ - (A + k2 * (2 * π))) * (180 / π) := by
      field_simp
      ring
    rw [e, abs_mul, abs_of_pos (show 0 < 180 / π by positivity)]
    have h2 : 180 / π ≤ 57.3 := by
      rw [div_le_iff₀ hp]; norm_num at hp6 ⊢; linarith
    refine (mul_le_mul hk2 h2 (by positivity) (by norm_num)).trans (by norm_num)
  have dl : 57 * |A| ≤ |A * 180 / π| := by
    rw [abs_div, abs_mul, abs_of_pos hp, abs_of_pos (show (0:ℝ) < 180 by norm_num), le_div_iff₀ hp]
    have := abs_nonneg A
    have : |A| * π ≤ |A| * 3.15 := mul_le_mul_of_nonneg_left (by norm_num at hp6' ⊢; linarith) this
    norm_num at *; linarith
  have du : |A * 180 / π| ≤ 180 := by
    rw [abs_div, abs_mul, abs_of_pos hp, abs_of_pos (show (0:ℝ) < 180 by norm_num), div_le_iff₀ hp]
    linarith
  have dn : 0 ≤ A * 180 / π ↔ 0 ≤ y := by
    rw [← sg]
    constructor
    · intro h; by_contra hc
      have : A * 180 / π < 0 := div_neg_of_neg_of_pos (by linarith) hp
      linarith
    · intro h; positivity
  generalize A * 180 / π = D at *
  have D0 : 3 / 10 ^ 8 ≤ |D| := by norm_num at sa ⊢; linarith
  obtain ⟨u, iu, hu⟩ := ap_degrees iθ hθ
  have tot := (abs_add_le _ _).trans (add_le_add hu key)
  rw [sub_add_sub_cancel] at tot
  have ub : |u| ≤ 181 := by
    have h1 := abs_add_le (u - θ * 180 / π) (θ * 180 / π)
    rw [sub_add_cancel] at h1
    have h2 : |θ * 180 / π| ≤ 180.1 := by
      rw [abs_div, abs_mul, abs_of_pos hp, abs_of_pos (show (0:ℝ) < 180 by norm_num), div_le_iff₀ hp]
      norm_num at *; linarith
    generalize |θ * 180 / π| = A at *
    norm_num at *; linarith
  have ub' := abs_le.1 ub
  have h360 : Is (360.0 : 𝔻) 360 := by simpa using lit (L := L) 3600 1 true 360 (by norm_num) (by norm_num)
  -- the computed hue is the angle up to whole turns
  obtain ⟨v, iv, v0, v1⟩ := hin
  have turn : ∃ k : ℤ, |v - (D + k * 360)| ≤ 1 / 10 ^ 9 := by
    by_cases hneg : u < 0
    · have eh : Cam16.hueDegrees (oa64 (cones64 L argb)) (ob64 (cones64 L argb)) = Fl.atan2 (ob64 (cones64 L argb)) (oa64 (cones64 L argb)) * 180.0 / Fl.pi + 360.0 := by
        unfold Cam16.hueDegrees
        simp only
        rw [if_pos (by rw [iu.lt_iff l0']; exact hneg)]
      rw [eh] at iv
      obtain ⟨r1, r2⟩ := rnd_ok (v := u + 360) (by rw [abs_le]; constructor <;> linarith)
      obtain rfl := iv.unique (iu.add h360 r1)
      refine ⟨k2 + 1, ?_⟩
      have hh := (abs_add_le _ _).trans (add_le_add r2 tot)
      have e : rnd (u + 360) - (u + 360) + (u - (D + (k2 : ℝ) * 360)) = rnd (u + 360) - (D + ((k2 + 1 : ℤ) : ℝ) * 360) := by push_cast; ring
      rw [e] at hh
      unfold ρ at hh
      exact hh.trans (by norm_num)
    · have eh : Cam16.hueDegrees (oa64 (cones64 L argb)) (ob64 (cones64 L argb)) = Fl.atan2 (ob64 (cones64 L argb)) (oa64 (cones64 L argb)) * 180.0 / Fl.pi := by
        unfold Cam16.hueDegrees
        simp only
        rw [if_neg (by rw [iu.lt_iff l0']; exact hneg), if_neg (by rw [ge_iff_le, h360.le_iff iu]; linarith)]
      rw [eh] at iv
      obtain rfl := iv.unique iu
      exact ⟨k2, tot.trans (by norm_num)⟩
  obtain ⟨k, hk⟩ := turn
  have hk := abs_le.1 hk
  have du := abs_le.1 du
  refine ⟨v, iv, ?_⟩
  rcases lt_or_gt_of_ne y0 with hneg | hpos
  · right
    have Dn : D < 0 := by by_contra hc; have := dn.1 (not_lt.1 hc); linarith
    rw [abs_of_neg Dn] at D0
    have tn : t < 0 := by
      have : ¬ 0 < t := fun h => by have := hs.2 h; linarith
      rcases (not_lt.1 this).eq_or_lt with e | e
      · rw [e] at hf; norm_num at hf
      · exact e
    have k0 : 0 < k := by
      have : (0 : ℝ) < k := by norm_num at hk D0; linarith
      exact_mod_cast this
    have k1 : k < 2 := by
      have : (k : ℝ) < 2 := by norm_num at hk D0; linarith
      exact_mod_cast this
    obtain rfl : k = 1 := by omega
    refine ⟨tn, ?_, ?_⟩ <;> (norm_num at hk D0 ⊢; linarith)
  · left
    have Dp := dn.2 hpos.le
    rw [abs_of_nonneg Dp] at D0
    have k0 : -1 < k := by
      have : (-1 : ℝ) < k := by norm_num at hk D0; linarith
      exact_mod_cast this
    have k1 : k < 1 := by
      have : (k : ℝ) < 1 := by norm_num at hk D0; linarith
      exact_mod_cast this
    obtain rfl : k = 0 := by omega
    refine ⟨hs.1 hpos, ?_, ?_⟩ <;> (norm_num at hk D0 ⊢; linarith)

/-- The exact hue lies on the same side. -/
theorem hueR_side {a b : ℝ} : (0 < b → 0 ≤ Cam16.hueDegrees a b ∧ Cam16.hueDegrees a b ≤ 180) ∧ (b < 0 → 180 ≤ Cam16.hueDegrees a b ∧ Cam16.hueDegrees a b < 360) := by
  rw [hueDegrees_eq]
  have r := argDeg_range a b
  have hp := pi_pos
  constructor <;> intro h
  · have : 0 ≤ argDeg a b := by
      have := (Complex.arg_nonneg_iff (z := ⟨a, b⟩)).2 h.le
      unfold argDeg; positivity
    rw [if_neg (not_lt.2 this)]
    exact ⟨this, r.2⟩
  · have : argDeg a b < 0 := by
      have := (Complex.arg_neg_iff (z := ⟨a, b⟩)).2 h
      unfold argDeg
      exact div_neg_of_neg_of_pos (by linarith) hp
    rw [if_pos this]
    constructor <;> linarith

/-- The exact hue of a colour other than black is not 0 and not 180. -/
theorem hueR_far {argb : Int} (h : NotBlack argb) :
    0 < Cam16.hueDegrees (opA (conesR argb)) (opB (conesR argb)) ∧ Cam16.hueDegrees (opA (conesR argb)) (opB (conesR argb)) < 360 ∧
      Cam16.hueDegrees (opA (conesR argb)) (opB (conesR argb)) ≠ 180 := by
  have hf := opB_far h
  generalize opA (conesR argb) = a at *
  generalize opB (conesR argb) = b at *
  have b0 : b ≠ 0 := by rintro rfl; norm_num at hf
  have hp := pi_pos
  have r := argDeg_range a b
  have n0 : argDeg a b ≠ 0 := fun e => b0 (by
    have : Complex.arg ⟨a, b⟩ = 0 := by unfold argDeg at e; field_simp at e; linarith
    simpa using (Complex.arg_eq_zero_iff.1 this).2)
  have n1 : argDeg a b ≠ 180 := fun e => b0 (by
    have : Complex.arg ⟨a, b⟩ = π := by unfold argDeg at e; field_simp at e; linarith
    simpa using (Complex.arg_eq_pi_iff.1 this).2)
  rw [hueDegrees_eq]
  split
  · rename_i h
    refine ⟨by linarith, by linarith, fun e => by linarith⟩
  · rename_i h
    exact ⟨lt_of_le_of_ne (not_lt.1 h) n0.symm, by linarith, n1⟩

/-- The computed hue is close to the exact one, without whole turns. -/
theorem hue_near' (hS : L.Sound) (hT : L.TempOk) {argb : Int} (h : NotBlack argb) :
    ∃ v : ℝ, Is (Cam16.hueDegrees (oa64 (cones64 L argb)) (ob64 (cones64 L argb))) v ∧ 1 / 10 ^ 8 ≤ v ∧ v ≤ 360 - 1 / 10 ^ 8 ∧
      |v - Cam16.hueDegrees (opA (conesR argb)) (opB (conesR argb))| ≤ 168 / 10 ^ 6 := by
  obtain ⟨v, iv, side⟩ := hue_side hS hT h
  obtain ⟨v', k, iv', -, -, hk⟩ := hue_near hS hT h
  obtain rfl := iv.unique iv'
  obtain ⟨r1, r2⟩ := hueR_side (a := opA (conesR argb)) (b := opB (conesR argb))
  refine ⟨v, iv, ?_, ?_, ?_⟩
  · rcases side with s | s <;> (have := s.2; norm_num at *; linarith)
  · rcases side with s | s <;> (have := s.2; norm_num at *; linarith)
  · have k0 : k = 0 := by
      have hk := abs_le.1 hk
      have a : (-1 : ℝ) < k ∧ (k : ℝ) < 1 := by
        rcases side with ⟨s, s1, s2⟩ | ⟨s, s1, s2⟩
        · obtain ⟨q1, q2⟩ := r1 s
          generalize Cam16.hueDegrees (opA (conesR argb)) (opB (conesR argb)) = H at *
          norm_num at s1 hk; constructor <;> linarith
        · obtain ⟨q1, q2⟩ := r2 s
          generalize Cam16.hueDegrees (opA (conesR argb)) (opB (conesR argb)) = H at *
          norm_num at s2 hk; constructor <;> linarith
      have a1 : (-1 : ℤ) < k := by exact_mod_cast a.1
      have a2 : k < (1 : ℤ) := by exact_mod_cast a.2
      omega
    rw [k0, Int.cast_zero, zero_mul, add_zero] at hk
    exact hk

end Mcu.Lemmas
