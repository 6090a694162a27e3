import Verif.Lemmas.Numeric
import Verif.Props.Cam

/-! Only black has chroma 0. -/

namespace Mcu.Lemmas

open Mcu.ColorUtils Mcu.MathUtils Props Real

theorem linearized_gap {b g : ℤ} (hb : 0 ≤ b) (hbg : b < g) (hg : g ≤ 255) :
    (linearized b : ℝ) ≤ 0.9917 * linearized g := by
  have hmono : (linearized b : ℝ) ≤ linearized (g - 1) := c10_strictMono.monotone (show b ≤ g - 1 by omega)
  refine hmono.trans ?_
  have hg0 : (1 : ℝ) ≤ g := by exact_mod_cast (show (1 : ℤ) ≤ g by omega)
  have hg1 : (g : ℝ) ≤ 255 := by exact_mod_cast hg
  rcases le_or_gt g 11 with h | h
  · have hx : (linearized (g - 1) : ℝ) ≤ 0.95 * linearized g := by
      have h11 : (g : ℝ) ≤ 11 := by exact_mod_cast h
      rw [linearized_small (c := g - 1) (by omega)]
      push_cast
      rcases eq_or_lt_of_le h with rfl | h'
      · rw [linearized_large (by norm_num)]
        have hl : (0.0033 : ℝ) ≤ gpow ((11 : ℤ) / 255) := by
          unfold gpow
          rw [e24]
          exact le_rpow_of_pow_le (by norm_num) (by norm_num) (by norm_num) (by norm_num)
        generalize gpow ((11 : ℤ) / 255) = x at hl ⊢
        norm_num at hl ⊢
        linarith
      · rw [linearized_small (c := g) (by omega)]
        have : (g : ℝ) ≤ 10 := by exact_mod_cast (show g ≤ 10 by omega)
        norm_num
        linarith
    have hp : (0 : ℝ) ≤ linearized g := (linearized_range g (by omega) hg).1
    norm_num at hx ⊢
    linarith
  · rw [linearized_large (c := g - 1) (by omega), linearized_large (c := g) (by omega)]
    have key : gpow (((g - 1 : ℤ) : ℝ) / 255) ≤ 0.9917 * gpow ((g : ℝ) / 255) := by
      unfold gpow
      have hpos : (0 : ℝ) ≤ ((g : ℝ) / 255 + 0.055) / 1.055 := by positivity
      have hq : ((((g - 1 : ℤ) : ℝ) / 255 + 0.055) / 1.055) ≤ 0.99629 * (((g : ℝ) / 255 + 0.055) / 1.055) := by
        push_cast
        norm_num
        linarith
      have hq0 : (0 : ℝ) ≤ (((g - 1 : ℤ) : ℝ) / 255 + 0.055) / 1.055 := by
        have : (0 : ℝ) ≤ ((g - 1 : ℤ) : ℝ) := by push_cast; linarith
        positivity
      refine (rpow_le_rpow hq0 hq (by norm_num)).trans ?_
      rw [mul_rpow (by norm_num) hpos]
      refine mul_le_mul_of_nonneg_right ?_ (rpow_nonneg hpos _)
      rw [e24]
      exact rpow_le_of_le_pow (by norm_num) (by norm_num) (by norm_num) (by norm_num)
    linarith

/-- No colour but black is exactly the neutral of the viewing conditions. -/
theorem neutral_mix {r g b x y z k : ℝ} (hx : 1.0211 < x ∧ x < 1.0212) (hy : 0.9863 < y ∧ y < 0.98632)
    (hz : 0.9339 < z ∧ z < 0.9340) (hr : 0 ≤ r) (hg : 0 ≤ g) (hb : 0 ≤ b)
    (h0 : x * (0.30269915328759 * r + 0.6023803116433 * g + 0.07047346329738 * b) = k)
    (h1 : y * (0.15374913599554 * r + 0.77736002827076 * g + 0.08535981854956 * b) = k)
    (h2 : z * (0.02796570007202 * r + 0.14784523135458 * g + 0.90895832236388 * b) = k) (hk : 0 < k) :
    0.992 * g < b ∧ b < g := by
  have bound {w l u m : ℝ} (hw : l < w ∧ w < u) (hl : 0 < l) (h : w * m = k) : k < u * m ∧ l * m < k := by
    have hm : 0 < m := by
      rcases le_or_gt m 0 with h' | h'
      · have := mul_nonpos_of_nonneg_of_nonpos (hl.trans hw.1).le h'
        linarith
      · exact h'
    constructor <;> rw [← h]
    · exact mul_lt_mul_of_pos_right hw.2 hm
    · exact mul_lt_mul_of_pos_right hw.1 hm
  have b0 := bound hx (by norm_num) h0
  have b1 := bound hy (by norm_num) h1
  have b2 := bound hz (by norm_num) h2
  norm_num at b0 b1 b2 ⊢
  constructor <;> linarith [b0.1, b0.2, b1.1, b1.2, b2.1, b2.2]

theorem cone_injective {fl c d : ℝ} (hf : 0 < fl) (hc : 0 ≤ c) (hd : 0 ≤ d) (h : cone fl c = cone fl d) : c = d := by
  rw [← invCone_cone hf hc, h, invCone_cone hf hd]

theorem rawCones_argb (argb : Int) :
    let r : ℝ := linearized (redFromArgb argb)
    let g : ℝ := linearized (greenFromArgb argb)
    let b : ℝ := linearized (blueFromArgb argb)
    rawCones (xyzFromArgb argb : Vec3 ℝ).x0 (xyzFromArgb argb : Vec3 ℝ).x1 (xyzFromArgb argb : Vec3 ℝ).x2 =
      ⟨0.30269915328759 * r + 0.6023803116433 * g + 0.07047346329738 * b,
       0.15374913599554 * r + 0.77736002827076 * g + 0.08535981854956 * b,
       0.02796570007202 * r + 0.14784523135458 * g + 0.90895832236388 * b⟩ := by
  intro r g b
  simp only [rawCones, xyzFromArgb, matrixMultiply, srgbToXyz]
  rw [Vec3.mk.injEq]
  refine ⟨?_, ?_, ?_⟩ <;> (simp only [r, g, b]; ring)

theorem chroma_pos (argb : Int) (h : ¬ (redFromArgb argb = 0 ∧ greenFromArgb argb = 0 ∧ blueFromArgb argb = 0)) :
    0 < (Cam16.fromInt argb : Cam16 ℝ).chroma := by
  have hv := sRgb_pos
  have hn := cones_of_argb argb
  obtain ⟨hr, hg, hb⟩ := channel_range argb
  have hr' := (linearized_range _ hr.1 hr.2).1
  have hg' := (linearized_range _ hg.1 hg.2).1
  have hb' := (linearized_range _ hb.1 hb.2).1
  have hpos : 0 < (linearized (redFromArgb argb) : ℝ) ∨ 0 < (linearized (greenFromArgb argb) : ℝ) ∨
      0 < (linearized (blueFromArgb argb) : ℝ) := by
    have lp {c : Int} (h0 : 0 ≤ c) (h1 : c ≠ 0) : 0 < (linearized c : ℝ) := by
      have := c10_strictMono (show (0 : Int) < c by omega)
      simp only at this
      rwa [c10_endpoints.1] at this
    by_cases h1 : redFromArgb argb = 0
    · by_cases h2 : greenFromArgb argb = 0
      · exact Or.inr (Or.inr (lp hb.1 (fun h3 => h ⟨h1, h2, h3⟩)))
      · exact Or.inr (Or.inl (lp hg.1 h2))
    · exact Or.inl (lp hr.1 h1)
  have had := adaptedCones_eq hv hn
  have hraw := rawCones_argb argb
  simp only at hraw
  obtain ⟨bx, by', bz⟩ := rgbD_bounds
  set vc : ViewingConditions ℝ := ViewingConditions.sRgb with hvc
  set X := xyzFromArgb (F := ℝ) argb with hX
  have hval : (Cam16.fromInt argb : Cam16 ℝ) = Cam16.fromXyzInViewingConditions X.x0 X.x1 X.x2 vc := rfl
  have hc0 : 0 < (rawCones X.x0 X.x1 X.x2).x0 := by
    rw [hraw]; dsimp only
    rcases hpos with h | h | h <;> positivity
  have hc1 : 0 < (rawCones X.x0 X.x1 X.x2).x1 := by
    rw [hraw]; dsimp only
    rcases hpos with h | h | h <;> positivity
  have hc2 : 0 < (rawCones X.x0 X.x1 X.x2).x2 := by
    rw [hraw]; dsimp only
    rcases hpos with h | h | h <;> positivity
  have p0 := cone_pos hv.fl (mul_pos hv.d0 hc0)
  have p1 := cone_pos hv.fl (mul_pos hv.d1 hc1)
  have p2 := cone_pos hv.fl (mul_pos hv.d2 hc2)
  have hrho : 0 < rho (Cam16.adaptedCones X.x0 X.x1 X.x2 vc) := by
    rcases (Real.sqrt_nonneg (opA (Cam16.adaptedCones X.x0 X.x1 X.x2 vc) * opA (Cam16.adaptedCones X.x0 X.x1 X.x2 vc) +
      opB (Cam16.adaptedCones X.x0 X.x1 X.x2 vc) * opB (Cam16.adaptedCones X.x0 X.x1 X.x2 vc))).eq_or_lt with h0 | h0
    · exfalso
      have hz := (Real.sqrt_eq_zero (add_nonneg (mul_self_nonneg _) (mul_self_nonneg _))).1 h0.symm
      have ha : opA (Cam16.adaptedCones X.x0 X.x1 X.x2 vc) = 0 := by nlinarith
      have hbz : opB (Cam16.adaptedCones X.x0 X.x1 X.x2 vc) = 0 := by nlinarith
      simp only [opA, opB, had] at ha hbz
      norm_num at ha hbz
      have e1 : cone vc.fl (vc.rgbD.x0 * (rawCones X.x0 X.x1 X.x2).x0) = cone vc.fl (vc.rgbD.x1 * (rawCones X.x0 X.x1 X.x2).x1) := by
        linarith
      have e2 : cone vc.fl (vc.rgbD.x1 * (rawCones X.x0 X.x1 X.x2).x1) = cone vc.fl (vc.rgbD.x2 * (rawCones X.x0 X.x1 X.x2).x2) := by
        linarith
      have f1 := cone_injective hv.fl (mul_pos hv.d0 hc0).le (mul_pos hv.d1 hc1).le e1
      have f2 := cone_injective hv.fl (mul_pos hv.d1 hc1).le (mul_pos hv.d2 hc2).le e2
      have hk := mul_pos hv.d1 hc1
      rw [hraw] at f1 f2 hk
      dsimp only at f1 f2 hk
      obtain ⟨g1, g2⟩ := neutral_mix bx by' bz hr' hg' hb' f1 rfl f2.symm hk
      have hlt : blueFromArgb argb < greenFromArgb argb := c10_strictMono.lt_iff_lt.1 g2
      have := linearized_gap hb.1 hlt hg.2
      norm_num at this g1
      linarith
    · exact h0
  have hj : 0 < (Cam16.fromXyzInViewingConditions X.x0 X.x1 X.x2 vc).j := by
    rw [cam_j, had]
    have := hv.nbb; have := hv.aw
    unfold opP2
    positivity
  rw [hval, cam_chroma]
  have hu : 0 < opU (Cam16.adaptedCones X.x0 X.x1 X.x2 vc) := by
    rw [had]; unfold opU; positivity
  have he : 0 < eccentricity (Cam16.hueDegrees (opA (Cam16.adaptedCones X.x0 X.x1 X.x2 vc))
    (opB (Cam16.adaptedCones X.x0 X.x1 X.x2 vc))) := ehue_pos _
  have hk := kappa_pos hv.n
  have := hv.nC
  have := hv.ncb
  unfold alphaTerm tTerm kappaV
  have hs : 0 < Real.sqrt ((Cam16.fromXyzInViewingConditions X.x0 X.x1 X.x2 vc).j / 100.0) :=
    Real.sqrt_pos.2 (by positivity)
  positivity

theorem chroma_black (argb : Int) (hr : redFromArgb argb = 0) (hg : greenFromArgb argb = 0) (hb : blueFromArgb argb = 0) :
    (Cam16.fromInt argb : Cam16 ℝ).chroma = 0 := by
  have hv := sRgb_pos
  have hn := cones_of_argb argb
  have had := adaptedCones_eq hv hn
  have hraw := rawCones_argb argb
  simp only [hr, hg, hb, c10_endpoints.1, mul_zero, add_zero] at hraw
  rw [hraw] at had
  simp only [mul_zero, cone_zero] at had
  show (Cam16.fromXyzInViewingConditions _ _ _ _).chroma = 0
  rw [cam_chroma, cam_j, had]
  have : opP2 ⟨(0 : ℝ), 0, 0⟩ = 0 := by unfold opP2; norm_num
  rw [this]
  have hp : 0 < (ViewingConditions.sRgb : ViewingConditions ℝ).c * (ViewingConditions.sRgb : ViewingConditions ℝ).z :=
    mul_pos hv.c hv.z
  rw [zero_mul, zero_div, zero_rpow hp.ne']
  simp

end Mcu.Lemmas
