import Verif.Spec.Luminance
import Verif.Lemmas.Rounding
import Verif.Props.Opaque
import Verif.Model.Dislike
import Verif.Lemmas.Viewing
import Verif.Lemmas.Newton

/-! Properties C25 (gamut-limit search), C26 (tone of the colour found) and C38 (disliked colours),
over exact reals. -/

namespace Mcu.Props

open Mcu.HctSolver Mcu.ColorUtils Mcu.Spec Mcu.Lemmas Real

/-! ## C25 -/

theorem lum_eq (v : Vec3 ℝ) : lum v = luminance v := rfl

theorem inCube_of_near {y : ℝ} {A B P : Vec3 ℝ} (hA : Vertex y A) (hB : Vertex y B) {δ : ℝ} (h0 : 0 ≤ δ)
    (h : Near A B δ P) : InCube (100 * δ) P :=
  ⟨near_range hA hB h0 h 0, near_range hA hB h0 h 1, near_range hA hB h0 h 2⟩

/-- C25: the two vertices the search starts from are in the cube and have the requested luminance. -/
theorem c25_segment (y hue : ℝ) (h0 : 0 ≤ y) (h1 : y ≤ 100) :
    let s := bisectToSegment y hue
    (InCube 0 s.1 ∧ luminance s.1 = y) ∧ (InCube 0 s.2 ∧ luminance s.2 = y) := by
  obtain ⟨hA, hB⟩ := segment_vertices h0 h1 hue
  have cube : ∀ {v : Vec3 ℝ}, Vertex y v → InCube 0 v := by
    intro v hv
    have a := hv.1 0; have b := hv.1 1; have c := hv.1 2
    simp only [Vec3.get] at a b c
    refine ⟨?_, ?_, ?_⟩ <;> constructor <;> linarith
  exact ⟨⟨cube hA, hA.2.1⟩, ⟨cube hB, hB.2.1⟩⟩

/-- C25: at the end of the bisection both end points still have exactly the requested luminance and are
in the cube up to 3e-8, and no table index was out of range. -/
theorem c25_bisection (y hue : ℝ) (h0 : 0 ≤ y) (h1 : y ≤ 100) :
    let s := bisectToLimitState y hue
    s.inBounds = true ∧ (InCube 3e-8 s.left ∧ luminance s.left = y) ∧
      (InCube 3e-8 s.right ∧ luminance s.right = y) := by
  obtain ⟨hA, hB⟩ := segment_vertices h0 h1 hue
  have h := limState_ok h0 h1 hue
  have hl := inCube_of_near hA hB (by norm_num) h.left
  have hr := inCube_of_near hA hB (by norm_num) h.right
  have e : (100 : ℝ) * 3e-10 = 3e-8 := by norm_num
  rw [e] at hl hr
  exact ⟨h.inBounds, ⟨hl, near_lum hA hB h.left⟩, ⟨hr, near_lum hA hB h.right⟩⟩

/-- C25: along each axis the eight rounds are enough, the search ends with no critical plane strictly
between the two ends (so both ends round to the same or to neighbouring channel values). -/
theorem c25_bisection_finishes (hue : ℝ) (axis : Fin 3) (s : LimState ℝ)
    (hl : InCube 1e-4 s.left) (hr : InCube 1e-4 s.right) (h : s.left.get axis ≠ s.right.get axis) :
    let e := limAxis hue s axis
    (e.rPlane - e.lPlane).natAbs ≤ 1 := by
  have rng : ∀ v : Vec3 ℝ, InCube 1e-4 v → -0.001 ≤ v.get axis ∧ v.get axis ≤ 100.001 := by
    intro v hv
    obtain ⟨⟨a0, a1⟩, ⟨b0, b1⟩, ⟨c0, c1⟩⟩ := hv
    norm_num at a0 a1 b0 b1 c0 c1 ⊢
    fin_cases axis <;> simp only [Vec3.get] <;> constructor <;> linarith
  obtain ⟨l0, l1⟩ := rng _ hl
  obtain ⟨r0, r1⟩ := rng _ hr
  rcases limAxis_eq hue s axis with ⟨he, -⟩ | ⟨hlt, e⟩ | ⟨hlt, e⟩
  · exact absurd he h
  · have b := bracket_init l0 l1 r0 r1 hlt
    have := b.lo_ge; have := b.hi_le; have := b.le
    simp only
    rw [e]
    apply limLoop_finishes <;> simp only <;> omega
  · have b := bracket_init r0 r1 l0 l1 hlt
    have := b.lo_ge; have := b.hi_le; have := b.le
    simp only
    rw [e]
    apply limLoop_finishes <;> simp only <;> omega

theorem limit_get (y hue : ℝ) (i : Fin 3) : (bisectToLimit y hue).get i =
    ((bisectToLimitState y hue).left.get i + (bisectToLimitState y hue).right.get i) / 2 := by
  have e : (2.0 : ℝ) = 2 := by norm_num
  simp only [bisectToLimit, HctSolver.midpoint, e]
  fin_cases i <;> rfl

/-- C25: the point found has exactly the requested luminance and lies in the cube up to 3e-8. -/
theorem c25_limit (y hue : ℝ) (h0 : 0 ≤ y) (h1 : y ≤ 100) :
    InCube 3e-8 (bisectToLimit y hue) ∧ luminance (bisectToLimit y hue) = y := by
  obtain ⟨-, ⟨⟨hl0, hl1, hl2⟩, ll⟩, ⟨⟨hr0, hr1, hr2⟩, lr⟩⟩ := c25_bisection y hue h0 h1
  have g0 := limit_get y hue 0
  have g1 := limit_get y hue 1
  have g2 := limit_get y hue 2
  simp only [Vec3.get] at g0 g1 g2
  refine ⟨⟨?_, ?_, ?_⟩, ?_⟩
  · rw [g0]; constructor <;> linarith [hl0.1, hl0.2, hr0.1, hr0.2]
  · rw [g1]; constructor <;> linarith [hl1.1, hl1.2, hr1.1, hr1.2]
  · rw [g2]; constructor <;> linarith [hl2.1, hl2.2, hr2.1, hr2.2]
  · simp only [luminance] at *
    rw [g0, g1, g2]
    linarith

/-- C25: the colour returned for the limit differs from the requested luminance only by the rounding to
eight bits per channel, less than 0.41 in L*. -/
theorem c25_color (y hue : ℝ) (h0 : 0 ≤ y) (h1 : y ≤ 100) :
    |(lstarFromArgb (argbFromLinrgb (bisectToLimit y hue)) : ℝ) - lstarFromY y| ≤ 0.41 := by
  obtain ⟨⟨a, b, c⟩, hl⟩ := c25_limit y hue h0 h1
  rw [← lum_eq] at hl
  have := rounding_error (v := bisectToLimit y hue) (by
    intro i
    norm_num at a b c ⊢
    fin_cases i <;> simp only [Vec3.get] <;> constructor <;> linarith)
  rwa [hl] at this

example : (0 : ℝ) ≤ 18.4 ∧ (18.4 : ℝ) ≤ 100 := by norm_num

/-! ## C26 -/

/-- The lightness tried in round `k` of the search for an exact solution, hct_solver.rs 577 and 637. -/
noncomputable def newtonJ (hueRadians chroma y : ℝ) : Nat → ℝ
  | 0 => Real.sqrt y * 11
  | k + 1 =>
    let j := newtonJ hueRadians chroma y k
    let f := luminance (linrgbOfJ hueRadians chroma j)
    j - (f - y) * j / (2 * f)

/-- What the search for an exact solution returns: 0, or the colour of a round `i` that was inside the gamut
and either close to the requested luminance or the last one; no round up to it left the gamut from below. -/
theorem findLoop_result (hr c y : ℝ) (n : Nat) : ∀ k : Nat, k + n = 5 →
    findLoop hr c y n (newtonJ hr c y k) = 0 ∨
    ∃ i, i < 5 ∧ (∀ a, 0 ≤ (linrgbOfJ hr c (newtonJ hr c y i)).get a ∧
        (linrgbOfJ hr c (newtonJ hr c y i)).get a ≤ 100.01) ∧
      (i = 4 ∨ |luminance (linrgbOfJ hr c (newtonJ hr c y i)) - y| < 0.002) ∧
      (∀ m, k ≤ m → m ≤ i → Visited hr c (newtonJ hr c y m)) ∧
      findLoop hr c y n (newtonJ hr c y k) = argbFromLinrgb (linrgbOfJ hr c (newtonJ hr c y i)) := by
  induction n with
  | zero => intro k _; exact .inl rfl
  | succ n ih =>
    intro k hk
    have z0 : (0.0 : ℝ) = 0 := by norm_num
    have z2 : (2.0 : ℝ) = 2 := by norm_num
    simp only [findLoop, yFromLinrgb, z0, z2]
    set v := linrgbOfJ hr c (newtonJ hr c y k) with hv
    have hvis (c1 : ¬(v.x0 < 0 ∨ v.x1 < 0 ∨ v.x2 < 0))
        (c2 : ¬(yFromLinrgb.x0 * v.x0 + yFromLinrgb.x1 * v.x1 + yFromLinrgb.x2 * v.x2 ≤ 0)) :
        Visited hr c (newtonJ hr c y k) := by
      push Not at c1 c2
      refine ⟨?_, ?_⟩
      · rw [← hv]
        intro a
        fin_cases a
        · exact c1.1
        · exact c1.2.1
        · exact c1.2.2
      · rw [← hv]; exact c2
    split_ifs with c1 c2 c3 c4
    · exact .inl rfl
    · exact .inl rfl
    · exact .inl rfl
    · refine .inr ⟨k, by omega, ?_, ?_, ?_, rfl⟩
      · push Not at c1 c4
        rw [← hv]
        intro a
        fin_cases a
        · exact ⟨c1.1, c4.1⟩
        · exact ⟨c1.2.1, c4.2.1⟩
        · exact ⟨c1.2.2, c4.2.2⟩
      · rcases c3 with c3 | c3
        · left; omega
        · right; rw [← hv]; exact c3
      · intro m h1 h2
        obtain rfl : m = k := by omega
        exact hvis c1 c2
    · rcases ih (k + 1) (by omega) with h | ⟨i, h1, h2, h3, h4, h5⟩
      · exact .inl h
      · refine .inr ⟨i, h1, h2, h3, ?_, h5⟩
        intro m h6 h7
        rcases Nat.eq_or_lt_of_le h6 with rfl | h6
        · exact hvis c1 c2
        · exact h4 m h6 h7

/-- The hue in radians that the search works with. -/
noncomputable def hueRad (h : ℝ) : ℝ := MathUtils.sanitizeDegreesDouble h / 180 * Real.pi

/-- L* moves by at most 9.04 per unit of luminance. -/
theorem lstarFromY_lipschitz (a b : ℝ) : |lstarFromY a - lstarFromY b| ≤ 9.04 * |a - b| := by
  have e : ∀ y : ℝ, lstarFromY y = lOf (y / 100) := by intro y; rw [lstarFromY_eq, lOf]; ring
  have key : ∀ a b : ℝ, a ≤ b → |lstarFromY a - lstarFromY b| ≤ 9.04 * |a - b| := by
    intro a b h
    have h1 := lOf_add_le (y := a / 100) (d := (b - a) / 100) (by linarith)
    have h2 := lOf_mono (a := a / 100) (b := b / 100) (by linarith)
    rw [show a / 100 + (b - a) / 100 = b / 100 by ring] at h1
    rw [e, e, abs_sub_comm, abs_sub_comm a b, abs_of_nonneg (by linarith), abs_of_nonneg (by linarith)]
    norm_num
    linarith
  rcases le_total a b with h | h
  · exact key a b h
  · rw [abs_sub_comm, abs_sub_comm a b]; exact key b a h

/-- A luminance within 1.1 % (in the dark 6.7 %) has an L* within 0.43. -/
theorem lstar_close {y f : ℝ} (hy0 : 0 < y) (hy1 : y ≤ 100)
    (h1 : 1 / 2 ≤ y → 0.989 * y ≤ f ∧ f ≤ 1.011 * y) (h2 : 0.945 * y ≤ f ∧ f ≤ 1.067 * y) :
    |lstarFromY f - lstarFromY y| ≤ 0.43 := by
  have hl := lstarFromY_lipschitz f y
  rcases lt_or_ge y (1 / 2) with h | h
  · refine hl.trans ?_
    have : |f - y| ≤ 0.067 * y := by
      rw [abs_le]; norm_num at *; constructor <;> linarith [h2.1, h2.2]
    norm_num at *; linarith
  · obtain ⟨a, b⟩ := h1 h
    rcases lt_or_ge y 1 with h' | h'
    · refine hl.trans ?_
      have : |f - y| ≤ 0.011 * y := by
        rw [abs_le]; norm_num at *; constructor <;> linarith
      norm_num at *; linarith
    · have g1 : 216 / 24389 ≤ y / 100 := by norm_num; linarith
      have g2 : 216 / 24389 ≤ f / 100 := by norm_num at *; linarith
      rw [lstarFromY_eq, lstarFromY_eq, labF_of_ge g1, labF_of_ge g2]
      have hc0 : 0 ≤ (y / 100) ^ (1 / 3 : ℝ) := by positivity
      have hc1 : (y / 100) ^ (1 / 3 : ℝ) ≤ 1 := rpow_le_one (by positivity) (by linarith) (by norm_num)
      have up : (f / 100) ^ (1 / 3 : ℝ) ≤ 1.0037 * (y / 100) ^ (1 / 3 : ℝ) := by
        calc (f / 100) ^ (1 / 3 : ℝ) ≤ (1.0037 ^ 3 * (y / 100)) ^ (1 / 3 : ℝ) := by
              apply rpow_le_rpow (by norm_num at *; linarith) _ (by norm_num)
              norm_num at *; linarith
          _ = _ := by
              rw [mul_rpow (by norm_num) (by positivity), ← rpow_natCast, ← rpow_mul (by norm_num)]; norm_num
      have lo : 0.9963 * (y / 100) ^ (1 / 3 : ℝ) ≤ (f / 100) ^ (1 / 3 : ℝ) := by
        calc _ = (0.9963 ^ 3 * (y / 100)) ^ (1 / 3 : ℝ) := by
              rw [mul_rpow (by norm_num) (by positivity), ← rpow_natCast, ← rpow_mul (by norm_num)]; norm_num
          _ ≤ _ := by
              apply rpow_le_rpow (by positivity) _ (by norm_num)
              norm_num at *; linarith
      generalize (y / 100) ^ (1 / 3 : ℝ) = u at *
      generalize (f / 100) ^ (1 / 3 : ℝ) = w at *
      rw [abs_le]; norm_num at *; constructor <;> linarith

/-- C26: the colour found for any hue, chroma and tone in [0, 100] has a tone within 0.84 of the requested one.
(The code returns the colour of the fifth round of its exact search without checking it; that the first four
rounds bring the luminance close enough is `newton_close`.) -/
theorem c26_tone (h c t : ℝ) (ht0 : 0 ≤ t) (ht1 : t ≤ 100) :
    |(lstarFromArgb (solveToInt h c t) : ℝ) - t| ≤ 0.84 := by
  have z180 : (180.0 : ℝ) = 180 := by norm_num
  have z11 : (11.0 : ℝ) = 11 := by norm_num
  simp only [solveToInt, findResultByJ, fl_pi, fl_sqrt, z180, z11]
  rw [← show newtonJ (hueRad h) c (yFromLstar t) 0 = Real.sqrt (yFromLstar t) * 11 from rfl,
    ← show hueRad h = MathUtils.sanitizeDegreesDouble h / 180 * Real.pi from rfl]
  have hr := findLoop_result (hueRad h) c (yFromLstar t) 5 0 rfl
  have hy := (c11_range t).1.1 ⟨ht0, ht1⟩
  split_ifs with c1 c2
  · have := c16_accuracy t ht0 ht1
    norm_num at this ⊢; linarith
  · -- the exact search
    rcases hr with hr | ⟨i, hi, hcube, hclose, hvis, hr⟩
    · exact absurd hr c2
    · rw [hr]
      have hre := rounding_error (v := linrgbOfJ (hueRad h) c (newtonJ (hueRad h) c (yFromLstar t) i)) (by
        intro a
        have := hcube a
        norm_num at this ⊢
        constructor <;> linarith [this.1, this.2])
      rw [lum_eq] at hre
      have he : |lstarFromY (luminance (linrgbOfJ (hueRad h) c
          (newtonJ (hueRad h) c (yFromLstar t) i))) - t| ≤ 0.43 := by
        push Not at c1
        rcases hclose with rfl | hclose
        · have hlow : 1.1e-5 ≤ yFromLstar t := by
            have h1 := (c11_strictMono.1).monotone c1.2.1
            refine le_trans ?_ h1
            rw [yFromLstar_eq, labInvf_of_le (by norm_num)]; norm_num
          have hn := newton_close (J := newtonJ (hueRad h) c (yFromLstar t)) (by have := c1.1; norm_num at this; linarith) hlow hy.2 rfl
            (fun k => rfl) (fun m hm => hvis m (Nat.zero_le m) hm)
          have := lstar_close (by norm_num at hlow; linarith) hy.2 hn.1 hn.2
          rwa [c11_lstar_y_lstar] at this
        · have hl := lstarFromY_lipschitz (luminance (linrgbOfJ (hueRad h) c
            (newtonJ (hueRad h) c (yFromLstar t) i))) (yFromLstar t)
          rw [c11_lstar_y_lstar] at hl
          refine hl.trans ?_
          norm_num at hclose ⊢; linarith
      rw [abs_le] at he hre ⊢
      norm_num at *
      constructor <;> linarith [he.1, he.2, hre.1, hre.2]
  · have := c25_color (yFromLstar t) (hueRad h) hy.1 hy.2
    rw [c11_lstar_y_lstar] at this
    norm_num at this ⊢; linarith

/-- C26: when the exact search fails (the request is out of gamut) the tone is within 0.41. -/
theorem c26_out_of_gamut (h c t : ℝ) (ht0 : 0 ≤ t) (ht1 : t ≤ 100)
    (hf : findResultByJ (hueRad h) c (yFromLstar t) = 0) :
    |(lstarFromArgb (solveToInt h c t) : ℝ) - t| ≤ 0.41 := by
  have z180 : (180.0 : ℝ) = 180 := by norm_num
  simp only [solveToInt, fl_pi, z180]
  rw [← show hueRad h = MathUtils.sanitizeDegreesDouble h / 180 * Real.pi from rfl]
  split_ifs with c1 c2
  · have := c16_accuracy t ht0 ht1
    norm_num at this ⊢; linarith
  · exact absurd hf c2
  · have hy := (c11_range t).1.1 ⟨ht0, ht1⟩
    have := c25_color (yFromLstar t) (hueRad h) hy.1 hy.2
    rwa [c11_lstar_y_lstar] at this

/-- C26: grays have the requested tone within 0.26. -/
theorem c26_gray (h c t : ℝ) (ht0 : 0 ≤ t) (ht1 : t ≤ 100) (hc : c < 0.0001) :
    |(lstarFromArgb (solveToInt h c t) : ℝ) - t| ≤ 0.26 := by
  simp only [solveToInt]
  rw [if_pos (.inl hc)]
  exact c16_accuracy t ht0 ht1

/-- C26: tones outside [0, 100] give black and white. -/
theorem c26_clamped (h c t : ℝ) : (t ≤ 0 → (lstarFromArgb (solveToInt h c t) : ℝ) = 0) ∧
    (100 ≤ t → (lstarFromArgb (solveToInt h c t) : ℝ) = 100) := by
  obtain ⟨a, b⟩ := c24_black_white h c t
  refine ⟨fun ht => ?_, fun ht => ?_⟩
  · rw [a ht, c15_ignores_alpha _ 0 (by norm_num)]; exact lstar_black
  · rw [b ht, c15_ignores_alpha _ 0xFFFFFF (by norm_num)]; exact lstar_white

example : (0 : ℝ) ≤ 50 ∧ (50 : ℝ) ≤ 100 ∧ (0 : ℝ) < 0.0001 := by norm_num

/-- At tone 0 no chroma is in gamut: the exact search fails. -/
example (h c : ℝ) : findResultByJ (hueRad h) c (yFromLstar 0) = 0 := by
  rw [c11_endpoints.1]
  have z0 : (0.0 : ℝ) = 0 := by norm_num
  have hz : linrgbOfJ (hueRad h) c 0 = ⟨0, 0, 0⟩ := by
    have hi : inverseChromaticAdaptation (0 : ℝ) = 0 := by
      simp [inverseChromaticAdaptation, MathUtils.signum, fl_ofInt, z0]
    have hzc : (1.0 / (ViewingConditions.sRgb : ViewingConditions ℝ).c /
        (ViewingConditions.sRgb : ViewingConditions ℝ).z) ≠ 0 := by
      have := sRgb_pos
      have h1 := this.c
      have h2 := this.z
      positivity
    simp only [linrgbOfJ, fl_beq, z0, fl_powf, Bool.or_eq_true, or_true, if_true, zero_div, zero_mul, mul_zero,
      zero_rpow hzc]
    rw [zero_rpow (by norm_num)]
    simp only [mul_zero, zero_mul, zero_div, add_zero, sub_zero, hi, MathUtils.matrixMultiply]
  simp only [findResultByJ, findLoop, fl_sqrt, Real.sqrt_zero, zero_mul, hz, mul_zero, z0, add_zero, lt_irrefl, or_self,
    if_false, le_refl, if_true]

/-! ## C38 -/

open Mcu.Dislike

/-- C38: a colour is disliked exactly when its rounded hue is in 90..111, its rounded chroma above 16 and
its rounded tone below 65. -/
theorem c38_characterisation (x : Hct ℝ) (hh : 0 ≤ x.hue) (hc : 0 ≤ x.chroma) (ht : 0 ≤ x.tone) :
    isDisliked x = true ↔ (89.5 ≤ x.hue ∧ x.hue < 111.5) ∧ 16.5 ≤ x.chroma ∧ x.tone < 64.5 := by
  have z90 : (90.0 : ℝ) = ((90 : ℤ) : ℝ) := by norm_num
  have z111 : (111.0 : ℝ) = ((111 : ℤ) : ℝ) := by norm_num
  have z16 : (16.0 : ℝ) = ((16 : ℤ) : ℝ) := by norm_num
  have z65 : (65.0 : ℝ) = ((65 : ℤ) : ℝ) := by norm_num
  have r : ∀ v : ℝ, 0 ≤ v → realRound v = (⌊v + 1 / 2⌋ : ℤ) := fun v hv => by rw [realRound, if_pos hv]
  simp only [isDisliked, Hct.getHue, Hct.getChroma, Hct.getTone, fl_round, Bool.and_eq_true,
    decide_eq_true_eq, r _ hh, r _ hc, r _ ht, z90, z111, z16, z65]
  rw [ge_iff_le, gt_iff_lt, Int.cast_le, Int.cast_le, Int.cast_lt, Int.cast_lt, Int.le_floor,
    ← Int.lt_add_one_iff, Int.floor_lt, ← Int.add_one_le_iff, Int.le_floor, Int.floor_lt]
  push_cast
  constructor
  · rintro ⟨⟨⟨a, b⟩, c⟩, d⟩
    norm_num
    refine ⟨⟨?_, ?_⟩, ?_, ?_⟩ <;> linarith
  · rintro ⟨⟨a, b⟩, c, d⟩
    norm_num at a b c d
    refine ⟨⟨⟨?_, ?_⟩, ?_⟩, ?_⟩ <;> linarith

/-- C38: liked colours are left unchanged. -/
theorem c38_liked_unchanged {F : Type} [Fl F] (x : Hct F) (h : isDisliked x = false) :
    fixIfDisliked x = x := by
  simp only [fixIfDisliked, h]; rfl

/-- C38: a disliked colour is replaced by the colour of tone 70 with the same hue and chroma request. -/
theorem c38_fixed {F : Type} [Fl F] (x : Hct F) (h : isDisliked x = true) :
    fixIfDisliked x = Hct.fromHct x.getHue x.getChroma 70.0 := by
  simp only [fixIfDisliked, h]; rfl

/-- C38: the result of fixing is not disliked. -/
theorem c38_result_liked (x : Hct ℝ) : isDisliked (fixIfDisliked x) = false := by
  cases h : isDisliked x with
  | false => rw [c38_liked_unchanged x h]; exact h
  | true =>
    have h70 : (70.0 : ℝ) = 70 := by norm_num
    rw [c38_fixed x h, h70]
    have ht := c26_tone x.hue x.chroma 70 (by norm_num) (by norm_num)
    rw [abs_le] at ht
    have htone : (64.5 : ℝ) ≤ (Hct.fromHct x.getHue x.getChroma (70 : ℝ)).tone := by
      show (64.5 : ℝ) ≤ lstarFromArgb (solveToInt x.hue x.chroma 70)
      norm_num at ht ⊢; linarith [ht.1]
    have hr : realRound (64.5 : ℝ) ≤ realRound (Hct.fromHct x.getHue x.getChroma (70 : ℝ)).tone :=
      realRound_mono htone
    have h65 : realRound (64.5 : ℝ) = 65 := by
      rw [realRound, if_pos (by norm_num), show ⌊(64.5 : ℝ) + 1 / 2⌋ = 65 from by
        rw [Int.floor_eq_iff]; norm_num]
      norm_num
    rw [h65] at hr
    rw [Bool.eq_false_iff]
    intro hd
    simp only [isDisliked, Bool.and_eq_true, decide_eq_true_eq, fl_round, Hct.getTone] at hd
    have := hd.2
    norm_num at this
    linarith

/-- C38: fixing is idempotent. -/
theorem c38_idempotent (x : Hct ℝ) : fixIfDisliked (fixIfDisliked x) = fixIfDisliked x :=
  c38_liked_unchanged _ (c38_result_liked x)

/-- A disliked colour (a dark yellow-green). -/
example : isDisliked (⟨100, 50, 40, 0xFF606000⟩ : Hct ℝ) = true :=
  (c38_characterisation _ (by norm_num) (by norm_num) (by norm_num)).2 (by norm_num)

end Mcu.Props
