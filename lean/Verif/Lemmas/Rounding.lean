import Verif.Props.Color
import Verif.Lemmas.Solver
import Mathlib.Analysis.MeanInequalities

/-! How much rounding the three channels to 8 bits can change L*.

Rounding moves each encoded channel by at most half a step.  On the power branch of the transfer
function the L^2.4 triangle inequality turns this into the same shift of the encoded gray of equal
luminance; on the linear branch the luminance moves by at most 0.00016. -/

namespace Mcu.Lemmas

open Mcu.ColorUtils Mcu.HctSolver Mcu.Props Real

/-- Half a channel step, in units of the base of the power branch. -/
noncomputable def hstep : ℝ := 0.5 / 255 / 1.055

/-- `p` exceeds `q` by no more than rounding allows. -/
def Close (p q : ℝ) : Prop := p ≤ (q ^ (1 / 2.4 : ℝ) + hstep) ^ (2.4 : ℝ) + 0.00016

theorem hstep_nonneg : 0 ≤ hstep := by unfold hstep; positivity

theorem rpow_cancel {q : ℝ} (hq : 0 ≤ q) : (q ^ (1 / 2.4 : ℝ)) ^ (2.4 : ℝ) = q := by
  rw [← rpow_mul hq]; norm_num

theorem close_of_le {p q : ℝ} (hq : 0 ≤ q) (h : p ≤ q + 0.00016) : Close p q := by
  unfold Close
  have h1 : (q ^ (1 / 2.4 : ℝ)) ^ (2.4 : ℝ) ≤ (q ^ (1 / 2.4 : ℝ) + hstep) ^ (2.4 : ℝ) := by
    apply rpow_le_rpow (by positivity) _ (by norm_num)
    linarith [hstep_nonneg]
  rw [rpow_cancel hq] at h1
  linarith

theorem close_gpow {v w : ℝ} (_hv : -0.055 ≤ v) (hw : 0 ≤ w) (h : w ≤ v + 0.5 / 255) :
    Close (gpow w) (gpow v) := by
  have hv0 : 0 ≤ v + 0.055 := by linarith
  have e : (gpow v) ^ (1 / 2.4 : ℝ) = (v + 0.055) / 1.055 := by
    unfold gpow
    rw [← rpow_mul (by positivity)]; norm_num
  unfold Close
  rw [e]
  have h1 : gpow w ≤ ((v + 0.055) / 1.055 + hstep) ^ (2.4 : ℝ) := by
    unfold gpow
    apply rpow_le_rpow (by positivity) _ (by norm_num)
    unfold hstep
    rw [← add_div]
    apply div_le_div_of_nonneg_right _ (by norm_num)
    linarith
  norm_num at h1 ⊢
  linarith

/-- The channel found for a linear value, and its linear value again, are close both ways. -/
theorem channel_close {x : ℝ} (h0 : -0.001 ≤ x) (h1 : x ≤ 100.05) :
    Close (linearized (delinearized x) / 100) (max x 0 / 100) ∧
    Close (max x 0 / 100) (linearized (delinearized x) / 100) := by
  have hq : 0 ≤ max x 0 / 100 := div_nonneg (le_max_right _ _) (by norm_num)
  obtain ⟨n, hn⟩ := realRound_int (encode (x / 100) * 255)
  have habs := abs_realRound_sub (encode (x / 100) * 255)
  rw [hn] at habs
  have hdel : delinearized x = MathUtils.clampInt 0 255 (satI64 n) := delinearized_of_round hn
  by_cases hb : x / 100 ≤ 0.0031308
  · have he : encode (x / 100) = x / 100 * 12.92 := by unfold encode; rw [if_pos hb]
    rw [he, abs_le] at habs
    have hn0 : 0 ≤ n := by
      have : (-1 : ℝ) < n := by norm_num at h0 habs ⊢; linarith [habs.1]
      have : -1 < n := by exact_mod_cast this
      omega
    have hn10 : n ≤ 10 := by
      have : (n : ℝ) < 11 := by norm_num at hb habs ⊢; linarith [habs.2]
      have : n < 11 := by exact_mod_cast this
      omega
    rw [hdel, clamp_sat_of_mem hn0 (by omega), linearized_small hn10]
    have hnr : (0 : ℝ) ≤ n := by exact_mod_cast hn0
    have hm := le_max_left x 0
    constructor
    · apply close_of_le hq
      have hu := habs.2
      generalize max x 0 = z at *
      norm_num at hu ⊢
      linarith
    · apply close_of_le (by positivity)
      rcases max_choice x 0 with e | e <;> rw [e]
      · norm_num at habs ⊢
        linarith [habs.1]
      · norm_num; positivity
  · have hx0 : 0 ≤ x / 100 := by norm_num at hb; linarith
    have hmx : max x 0 = x := max_eq_left (by linarith)
    rw [hmx]
    have hbr := encode_break hb
    have he : encode (x / 100) = 1.055 * (x / 100) ^ (1.0 / 2.4 : ℝ) - 0.055 := by
      unfold encode; rw [if_neg hb]
    have hgv : gpow (encode (x / 100)) = x / 100 := by rw [he]; exact gpow_encode_pow hx0
    have hup : encode (x / 100) * 255 < 255.4 := by
      rw [he]
      have : (x / 100) ^ (1.0 / 2.4 : ℝ) ≤ 1.0003 := by
        rw [e124]; apply rpow_le_of_le_pow (by norm_num) (by norm_num) hx0
        have : x / 100 ≤ 1.0005 := by norm_num at h1 ⊢; linarith
        calc (x / 100) ^ 5 ≤ 1.0005 ^ 5 := pow_le_pow_left₀ hx0 this 5
          _ ≤ 1.0003 ^ 12 := by norm_num
      norm_num at this ⊢
      linarith
    set v := encode (x / 100) with hv
    rw [abs_le] at habs
    have hv0 : 0 ≤ v := by norm_num at hbr; linarith
    have hn10 : 10 ≤ n := by
      have : (9 : ℝ) < n := by norm_num at hbr; linarith [habs.1]
      have : 9 < n := by exact_mod_cast this
      omega
    have hn255 : n ≤ 255 := by
      have : (n : ℝ) < 256 := by norm_num at hup; linarith [habs.2]
      have : n < 256 := by exact_mod_cast this
      omega
    rw [hdel, clamp_sat_of_mem (by omega) hn255]
    rcases eq_or_lt_of_le hn10 with h10 | h11
    · subst h10
      rw [linearized_small (by norm_num)]
      have hv1 : v ≤ 10.5 / 255 := by
        have := habs.1; push_cast at this; norm_num; linarith
      have hy2 : x / 100 ≤ 0.00319 := by
        rw [← hgv]
        refine (gpow_mono (by norm_num; linarith) hv1).trans ?_
        unfold gpow; rw [e24]; apply rpow_le_of_le_pow <;> norm_num
      constructor
      · apply close_of_le hx0
        norm_num at hb ⊢
        linarith
      · apply close_of_le (by norm_num)
        norm_num at hy2 ⊢
        linarith
    · have h11 : 11 ≤ n := h11
      have hnr : (11 : ℝ) ≤ n := by exact_mod_cast h11
      rw [linearized_large h11, ← hgv, mul_div_cancel_right₀ _ (by norm_num)]
      have hn0r : (0 : ℝ) ≤ n / 255 := by positivity
      constructor
      · apply close_gpow (by norm_num; linarith) hn0r
        norm_num
        linarith [habs.2]
      · apply close_gpow (by norm_num; linarith) hv0
        norm_num
        linarith [habs.1]

/-- The triangle inequality of the weighted L^2.4 norm, for a constant shift. -/
theorem minkowski {k u : Fin 3 → ℝ} (hk : ∀ i, 0 ≤ k i) (hs : ∑ i, k i = 1) (hu : ∀ i, 0 ≤ u i) {a : ℝ}
    (ha : 0 ≤ a) :
    ∑ i, k i * (u i + a) ^ (2.4 : ℝ) ≤ ((∑ i, k i * u i ^ (2.4 : ℝ)) ^ (1 / 2.4 : ℝ) + a) ^ (2.4 : ℝ) := by
  have hp : (1 : ℝ) ≤ 2.4 := by norm_num
  have hpne : (2.4 : ℝ) ≠ 0 := by norm_num
  have hkp : ∀ i, (k i ^ (1 / 2.4 : ℝ)) ^ (2.4 : ℝ) = k i := fun i => rpow_cancel (hk i)
  have h := Real.Lp_add_le_of_nonneg (s := Finset.univ) (f := fun i => k i ^ (1 / 2.4 : ℝ) * u i)
    (g := fun i => k i ^ (1 / 2.4 : ℝ) * a) hp
    (fun i _ => mul_nonneg (rpow_nonneg (hk i) _) (hu i))
    (fun i _ => mul_nonneg (rpow_nonneg (hk i) _) ha)
  have e1 : ∀ i, (k i ^ (1 / 2.4 : ℝ) * u i + k i ^ (1 / 2.4 : ℝ) * a) ^ (2.4 : ℝ) =
      k i * (u i + a) ^ (2.4 : ℝ) := by
    intro i
    rw [← mul_add, mul_rpow (rpow_nonneg (hk i) _) (by linarith [hu i]), hkp]
  have e2 : ∀ i, (k i ^ (1 / 2.4 : ℝ) * u i) ^ (2.4 : ℝ) = k i * u i ^ (2.4 : ℝ) := by
    intro i
    rw [mul_rpow (rpow_nonneg (hk i) _) (hu i), hkp]
  have e3 : ∀ i, (k i ^ (1 / 2.4 : ℝ) * a) ^ (2.4 : ℝ) = k i * a ^ (2.4 : ℝ) := by
    intro i
    rw [mul_rpow (rpow_nonneg (hk i) _) ha, hkp]
  simp only [e1, e2, e3] at h
  have e4 : (∑ i, k i * a ^ (2.4 : ℝ)) ^ (1 / 2.4 : ℝ) = a := by
    rw [← Finset.sum_mul, hs, one_mul, ← rpow_mul ha]; norm_num
  rw [e4] at h
  have hsum : 0 ≤ ∑ i, k i * (u i + a) ^ (2.4 : ℝ) :=
    Finset.sum_nonneg fun i _ => mul_nonneg (hk i) (rpow_nonneg (by linarith [hu i]) _)
  calc ∑ i, k i * (u i + a) ^ (2.4 : ℝ)
      = ((∑ i, k i * (u i + a) ^ (2.4 : ℝ)) ^ (1 / 2.4 : ℝ)) ^ (2.4 : ℝ) := (rpow_cancel hsum).symm
    _ ≤ _ := by
      apply rpow_le_rpow (rpow_nonneg hsum _) h (by norm_num)

/-- Close channels give close luminances. -/
theorem close_lum {p q : Vec3 ℝ} (hq0 : 0 ≤ q.x0) (hq1 : 0 ≤ q.x1) (hq2 : 0 ≤ q.x2)
    (h0 : Close p.x0 q.x0) (h1 : Close p.x1 q.x1) (h2 : Close p.x2 q.x2) : Close (lum p) (lum q) := by
  have hm := minkowski (k := ![0.2126, 0.7152, 0.0722])
    (u := ![q.x0 ^ (1 / 2.4 : ℝ), q.x1 ^ (1 / 2.4 : ℝ), q.x2 ^ (1 / 2.4 : ℝ)])
    (by intro i; fin_cases i <;> simp <;> norm_num) (by simp [Fin.sum_univ_three]; norm_num)
    (by intro i; fin_cases i <;> simp <;> positivity) hstep_nonneg
  simp only [Fin.sum_univ_three, Matrix.cons_val_zero, Matrix.cons_val_one, Matrix.cons_val_two,
    Matrix.head_cons, Matrix.tail_cons, rpow_cancel hq0, rpow_cancel hq1, rpow_cancel hq2] at hm
  unfold Close at *
  simp only [lum]
  generalize (q.x0 ^ (1 / 2.4 : ℝ) + hstep) ^ (2.4 : ℝ) = a at *
  generalize (q.x1 ^ (1 / 2.4 : ℝ) + hstep) ^ (2.4 : ℝ) = b at *
  generalize (q.x2 ^ (1 / 2.4 : ℝ) + hstep) ^ (2.4 : ℝ) = c at *
  generalize ((0.2126 * q.x0 + 0.7152 * q.x1 + 0.0722 * q.x2) ^ (1 / 2.4 : ℝ) + hstep) ^ (2.4 : ℝ) = d at *
  norm_num at *
  linarith

/-- L* has slope at most 24389/27 in the relative luminance. -/
theorem lOf_add_le {y d : ℝ} (hd : 0 ≤ d) : lOf (y + d) ≤ lOf y + 24389 / 27 * d := by
  have key : ∀ {a b : ℝ}, 216 / 24389 ≤ a → a ≤ b → lOf b ≤ lOf a + 24389 / 27 * (b - a) := by
    intro a b ha hab
    have ha0 : 0 < a := lt_of_lt_of_le (by norm_num) ha
    rw [lOf, lOf, labF_of_ge ha, labF_of_ge (ha.trans hab)]
    have hc : (6 / 29 : ℝ) ≤ a ^ (1 / 3 : ℝ) := by
      have e : (1 / 3 : ℝ) = ((1 : ℕ) : ℝ) / ((3 : ℕ) : ℝ) := by norm_num
      rw [e]; apply le_rpow_of_pow_le (by norm_num) (by norm_num) ha0.le
      norm_num at ha ⊢; linarith
    have hmono : a ^ (1 / 3 : ℝ) ≤ b ^ (1 / 3 : ℝ) := rpow_le_rpow ha0.le hab (by norm_num)
    have ea : (a ^ (1 / 3 : ℝ)) ^ 3 = a := by
      rw [← rpow_natCast, ← rpow_mul ha0.le]; norm_num
    have eb : (b ^ (1 / 3 : ℝ)) ^ 3 = b := by
      rw [← rpow_natCast, ← rpow_mul (ha0.le.trans hab)]; norm_num
    set s := a ^ (1 / 3 : ℝ)
    set t := b ^ (1 / 3 : ℝ)
    rw [← ea, ← eb]
    have h1 : 3 * (6 / 29) ^ 2 * (t - s) ≤ t ^ 3 - s ^ 3 := by
      have : t ^ 3 - s ^ 3 = (t - s) * (t ^ 2 + t * s + s ^ 2) := by ring
      rw [this, mul_comm]
      apply mul_le_mul_of_nonneg_left _ (by linarith)
      nlinarith
    norm_num at h1
    linarith
  rcases le_total (y + d) (216 / 24389) with h | h
  · rw [lOf_small h, lOf_small (by linarith)]; linarith
  · rcases le_total y (216 / 24389) with h' | h'
    · have := key (a := 216 / 24389) le_rfl h
      rw [lOf_small (y := 216 / 24389) le_rfl] at this
      rw [lOf_small h']
      linarith
    · have := key h' (show y ≤ y + d by linarith)
      linarith

theorem lOf_mono {a b : ℝ} (h : a ≤ b) : lOf a ≤ lOf b := by
  have := labF_strictMono.monotone h
  unfold lOf; linarith

/-- Close luminances have close L*. -/
theorem close_lOf {p q : ℝ} (hq : 0 ≤ q) (h : Close p q) : lOf p ≤ lOf q + 0.402 := by
  unfold Close at h
  have e : (q ^ (1 / 2.4 : ℝ) + hstep) ^ (2.4 : ℝ) =
      gpow ((1.055 * q ^ (1 / 2.4 : ℝ) - 0.055) + 0.5 / 255) := by
    unfold gpow hstep
    congr 1
    field_simp
    ring
  have e' : gpow (1.055 * q ^ (1 / 2.4 : ℝ) - 0.055) = q := by
    have := gpow_encode_pow hq
    rwa [show (1.0 / 2.4 : ℝ) = 1 / 2.4 by norm_num] at this
  have hpos : 0 ≤ q ^ (1 / 2.4 : ℝ) := by positivity
  have hl := lOf_gpow_lipschitz (v := 1.055 * q ^ (1 / 2.4 : ℝ) - 0.055)
    (w := 1.055 * q ^ (1 / 2.4 : ℝ) - 0.055 + 0.5 / 255) (by norm_num; linarith) (by norm_num)
  rw [e'] at hl
  have h1 := lOf_mono h
  have h2 := lOf_add_le (y := (q ^ (1 / 2.4 : ℝ) + hstep) ^ (2.4 : ℝ)) (d := 0.00016) (by norm_num)
  rw [e] at h1 h2
  norm_num at hl h1 h2 ⊢
  linarith

/-- The luminance of the packed colour. -/
theorem lstar_argbFromLinrgb (v : Vec3 ℝ) : (lstarFromArgb (argbFromLinrgb v) : ℝ) =
    lOf (lum ⟨linearized (delinearized v.x0) / 100, linearized (delinearized v.x1) / 100,
      linearized (delinearized v.x2) / 100⟩) := by
  have hr := c10_range v.x0
  have hg := c10_range v.x1
  have hb := c10_range v.x2
  rw [lstarFromArgb_eq, luminance_eq, lstarFromY_eq]
  have e0 : redFromArgb (argbFromLinrgb v) = delinearized v.x0 := by
    simp only [argbFromLinrgb, redFromArgb, argbFromRgb]; omega
  have e1 : greenFromArgb (argbFromLinrgb v) = delinearized v.x1 := by
    simp only [argbFromLinrgb, greenFromArgb, argbFromRgb]; omega
  have e2 : blueFromArgb (argbFromLinrgb v) = delinearized v.x2 := by
    simp only [argbFromLinrgb, blueFromArgb, argbFromRgb]; omega
  rw [e0, e1, e2]
  simp only [lOf, lum]
  ring_nf

/-- Rounding a linear colour in (slightly more than) the cube to 8 bits per channel changes its L* by
less than 0.41. -/
theorem rounding_error {v : Vec3 ℝ} (hv : ∀ i, -1e-6 ≤ v.get i ∧ v.get i ≤ 100.05) :
    |(lstarFromArgb (argbFromLinrgb v) : ℝ) - lstarFromY (lum v)| ≤ 0.41 := by
  have h0 := hv 0
  have h1 := hv 1
  have h2 := hv 2
  simp only [Vec3.get] at h0 h1 h2
  rw [lstar_argbFromLinrgb]
  have c0 := channel_close (x := v.x0) (by norm_num at h0 ⊢; linarith) h0.2
  have c1 := channel_close (x := v.x1) (by norm_num at h1 ⊢; linarith) h1.2
  have c2 := channel_close (x := v.x2) (by norm_num at h2 ⊢; linarith) h2.2
  set p : Vec3 ℝ := ⟨linearized (delinearized v.x0) / 100, linearized (delinearized v.x1) / 100,
      linearized (delinearized v.x2) / 100⟩ with hp
  set q : Vec3 ℝ := ⟨max v.x0 0 / 100, max v.x1 0 / 100, max v.x2 0 / 100⟩ with hq
  have hpos : ∀ x : ℝ, 0 ≤ max x 0 / 100 := fun x => div_nonneg (le_max_right _ _) (by norm_num)
  have hlin : ∀ x : ℝ, 0 ≤ (linearized (delinearized x) : ℝ) / 100 := by
    intro x
    have := linearized_range _ (c10_range x).1 (c10_range x).2
    exact div_nonneg this.1 (by norm_num)
  have a := close_lum (p := p) (q := q) (hpos _) (hpos _) (hpos _) c0.1 c1.1 c2.1
  have b := close_lum (p := q) (q := p) (hlin _) (hlin _) (hlin _) c0.2 c1.2 c2.2
  have hq0 : 0 ≤ lum q := by
    have := hpos v.x0; have := hpos v.x1; have := hpos v.x2
    simp only [lum, hq]; positivity
  have hp0 : 0 ≤ lum p := by
    have := hlin v.x0; have := hlin v.x1; have := hlin v.x2
    simp only [lum, hp]; positivity
  have a' := close_lOf hq0 a
  have b' := close_lOf hp0 b
  -- from the clipped to the given coordinates
  have hl : lstarFromY (lum v) = lOf (lum v / 100) := by rw [lstarFromY_eq, lOf]; ring
  have hmx : ∀ x : ℝ, -1e-6 ≤ x → max x 0 ≤ x + 1e-6 ∧ x ≤ max x 0 := fun x hx =>
    ⟨max_le (by norm_num) (by norm_num at hx ⊢; linarith), le_max_left _ _⟩
  have m0 := hmx _ h0.1
  have m1 := hmx _ h1.1
  have m2 := hmx _ h2.1
  have hle : lum v / 100 ≤ lum q := by
    simp only [lum, hq]; norm_num; linarith [m0.2, m1.2, m2.2]
  have hge : lum q ≤ lum v / 100 + 1e-8 := by
    have m0 := m0.1
    have m1 := m1.1
    have m2 := m2.1
    simp only [lum, hq]
    generalize max v.x0 0 = a at *
    generalize max v.x1 0 = b at *
    generalize max v.x2 0 = c at *
    norm_num at m0 m1 m2 ⊢
    linarith
  have l1 := lOf_mono hle
  have l2 := (lOf_mono hge).trans (lOf_add_le (by norm_num))
  rw [hl, abs_le]
  norm_num at a' b' l2 ⊢
  constructor <;> linarith

end Mcu.Lemmas
