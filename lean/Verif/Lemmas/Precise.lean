import Verif.Lemmas.NewtonStart

/-! The constants of the default viewing conditions to sixteen digits. -/

namespace Mcu.Lemmas

open Mcu.ColorUtils Mcu.MathUtils Mcu.HctSolver Real

theorem adaptLum_d16 : 11.7256779488569492 ≤ adaptLum none ∧ adaptLum none ≤ 11.7256779488569493 := by
  have h : adaptLum none = 200 * (33/58) ^ 3 / π := by
    unfold adaptLum
    rw [y50, if_neg (by norm_num)]
    ring
  rw [h]
  have h1 := Real.pi_gt_d20
  have h2 := Real.pi_lt_d20
  have hp := Real.pi_pos
  constructor
  · rw [le_div_iff₀ hp]; norm_num at h2 ⊢; linarith
  · rw [div_le_iff₀ hp]; norm_num at h1 ⊢; linarith

theorem exp_d15 : 0.557677321742838 ≤ exp ((-adaptLum none - 42) / 92) ∧ exp ((-adaptLum none - 42) / 92) ≤ 0.557677321742841 := by
  obtain ⟨h1, h2⟩ := adaptLum_d16
  have l : exp (-0.5839747603136625) ≤ exp ((-adaptLum none - 42) / 92) := by
    apply exp_le_exp.mpr; rw [le_div_iff₀ (by norm_num)]; norm_num at h2 ⊢; linarith
  have u : exp ((-adaptLum none - 42) / 92) ≤ exp (-0.5839747603136624) := by
    apply exp_le_exp.mpr; rw [div_le_iff₀ (by norm_num)]; norm_num at h1 ⊢; linarith
  have b1 := Real.exp_bound (x := -0.5839747603136625) (n := 15) (by norm_num [abs_le]) (by norm_num)
  have b2 := Real.exp_bound (x := -0.5839747603136624) (n := 15) (by norm_num [abs_le]) (by norm_num)
  rw [show |(-0.5839747603136625 : ℝ)| = 0.5839747603136625 by rw [abs_of_neg] <;> norm_num] at b1
  rw [show |(-0.5839747603136624 : ℝ)| = 0.5839747603136624 by rw [abs_of_neg] <;> norm_num] at b2
  rw [abs_le] at b1 b2
  simp only [Finset.sum_range_succ, Finset.sum_range_zero, Nat.factorial] at b1 b2
  generalize exp (-0.5839747603136625) = E1 at *
  generalize exp (-0.5839747603136624) = E2 at *
  norm_num at b1 b2 l u ⊢
  constructor
  · linarith [b1.1]
  · linarith [b2.2]

theorem adaptD_d15 : 0.845089632849210 ≤ adaptD none 2 false ∧ adaptD none 2 false ≤ 0.845089632849212 := by
  obtain ⟨h1, h2⟩ := exp_d15
  have h : adaptD none 2 false = 1 - (1 / 3.6) * exp ((-adaptLum none - 42) / 92) := by
    unfold adaptD
    simp only [Bool.false_eq_true, if_false]
    rw [if_neg (by norm_num at h1 ⊢; linarith), if_neg (by norm_num at h2 ⊢; linarith)]
    ring
  rw [h]
  constructor <;> norm_num at h1 h2 ⊢ <;> linarith

theorem rgbD_d16 : (1.0211777027575200 ≤ vc0.rgbD.x0 ∧ vc0.rgbD.x0 ≤ 1.0211777027575202) ∧
    (0.9863077294280124 ≤ vc0.rgbD.x1 ∧ vc0.rgbD.x1 ≤ 0.9863077294280126) ∧
    (0.9339605082802298 ≤ vc0.rgbD.x2 ∧ vc0.rgbD.x2 ≤ 0.9339605082802301) := by
  obtain ⟨h1, h2⟩ := adaptD_d15
  have h : vc0.rgbD = _ := makeCore_rgbD none none none none none
  rw [h]
  simp only [Option.getD_none, wpCones, whitePointD65]
  generalize adaptD none 2 false = d at h1 h2
  norm_num at h1 h2 ⊢
  refine ⟨⟨?_, ?_⟩, ⟨?_, ?_⟩, ?_, ?_⟩ <;> linarith

theorem fl_d16 : 0.3884814537800352 ≤ vc0.fl ∧ vc0.fl ≤ 0.3884814537800354 := by
  rw [fl_formula]
  obtain ⟨h1, h2⟩ := adaptLum_d16
  generalize adaptLum none = l at h1 h2
  have e : (1 : ℝ) / 3 = ((1 : ℕ) : ℝ) / ((3 : ℕ) : ℝ) := by norm_num
  have c1 : (3.8848058771421995 : ℝ) ≤ (5 * l) ^ ((1 : ℝ) / 3) := by
    rw [e]; apply le_rpow_of_pow_le (by norm_num) (by norm_num) (by norm_num at h1 ⊢; linarith)
    rw [pow_one]; norm_num at h1 ⊢; linarith
  have c2 : (5 * l) ^ ((1 : ℝ) / 3) ≤ (3.8848058771421996 : ℝ) := by
    rw [e]; apply rpow_le_of_le_pow (by norm_num) (by norm_num) (by norm_num at h1 ⊢; linarith)
    rw [pow_one]; norm_num at h2 ⊢; linarith
  generalize (5 * l) ^ ((1 : ℝ) / 3) = c at c1 c2
  have hl : 0 < 5 * l + 1 := by norm_num at h1; linarith
  have k0 : 0.016770535046954674 ≤ 1 / (5 * l + 1) := by
    rw [le_div_iff₀ hl]; norm_num at h2 ⊢; linarith
  have k1 : 1 / (5 * l + 1) ≤ 0.016770535046954675 := by
    rw [div_le_iff₀ hl]; norm_num at h1 ⊢; linarith
  generalize 1 / (5 * l + 1) = k at k0 k1
  have k4 : k ^ 4 ≤ 7.910203824135378e-8 := (pow_le_pow_left₀ (by norm_num at k0; linarith) k1 4).trans (by norm_num)
  have k40 : 7.9102038241353754e-8 ≤ k ^ 4 := le_trans (by norm_num) (pow_le_pow_left₀ (by norm_num) k0 4)
  generalize k ^ 4 = q at k4 k40
  have q0 : 0 ≤ q := by norm_num at k40; linarith
  have a1 : q * l ≤ 7.910203824135378e-8 * 11.7256779488569493 := mul_le_mul k4 h2 (by norm_num at h1; linarith) (by norm_num)
  have a0 : 7.9102038241353754e-8 * 11.7256779488569492 ≤ q * l := mul_le_mul k40 h1 (by norm_num) q0
  have s1 : (1 - q) ^ 2 ≤ (1 - 7.9102038241353754e-8) ^ 2 := pow_le_pow_left₀ (by norm_num at k4 ⊢; linarith) (by linarith) 2
  have s0 : (1 - 7.910203824135378e-8) ^ 2 ≤ (1 - q) ^ 2 := pow_le_pow_left₀ (by norm_num) (by linarith) 2
  generalize q * l = a at a0 a1
  generalize (1 - q) ^ 2 = s at s0 s1
  have hs0 : 0 ≤ s := le_trans (by norm_num) s0
  have p1 : s * c ≤ (1 - 7.9102038241353754e-8) ^ 2 * 3.8848058771421996 := mul_le_mul s1 c2 (by norm_num at c1; linarith) (by norm_num)
  have p0 : (1 - 7.910203824135378e-8) ^ 2 * 3.8848058771421995 ≤ s * c := mul_le_mul s0 c1 (by norm_num) hs0
  rw [mul_assoc]
  generalize s * c = p at p0 p1
  constructor <;> norm_num at p0 p1 a0 a1 ⊢ <;> linarith

/-- The factors of the cone responses. -/
theorem scale_d16 : |vc0.fl * vc0.rgbD.x0 / 100 - 0.0039670859853499817| ≤ 1e-17 ∧
    |vc0.fl * vc0.rgbD.x1 / 100 - 0.0038316226060267998| ≤ 1e-17 ∧
    |vc0.fl * vc0.rgbD.x2 / 100 - 0.0036282633602984441| ≤ 1e-17 := by
  obtain ⟨f1, f2⟩ := fl_d16
  obtain ⟨⟨a1, a2⟩, ⟨b1, b2⟩, ⟨c1, c2⟩⟩ := rgbD_d16
  have key {f x f1 f2 x1 x2 m : ℝ} (hf1 : f1 ≤ f) (hf2 : f ≤ f2) (hx1 : x1 ≤ x) (hx2 : x ≤ x2) (h1 : 0 ≤ f1) (h2 : 0 ≤ x1)
      (l : m - 1e-17 ≤ f1 * x1 / 100) (u : f2 * x2 / 100 ≤ m + 1e-17) : |f * x / 100 - m| ≤ 1e-17 := by
    have p := mul_le_mul hf1 hx1 h2 (h1.trans hf1)
    have q := mul_le_mul hf2 hx2 (h2.trans hx1) (h1.trans (hf1.trans hf2))
    rw [abs_le]
    constructor <;> linarith
  exact ⟨key f1 f2 a1 a2 (by norm_num) (by norm_num) (by norm_num) (by norm_num),
    key f1 f2 b1 b2 (by norm_num) (by norm_num) (by norm_num) (by norm_num),
    key f1 f2 c1 c2 (by norm_num) (by norm_num) (by norm_num) (by norm_num)⟩

/-- Linear components to cone stimuli and back, with the literal matrix of the solver. -/
theorem solver_matrix {r g b : ℝ} (hr : 0 ≤ r) (hg : 0 ≤ g) (hb : 0 ≤ b) :
    let x := vc0.fl * (vc0.rgbD.x0 * (0.30269915328759 * r + 0.6023803116433 * g + 0.07047346329738 * b)) / 100
    let y := vc0.fl * (vc0.rgbD.x1 * (0.15374913599554 * r + 0.77736002827076 * g + 0.08535981854956 * b)) / 100
    let z := vc0.fl * (vc0.rgbD.x2 * (0.02796570007202 * r + 0.14784523135458 * g + 0.90895832236388 * b)) / 100
    |1373.2198709594231 * x + (-1100.4251190754821) * y - 7.278681089101213 * z - r| ≤ 1e-12 * (0.2126 * r + 0.7152 * g + 0.0722 * b) ∧
    |(-271.815969077903) * x + 559.6580465940733 * y - 32.46047482791194 * z - g| ≤ 1e-12 * (0.2126 * r + 0.7152 * g + 0.0722 * b) ∧
    |1.9622899599665666 * x + (-57.173814538844006) * y - (-308.7233197812385) * z - b| ≤ 1e-12 * (0.2126 * r + 0.7152 * g + 0.0722 * b) := by
  obtain ⟨s0, s1, s2⟩ := scale_d16
  intro x y z
  have near {m μ c : ℝ} (h : |m - μ| ≤ 1e-17) (hc : 0 ≤ c) : |m * c - μ * c| ≤ 1e-17 * c := by
    rw [← sub_mul, abs_mul, abs_of_nonneg hc]; exact mul_le_mul_of_nonneg_right h hc
  have ex : x = vc0.fl * vc0.rgbD.x0 / 100 * (0.30269915328759 * r + 0.6023803116433 * g + 0.07047346329738 * b) := by simp only [x]; ring
  have ey : y = vc0.fl * vc0.rgbD.x1 / 100 * (0.15374913599554 * r + 0.77736002827076 * g + 0.08535981854956 * b) := by simp only [y]; ring
  have ez : z = vc0.fl * vc0.rgbD.x2 / 100 * (0.02796570007202 * r + 0.14784523135458 * g + 0.90895832236388 * b) := by simp only [z]; ring
  have n0 := near s0 (c := 0.30269915328759 * r + 0.6023803116433 * g + 0.07047346329738 * b) (by positivity)
  have n1 := near s1 (c := 0.15374913599554 * r + 0.77736002827076 * g + 0.08535981854956 * b) (by positivity)
  have n2 := near s2 (c := 0.02796570007202 * r + 0.14784523135458 * g + 0.90895832236388 * b) (by positivity)
  rw [← ex] at n0
  rw [← ey] at n1
  rw [← ez] at n2
  clear ex ey ez s0 s1 s2
  generalize x = x at *
  generalize y = y at *
  generalize z = z at *
  rw [abs_le] at n0 n1 n2
  obtain ⟨n00, n01⟩ := n0
  obtain ⟨n10, n11⟩ := n1
  obtain ⟨n20, n21⟩ := n2
  norm_num at n00 n01 n10 n11 n20 n21 ⊢
  refine ⟨?_, ?_, ?_⟩ <;> rw [abs_le] <;> constructor <;> linarith

end Mcu.Lemmas
