import Verif.Lemmas.F64Newton

/-! The rounds of the exact search in IEEE-754 binary64. -/

namespace Mcu.Lemmas

open Mcu.Ieee Props Props.Binary64 MathUtils ColorUtils HctSolver Real

variable {L : Libm}

local notation "𝔻" => F64 L

/-- Two lightnesses of one ray as a round of the search from the ratio that leads exactly from one to the other. -/
theorem round_ray {R : Ray} {a a' F : ℝ} (hok : R.Ok) (ha : 0 < a) (ha' : 0 < a') (hd : 0 < R.den (log a)) (hd' : 0 < R.den (log a'))
    (hn : NearGamut (R.Ar (log a)) (R.Ag (log a)) (R.Ab (log a))) (hn' : NearGamut (R.Ar (log a')) (R.Ag (log a')) (R.Ab (log a')))
    (p1 : R.P (log a) ≤ 40) (p2 : R.P (log a') ≤ 40) (l0 : 0 < R.lum wR wG wB (log a)) (l0' : 0 < R.lum wR wG wB (log a'))
    (hF : 0 < F) (e : a' = a * ((1 + 1 / F) / 2)) :
    Round F (F * (R.lum wR wG wB (log a') / R.lum wR wG wB (log a))) := by
  refine ⟨hF, by positivity, exp ((log a' - log a) / 2), exp_pos _, ?_, ?_, ?_⟩
  · rw [← exp_nat_mul]
    rw [show ((2 : ℕ) : ℝ) * ((log a' - log a) / 2) = log a' - log a by push_cast; ring, exp_sub, exp_log ha, exp_log ha', e]
    field_simp
  · intro h3
    have hle : a' ≤ a := by
      rw [e]
      have : 1 / F ≤ 1 := by rw [div_le_one hF]; exact h3
      nlinarith
    obtain ⟨g1, g2⟩ := Ray.growth hok weights (log_le_log ha' hle) hd' hd hn' hn p1
    have key (z : ℝ) : exp (z * (log a - log a')) * exp (z * (log a' - log a)) = 1 := by
      rw [← exp_add, ← exp_zero]; congr 1; ring
    constructor
    · refine mul_le_mul_of_nonneg_left ?_ hF.le
      rw [le_div_iff₀ l0, ← exp_nat_mul, mul_comm]
      rw [show ((5 : ℕ) : ℝ) * ((log a' - log a) / 2) = 5 / 2 * (log a' - log a) by push_cast; ring]
      have := mul_le_mul_of_nonneg_right g2 (exp_pos (5 / 2 * (log a' - log a))).le
      rwa [mul_assoc _ (exp _) (exp _), key, mul_one] at this
    · refine mul_le_mul_of_nonneg_left ?_ hF.le
      rw [div_le_iff₀ l0, ← exp_nat_mul, mul_comm]
      rw [show ((3 : ℕ) : ℝ) * ((log a' - log a) / 2) = 3 / 2 * (log a' - log a) by push_cast; ring]
      have := mul_le_mul_of_nonneg_right g1 (exp_pos (3 / 2 * (log a' - log a))).le
      rwa [mul_assoc _ (exp _) (exp _), key, mul_one] at this
  · intro h3
    have hle : a ≤ a' := by
      rw [e]
      have : 1 ≤ 1 / F := by rw [le_div_iff₀ hF]; linarith
      nlinarith
    obtain ⟨g1, g2⟩ := Ray.growth hok weights (log_le_log ha hle) hd hd' hn hn' p2
    constructor
    · refine mul_le_mul_of_nonneg_left ?_ hF.le
      rw [le_div_iff₀ l0, ← exp_nat_mul, mul_comm]
      rw [show ((3 : ℕ) : ℝ) * ((log a' - log a) / 2) = 3 / 2 * (log a' - log a) by push_cast; ring]
      exact g1
    · refine mul_le_mul_of_nonneg_left ?_ hF.le
      rw [div_le_iff₀ l0, ← exp_nat_mul, mul_comm]
      rw [show ((5 : ℕ) : ℝ) * ((log a' - log a) / 2) = 5 / 2 * (log a' - log a) by push_cast; ring]
      exact g2

/-- The ratio that leads exactly from one lightness to the next. -/
theorem exact_ratio {a a' F : ℝ} (ha : 0 < a) (hF : 0 < F) (hF9 : F ≤ 9) (h : |a' - a * ((1 + 1 / F) / 2)| ≤ 1 / 10 ^ 13 * a) :
    ∃ F', 0 < F' ∧ a' = a * ((1 + 1 / F') / 2) ∧ |F' - F| ≤ 1 / 10 ^ 5 * F := by
  set G := 2 * (a' / a) - 1 with hG
  have e : G = 1 / F + 2 * ((a' - a * ((1 + 1 / F) / 2)) / a) := by rw [hG]; field_simp; ring
  have hx : |(a' - a * ((1 + 1 / F) / 2)) / a| ≤ 1 / 10 ^ 13 := by
    rw [abs_div, abs_of_pos ha, div_le_iff₀ ha]; exact h
  generalize (a' - a * ((1 + 1 / F) / 2)) / a = x at *
  rw [abs_le] at hx
  have hf : 1 / 9 ≤ 1 / F := one_div_le_one_div_of_le hF hF9
  have G1 : 1 / 10 < G := by rw [e]; norm_num at *; linarith
  have G0 : 0 < G := by linarith
  refine ⟨1 / G, by positivity, ?_, ?_⟩
  · rw [one_div_one_div, hG]; field_simp; ring
  · have t : 1 / G - F = -(2 * x) / G * F := by
      have : F * G = 1 + 2 * x * F := by rw [e]; field_simp
      field_simp
      linarith
    rw [t, abs_mul, abs_of_pos hF]
    refine mul_le_mul_of_nonneg_right ?_ hF.le
    rw [abs_div, abs_of_pos G0, div_le_iff₀ G0, abs_le]
    norm_num at *; constructor <;> linarith

/-- One round as computed. -/
theorem search_round64 (hL : L.PowOk) (hE : L.ExpOk) {hr C j j' : 𝔻} (h : Setting hr C) {a f a' f' y : ℝ} (hv : Visit hr C j a f) (hv' : Visit hr C j' a' f')
    (h0 : 0.002 ≤ a) (h1 : a ≤ 148.4) (h0' : 0.002 ≤ a') (h1' : a' ≤ 148.4) (y0 : 0 < y) (hf9 : f / y ≤ 9)
    (hn : |a' - a * ((1 + 1 / (f / y)) / 2)| ≤ 1 / 10 ^ 13 * a) :
    ∃ F F', Round F F' ∧ |F - f / y| ≤ 1 / 10 ^ 5 * (f / y) ∧ |f' / y - F'| ≤ 1 / 10 ^ 4 * F' := by
  have ha : 0 < a := by norm_num at h0; linarith
  have ha' : 0 < a' := by norm_num at h0'; linarith
  have hf := div_pos hv.pos y0
  obtain ⟨F, F0, e, hF⟩ := exact_ratio ha hf hf9 hn
  have c := hv.close
  have c' := hv'.close
  have fp := hv.pos
  have fp' := hv'.pos
  have P2 := (P_range hL hE h h0 h1).2
  have P2' := (P_range hL hE h h0' h1').2
  have l0 : 0 < (ray64 hr C).lum wR wG wB (log a) := by
    rw [abs_le] at c; norm_num at *; linarith
  have l0' : 0 < (ray64 hr C).lum wR wG wB (log a') := by
    rw [abs_le] at c'; norm_num at *; linarith
  refine ⟨F, _, round_ray (h.ok hL hE) ha ha' hv.den hv'.den hv.near hv'.near P2 P2' l0 l0' F0 e, hF, ?_⟩
  generalize (ray64 hr C).lum wR wG wB (log a) = l at *
  generalize (ray64 hr C).lum wR wG wB (log a') = l' at *
  rw [abs_le] at c c' hF
  -- `f' / y` between multiples of `F * (l' / l)`
  have lf : l / y ≤ 1.00002 * (f / y) := by
    rw [← mul_div_assoc, div_le_div_iff_of_pos_right y0]; norm_num at *; linarith
  have lf' : 0.99998 * (f / y) ≤ l / y := by
    rw [← mul_div_assoc, div_le_div_iff_of_pos_right y0]; norm_num at *; linarith
  have g1 : F ≤ 1.00004 * (l / y) := by norm_num at *; linarith
  have g2 : 0.99996 * (l / y) ≤ F := by norm_num at *; linarith
  have r0 : 0 < l' / l := div_pos l0' l0
  have k1 := mul_le_mul_of_nonneg_right g1 r0.le
  have k2 := mul_le_mul_of_nonneg_right g2 r0.le
  have e2 : l / y * (l' / l) = l' / y := by field_simp
  rw [mul_assoc, e2] at k1 k2
  have m1 : f' / y ≤ 1.00002 * (l' / y) := by
    rw [← mul_div_assoc, div_le_div_iff_of_pos_right y0]; norm_num at *; linarith
  have m2 : 0.99998 * (l' / y) ≤ f' / y := by
    rw [← mul_div_assoc, div_le_div_iff_of_pos_right y0]; norm_num at *; linarith
  have q0 : 0 < l' / y := div_pos l0' y0
  generalize F * (l' / l) = X at *
  generalize l' / y = Y at *
  generalize f' / y = Z at *
  rw [abs_le]
  norm_num at *; constructor <;> linarith

/-- Interval arithmetic for one computed round. -/
theorem interval64 {F F' G G' a b a' b' : ℝ} (h : Round F F') (hF : |F - G| ≤ 1 / 10 ^ 5 * G) (hG' : |G' - F'| ≤ 1 / 10 ^ 4 * F') (G0 : 0 < G)
    (ha : a ≤ G) (hb : G ≤ b) (ha0 : 0.5 ≤ a) (ha1 : a ≤ 1)
    (h1 : (1.00001 * b + 1) * (3 * (1.00001 * b) + 1) ≤ 8 * (1.00001 * b) * b')
    (h2 : (0.99999 * a + 1) ^ 2 * (3 * (0.99999 * a) + 1) ≤ 16 * (0.99999 * a) ^ 2 * b')
    (h3 : a' * (3 * (0.99999 * a) + 1) ≤ (0.99999 * a + 1) ^ 2) (h4 : ∀ F, 1 ≤ F → F ≤ 1.00001 * b → a' * (2 * F * (3 * F + 1)) ≤ (F + 1) ^ 3) (a0' : 0 ≤ a') :
    0.9999 * a' ≤ G' ∧ G' ≤ 1.0001 * b' := by
  rw [abs_le] at hF hG'
  obtain ⟨x, y⟩ := h.interval (a := 0.99999 * a) (b := 1.00001 * b) (a' := a') (b' := b') (by norm_num at *; linarith) (by norm_num at *; linarith) (by norm_num at *; linarith)
    (by norm_num at *; linarith) h1 h2 h3 h4
  norm_num at *; constructor <;> linarith

/-- The next round: its lightness, its colour and its ratio. -/
theorem step64 (hL : L.PowOk) (hT : L.PowTail) (hE : L.ExpOk) {hr C j Y : 𝔻} (h : Setting hr C) {a f y lo hi m : ℝ} (hv : Visit hr C j a f)
    (iy : Is Y y) (y0 : 1.1e-5 ≤ y) (y1 : y ≤ 100) (h0 : 0.004 ≤ a) (h1 : a * m ≤ 148.4) (m1 : 1 ≤ m) (hlo : lo ≤ f / y) (hhi : f / y ≤ hi) (lo0 : 0.6 ≤ lo) (hi1 : hi ≤ 8)
    (hm : 1 + 1 / lo + 1 / 10 ^ 9 ≤ 2 * m) (hm' : m ≤ 2)
    (hp : Passed (linrgbOfJ hr C (j - (fnjOf (linrgbOfJ hr C j) - Y) * j / (2.0 * fnjOf (linrgbOfJ hr C j))))) :
    ∃ a' f', Visit hr C (j - (fnjOf (linrgbOfJ hr C j) - Y) * j / (2.0 * fnjOf (linrgbOfJ hr C j))) a' f' ∧ 0.55 * a ≤ a' ∧ a' ≤ m * a ∧
      ∃ F F', Round F F' ∧ |F - f / y| ≤ 1 / 10 ^ 5 * (f / y) ∧ |f' / y - F'| ≤ 1 / 10 ^ 4 * F' := by
  have yp : 0 < y := by norm_num at y0; linarith
  have ap : 0 < a := by norm_num at h0; linarith
  have ham : a ≤ a * m := by nlinarith
  have h1' : a ≤ 148.4 := ham.trans h1
  have lp : 0 < lo := by norm_num at lo0; linarith
  have fp := div_pos hv.pos yp
  have fl : 0.6 * y ≤ f := by
    have := lo0.trans hlo
    rwa [le_div_iff₀ yp] at this
  have fh : f ≤ 8 * y := by
    have := hhi.trans hi1
    rwa [div_le_iff₀ yp] at this
  obtain ⟨a', ia', ea'⟩ := next64 hv.lightness hv.lum iy (by norm_num at *; linarith) (by norm_num at *; linarith) (by norm_num at *; linarith)
    (by norm_num at *; linarith) yp (by norm_num at *; linarith)
  have ea := abs_le.1 ea'
  have q1 : 1 / (f / y) ≤ 1 / lo := one_div_le_one_div_of_le lp hlo
  have q2 : 1 / 8 ≤ 1 / (f / y) := one_div_le_one_div_of_le fp (hhi.trans hi1)
  have k1 : a * ((1 + 1 / (f / y)) / 2) ≤ a * (m - 1 / 10 ^ 10) := mul_le_mul_of_nonneg_left (by norm_num at *; linarith) ap.le
  have k2 : a * 0.5625 ≤ a * ((1 + 1 / (f / y)) / 2) := mul_le_mul_of_nonneg_left (by norm_num at *; linarith) ap.le
  have r1 : 0.55 * a ≤ a' := by
    generalize a * ((1 + 1 / (f / y)) / 2) = z at *
    norm_num at *; linarith
  have r2 : a' ≤ m * a := by
    generalize a * ((1 + 1 / (f / y)) / 2) = z at *
    rw [mul_sub] at k1
    norm_num at *; linarith
  have h0' : 0.002 ≤ a' := by norm_num at *; linarith
  have hb' : a' ≤ 148.4 := by linarith
  have fin := forward64 hL hT hE h hv (by norm_num at *; linarith) h1' ia' h0' hb' (by norm_num at *; linarith) (by nlinarith)
  obtain ⟨f', hv'⟩ := visit64 hL hT hE h ia' h0' hb' hp fin
  exact ⟨a', f', hv', r1, r2, search_round64 hL hE h hv hv' (by norm_num at *; linarith) h1' h0' hb' yp (by linarith) ea'⟩

theorem low_945 (F : ℝ) (hF : 1 ≤ F) : 0.945 * (2 * F * (3 * F + 1)) ≤ (F + 1) ^ 3 := by
  norm_num
  nlinarith [mul_nonneg (by linarith : (0:ℝ) ≤ F) (sq_nonneg (F - 1.5)), sq_nonneg (F - 1.5)]

theorem low_93 (F : ℝ) (hF : 1 ≤ F) : 0.93 * (2 * F * (3 * F + 1)) ≤ (F + 1) ^ 3 := by
  have := low_945 F hF
  have : 0 < 2 * F * (3 * F + 1) := by positivity
  norm_num at *; linarith

/-- The relation of the computed ratios of two rounds. -/
def Round64 (g g' : ℝ) : Prop := 0 < g ∧ ∃ F F', Round F F' ∧ |F - g| ≤ 1 / 10 ^ 5 * g ∧ |g' - F'| ≤ 1 / 10 ^ 4 * F'

theorem Round64.interval {g g' a b a' b' : ℝ} (h : Round64 g g') (ha : a ≤ g) (hb : g ≤ b) (ha0 : 0.5 ≤ a) (ha1 : a ≤ 1)
    (h1 : (1.00001 * b + 1) * (3 * (1.00001 * b) + 1) ≤ 8 * (1.00001 * b) * b')
    (h2 : (0.99999 * a + 1) ^ 2 * (3 * (0.99999 * a) + 1) ≤ 16 * (0.99999 * a) ^ 2 * b')
    (h3 : a' * (3 * (0.99999 * a) + 1) ≤ (0.99999 * a + 1) ^ 2) (h4 : ∀ F, 1 ≤ F → F ≤ 1.00001 * b → a' * (2 * F * (3 * F + 1)) ≤ (F + 1) ^ 3) (a0' : 0 ≤ a') :
    0.9999 * a' ≤ g' ∧ g' ≤ 1.0001 * b' := by
  obtain ⟨g0, F, F', r, x, z⟩ := h
  exact interval64 r x z g0 ha hb ha0 ha1 h1 h2 h3 h4 a0'

/-- Four computed rounds from a good start. -/
theorem four_rounds64 {g0 g1 g2 g3 g4 : ℝ} (r0 : Round64 g0 g1) (r1 : Round64 g1 g2) (r2 : Round64 g2 g3) (r3 : Round64 g3 g4)
    (h : 0.6949 ≤ g0) (h' : g0 ≤ 2.581) : 0.9888 ≤ g4 ∧ g4 ≤ 1.0112 := by
  obtain ⟨w1, w1'⟩ := r0.interval (a' := 0.93) (b' := 1.53) h h' (by norm_num) (by norm_num) (by norm_num) (by norm_num) (by norm_num) (fun F hF _ => low_93 F hF) (by norm_num)
  obtain ⟨w2, w2'⟩ := r1.interval (a' := 0.945) (b' := 1.156) w1 w1' (by norm_num) (by norm_num) (by norm_num) (by norm_num) (by norm_num) (fun F hF _ => low_945 F hF) (by norm_num)
  obtain ⟨w3, w3'⟩ := r2.interval (a' := 0.9695) (b' := 1.042) w2 w2' (by norm_num) (by norm_num) (by norm_num) (by norm_num) (by norm_num) (fun F hF hF' => by
        norm_num at hF' ⊢
        nlinarith [mul_nonneg (sub_nonneg.2 hF) (sub_nonneg.2 hF'), mul_nonneg (mul_nonneg (sub_nonneg.2 hF) (sub_nonneg.2 hF')) (sub_nonneg.2 hF)]) (by norm_num)
  obtain ⟨w4, w4'⟩ := r3.interval (a' := 0.989) (b' := 1.011) w3 w3' (by norm_num) (by norm_num) (by norm_num) (by norm_num) (by norm_num) (fun F hF hF' => by
        norm_num at hF' ⊢
        nlinarith [mul_nonneg (sub_nonneg.2 hF) (sub_nonneg.2 hF'), mul_nonneg (mul_nonneg (sub_nonneg.2 hF) (sub_nonneg.2 hF')) (sub_nonneg.2 hF)]) (by norm_num)
  norm_num at w4 w4' ⊢
  constructor <;> linarith

theorem stage64 (hL : L.PowOk) (hT : L.PowTail) (hE : L.ExpOk) {hr C Y : 𝔻} (h : Setting hr C) {k : ℕ} {a f y lo hi m A B a' b' : ℝ} (hv : Visit hr C (lightness hr C Y k) a f)
    (iy : Is Y y) (y0 : 1.1e-5 ≤ y) (y1 : y ≤ 100) (hA : A ≤ a) (A0 : 0.004 ≤ A) (hB : a ≤ B) (h1 : B * m ≤ 148.4) (m1 : 1 ≤ m) (hlo : lo ≤ f / y) (hhi : f / y ≤ hi) (lo0 : 0.6 ≤ lo) (hi1 : hi ≤ 8)
    (hm : 1 + 1 / lo + 1 / 10 ^ 9 ≤ 2 * m) (hm' : m ≤ 2) (lo1 : lo ≤ 1)
    (n1 : (1.00001 * hi + 1) * (3 * (1.00001 * hi) + 1) ≤ 8 * (1.00001 * hi) * b')
    (n2 : (0.99999 * lo + 1) ^ 2 * (3 * (0.99999 * lo) + 1) ≤ 16 * (0.99999 * lo) ^ 2 * b')
    (n3 : a' * (3 * (0.99999 * lo) + 1) ≤ (0.99999 * lo + 1) ^ 2) (n4 : ∀ F, 1 ≤ F → F ≤ 1.00001 * hi → a' * (2 * F * (3 * F + 1)) ≤ (F + 1) ^ 3) (a0' : 0 ≤ a')
    (hp : Passed (candidate hr C Y (k + 1))) :
    ∃ a1 f1, Visit hr C (lightness hr C Y (k + 1)) a1 f1 ∧ 0.55 * A ≤ a1 ∧ a1 ≤ B * m ∧ Round64 (f / y) (f1 / y) ∧ 0.9999 * a' ≤ f1 / y ∧ f1 / y ≤ 1.0001 * b' := by
  have yp : 0 < y := by norm_num at y0; linarith
  have hBm : a * m ≤ B * m := mul_le_mul_of_nonneg_right hB (by linarith)
  obtain ⟨a1, f1, v1, A1, B1, R⟩ := step64 (m := m) hL hT hE h hv iy y0 y1 (A0.trans hA) (hBm.trans h1) m1 hlo hhi lo0 hi1 hm hm' hp
  have r : Round64 (f / y) (f1 / y) := ⟨div_pos hv.pos yp, R⟩
  refine ⟨a1, f1, v1, (mul_le_mul_of_nonneg_left hA (by norm_num)).trans A1, B1.trans (by linarith), r, ?_⟩
  exact r.interval hlo hhi (by norm_num at lo0 ⊢; linarith) lo1 n1 n2 n3 n4 a0'

theorem lightness0 {hr C Y : 𝔻} {y : ℝ} (iy : Is Y y) (y0 : 1.1e-5 ≤ y) (y1 : y ≤ 100) :
    ∃ a, Is (lightness hr C Y 0) a ∧ |a - sqrt y * 11| ≤ 1 / 10 ^ 9 * (sqrt y * 11) ∧ 0.036 ≤ a ∧ a ≤ 110.001 := by
  have yp : 0 < y := by norm_num at y0; linarith
  have hu : 0 < sqrt y := sqrt_pos.2 yp
  have hu10 : sqrt y ≤ 10 := by rw [sqrt_le_left (by norm_num)]; norm_num; exact y1
  have h33 : (0.0033 : ℝ) ≤ sqrt y := le_sqrt_of_sq_le (by norm_num at y0 ⊢; linarith)
  have i11 : Is (11.0 : 𝔻) 11 := by simpa using lit (L := L) 110 1 true 11 (by norm_num) (by norm_num)
  have e1 := rnd_any (sqrt y)
  rw [abs_of_pos hu] at e1
  have j1 := iy.sqrt yp.le (rnd_huge (by rw [abs_of_pos hu]; exact hu10.trans (by norm_num)))
  generalize rnd (sqrt y) = d at *
  generalize sqrt y = u at *
  rw [abs_le] at e1
  have d0 : 0 < d := by norm_num at *; linarith
  have e2 := rnd_any (d * 11)
  rw [abs_of_pos (show 0 < d * 11 by linarith)] at e2
  refine ⟨_, j1.mul i11 (rnd_huge (by rw [abs_of_pos (by linarith)]; norm_num at *; linarith)), ?_⟩
  generalize rnd (d * 11) = g at *
  rw [abs_le] at *
  norm_num at *; refine ⟨⟨?_, ?_⟩, ?_, ?_⟩ <;> linarith

theorem visit0 (hL : L.PowOk) (hT : L.PowTail) (hE : L.ExpOk) {hr C Y : 𝔻} (h : Setting hr C) {y : ℝ} (iy : Is Y y) (y0 : 1.1e-5 ≤ y) (y1 : y ≤ 100)
    (p0 : Passed (candidate hr C Y 0)) (p1 : Passed (candidate hr C Y 1)) :
    ∃ a f, Visit hr C (lightness hr C Y 0) a f ∧ 0.036 ≤ a ∧ a ≤ 110.001 ∧ 0.6949 ≤ f / y ∧ f / y ≤ 7.461 ∧ (1 / 2 ≤ y → f / y ≤ 2.581) := by
  have yp : 0 < y := by norm_num at y0; linarith
  obtain ⟨a0, ia0, ea0, l0, u0⟩ := lightness0 (hr := hr) (C := C) iy y0 y1
  have fin0 : Dbl.Fin (fnjOf (candidate hr C Y 0) : 𝔻) := by
    by_contra hf
    have e : lightness hr C Y 1 = nanD L := next_nan hf
    unfold candidate at p1
    rw [e] at p1
    exact nan_not_passed hL hT (setting_ne h) p1
  obtain ⟨f0, v0⟩ := visit64 hL hT hE h ia0 (by norm_num at *; linarith) (by norm_num at *; linarith) p0 fin0
  obtain ⟨s1, s2, s3⟩ := start_ray (h.ok hL hE) (wRatio_bounds hL hE) y0 y1 ea0 (ray64_P hr C (by norm_num at *; linarith)) v0.near v0.blue
  have c0 := v0.close
  refine ⟨a0, f0, v0, l0, u0, ?_⟩
  clear v0 ea0 ia0
  generalize (ray64 hr C).lum wR wG wB (log a0) = l at *
  rw [abs_le] at c0
  rw [le_div_iff₀ yp, div_le_iff₀ yp, div_le_iff₀ yp]
  refine ⟨by norm_num at *; linarith, by norm_num at *; linarith, fun hy => ?_⟩
  have := s2 hy
  norm_num at *; linarith

/-- After four rounds the computed luminance is close to the requested one. -/
theorem newton64 (hL : L.PowOk) (hT : L.PowTail) (hE : L.ExpOk) {hr C Y : 𝔻} (h : Setting hr C) {y : ℝ} (iy : Is Y y) (y0 : 1.1e-5 ≤ y) (y1 : y ≤ 100)
    (hp : ∀ m, m ≤ 4 → Passed (candidate hr C Y m)) :
    (∀ i, Dbl.Fin ((candidate hr C Y 4).get i)) ∧ ∃ f, Is (fnjOf (candidate hr C Y 4)) f ∧ 0.9448 * y ≤ f ∧ f ≤ 1.0672 * y ∧
      (1 / 2 ≤ y → 0.9888 * y ≤ f ∧ f ≤ 1.0112 * y) := by
  have yp : 0 < y := by norm_num at y0; linarith
  obtain ⟨a0, f0, v0, l0, u0, r0, r0', r0''⟩ := visit0 hL hT hE h iy y0 y1 (hp 0 (by norm_num)) (hp 1 (by norm_num))
  obtain ⟨a1, f1, v1, l1, u1, R0, r1, r1'⟩ := stage64 (m := 1.22) (a' := 0.93) (b' := 3.33) hL hT hE h v0 iy y0 y1 l0 (by norm_num) u0 (by norm_num) (by norm_num) r0 r0' (by norm_num) (by norm_num)
    (by norm_num) (by norm_num) (by norm_num) (by norm_num) (by norm_num) (by norm_num) (fun F hF _ => low_93 F hF) (by norm_num) (hp 1 (by norm_num))
  obtain ⟨a2, f2, v2, l2, u2, R1, r2, r2'⟩ := stage64 (m := 1.038) (a' := 0.945) (b' := 1.788) hL hT hE h v1 iy y0 y1 l1 (by norm_num) u1 (by norm_num) (by norm_num) r1 r1' (by norm_num) (by norm_num)
    (by norm_num) (by norm_num) (by norm_num) (by norm_num) (by norm_num) (by norm_num) (fun F hF _ => low_945 F hF) (by norm_num) (hp 2 (by norm_num))
  obtain ⟨a3, f3, v3, l3, u3, R2, r3, r3'⟩ := stage64 (m := 1.03) (a' := 0.945) (b' := 1.2425) hL hT hE h v2 iy y0 y1 l2 (by norm_num) u2 (by norm_num) (by norm_num) r2 r2' (by norm_num) (by norm_num)
    (by norm_num) (by norm_num) (by norm_num) (by norm_num) (by norm_num) (by norm_num) (fun F hF _ => low_945 F hF) (by norm_num) (hp 3 (by norm_num))
  obtain ⟨a4, f4, v4, l4, u4, R3, r4, r4'⟩ := stage64 (m := 1.03) (a' := 0.945) (b' := 1.067) hL hT hE h v3 iy y0 y1 l3 (by norm_num) u3 (by norm_num) (by norm_num) r3 r3' (by norm_num) (by norm_num)
    (by norm_num) (by norm_num) (by norm_num) (by norm_num) (by norm_num) (by norm_num) (fun F hF _ => low_945 F hF) (by norm_num) (hp 4 (by norm_num))
  rw [le_div_iff₀ yp] at r4
  rw [div_le_iff₀ yp] at r4'
  refine ⟨v4.coords, f4, v4.lum, ?_, ?_, fun hy => ?_⟩
  · norm_num at r4 ⊢; linarith
  · norm_num at r4' ⊢; linarith
  · have := four_rounds64 R0 R1 R2 R3 r0 (r0'' hy)
    rwa [le_div_iff₀ yp, div_le_iff₀ yp] at this

end Mcu.Lemmas
