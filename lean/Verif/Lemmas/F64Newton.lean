import Verif.Lemmas.F64Forward
import Verif.Lemmas.Newton

/-! The exact search converges in IEEE-754 binary64 too. -/

namespace Mcu.Lemmas

open Mcu.Ieee Props Props.Binary64 MathUtils ColorUtils HctSolver Real

variable {L : Libm}

local notation "𝔻" => F64 L

/-- The luminance of the first colour compared with the requested one. -/
theorem start_ray {R : Ray} {W y a : ℝ} (hok : R.Ok) (hW : 29.4 ≤ W ∧ W ≤ 29.6) (hy : 1.1e-5 ≤ y) (hy1 : y ≤ 100)
    (ha : |a - sqrt y * 11| ≤ 1 / 10 ^ 9 * (sqrt y * 11)) (hP : R.P (log a) = W * (a / 100) ^ R.q)
    (hn : NearGamut (R.Ar (log a)) (R.Ag (log a)) (R.Ab (log a)))
    (hb : unadapt (R.Ab (log a)) ≤ 10.09 * unadapt (R.Ag (log a))) :
    0.695 * y ≤ R.lum wR wG wB (log a) ∧ (1 / 2 ≤ y → R.lum wR wG wB (log a) ≤ 2.58 * y) ∧ R.lum wR wG wB (log a) ≤ 7.46 * y := by
  have y0 : 0 < y := by norm_num at hy; linarith
  have hu : 0 < sqrt y := sqrt_pos.2 y0
  have hu10 : sqrt y ≤ 10 := by rw [sqrt_le_left (by norm_num)]; norm_num; exact hy1
  have sq : sqrt y ^ 2 = y := sq_sqrt y0.le
  have h33 : (0.0033 : ℝ) ≤ sqrt y := le_sqrt_of_sq_le (by norm_num at hy ⊢; linarith)
  have h7 : 1 / 2 ≤ y → (0.7 : ℝ) ≤ sqrt y := fun h => le_sqrt_of_sq_le (by norm_num at h ⊢; linarith)
  rw [abs_le] at ha
  generalize sqrt y = u at *
  have a0 : 0 < a := by norm_num at *; linarith
  set s := a / 100 with hs'
  have hs : 0 < s := by positivity
  have hs11 : s ≤ 1.1001 := by rw [hs']; norm_num at *; linarith
  have s1 : 0.11 * (1 - 1 / 10 ^ 9) * u ≤ s := by rw [hs']; norm_num at *; linarith
  have s2 : s ≤ 0.11 * (1 + 1 / 10 ^ 9) * u := by rw [hs']; norm_num at *; linarith
  have ss1 : 0.01209 * y ≤ s ^ 2 := by
    have := pow_le_pow_left₀ (by norm_num; linarith) s1 2
    rw [mul_pow, sq] at this
    norm_num at *; linarith
  have ss2 : s ^ 2 ≤ 0.01211 * y := by
    have := pow_le_pow_left₀ hs.le s2 2
    rw [mul_pow, sq] at this
    norm_num at *; linarith
  obtain ⟨x1, x2⟩ := excess hok.q
  have hp32 : R.P (log a) ≤ 32 := by
    rw [hP]
    have h1 : s ^ R.q ≤ 1.1001 ^ R.q := rpow_le_rpow hs.le hs11 (by have := hok.q.1; norm_num at this ⊢; linarith)
    have h2 : (1.1001 : ℝ) ^ R.q ≤ 1.08 := by
      refine rpow_upper (a := 19) (b := 25) (by norm_num) (by norm_num) (by norm_num) ?_ (by norm_num)
      have := hok.q.2; norm_num at this ⊢; linarith
    calc _ ≤ 29.6 * (1.08 : ℝ) := mul_le_mul hW.2 (h1.trans h2) (by positivity) (by norm_num)
      _ ≤ _ := by norm_num
  have up := lum_upper hW hn hs hP hp32
  have lo := lum_lower hW hn hs hP hp32 hb
  set δ := 2 - R.q / 0.42 with hδ
  rw [power_split hs, ← hδ] at up lo
  have hinv : 0 < s⁻¹ := by positivity
  have eL : 0.9815 ≤ (s⁻¹) ^ δ := by
    have h1 : (1.1001 : ℝ)⁻¹ ≤ s⁻¹ := inv_anti₀ hs hs11
    have h2 : (1.1001 : ℝ)⁻¹ ^ δ ≤ (s⁻¹) ^ δ := rpow_le_rpow (by norm_num) h1 (by norm_num at x1 ⊢; linarith)
    refine le_trans ?_ h2
    refine rpow_lower' (a := 6) (b := 31) (by norm_num) (by norm_num) (by norm_num) (by norm_num) ?_ ?_
    · norm_num at x2 ⊢; linarith
    · norm_num
  refine ⟨?_, ?_, ?_⟩
  · have : 0.01209 * y * 0.9815 ≤ s ^ 2 * (s⁻¹) ^ δ := mul_le_mul ss1 eL (by norm_num) (by positivity)
    norm_num at *; linarith
  · intro hy2
    have h1 : s⁻¹ ≤ 13 := by
      rw [inv_le_comm₀ hs (by norm_num)]
      have := h7 hy2
      norm_num at *; linarith
    have h2 : (s⁻¹) ^ δ ≤ 13 ^ δ := rpow_le_rpow hinv.le h1 (by norm_num at x1 ⊢; linarith)
    have h3 : (13 : ℝ) ^ δ ≤ 1.645 := by
      refine rpow_upper (a := 6) (b := 31) (by norm_num) (by norm_num) (by norm_num) ?_ ?_
      · norm_num at x2 ⊢; linarith
      · norm_num
    have : s ^ 2 * (s⁻¹) ^ δ ≤ 0.01211 * y * 1.645 := mul_le_mul ss2 (h2.trans h3) (by positivity) (by positivity)
    norm_num at *; linarith
  · have h1 : s⁻¹ ≤ 2800 := by
      rw [inv_le_comm₀ hs (by norm_num)]
      norm_num at *; linarith
    have h2 : (s⁻¹) ^ δ ≤ 2800 ^ δ := rpow_le_rpow hinv.le h1 (by norm_num at x1 ⊢; linarith)
    have h3 : (2800 : ℝ) ^ δ ≤ 4.8 := by
      refine rpow_upper (a := 6) (b := 31) (by norm_num) (by norm_num) (by norm_num) ?_ ?_
      · norm_num at x2 ⊢; linarith
      · norm_num
    have : s ^ 2 * (s⁻¹) ^ δ ≤ 0.01211 * y * 4.8 := mul_le_mul ss2 (h2.trans h3) (by positivity) (by positivity)
    norm_num at *; linarith

/-- The next lightness as computed. -/
theorem next64 {j F Y : 𝔻} {a f y : ℝ} (hj : Is j a) (hF : Is F f) (hY : Is Y y) (a0 : 0.002 ≤ a) (a1 : a ≤ 150) (f0 : 1 / 10 ^ 6 ≤ f) (f1 : f ≤ 1000)
    (y0 : 0 < y) (hy : y ≤ 2 * f) : ∃ a', Is (j - (F - Y) * j / (2.0 * F)) a' ∧ |a' - a * ((1 + 1 / (f / y)) / 2)| ≤ 1 / 10 ^ 13 * a := by
  have i2 : Is (2.0 : 𝔻) 2 := by simpa using lit (L := L) 20 1 true 2 (by norm_num) (by norm_num)
  have fp : 0 < f := lt_of_lt_of_le (by norm_num) f0
  have ap : 0 < a := by norm_num at a0; linarith
  have fa : 0 < f * a := mul_pos fp ap
  have fa0 : 1 / 10 ^ 9 ≤ f * a := by
    have : 1 / 10 ^ 6 * 0.002 ≤ f * a := mul_le_mul f0 a0 (by norm_num) fp.le
    norm_num at *; linarith
  have fa1 : f * a ≤ 150000 := by
    have : f * a ≤ 1000 * 150 := mul_le_mul f1 a1 ap.le (by norm_num)
    linarith
  have b1 : |f - y| ≤ f := by rw [abs_le]; constructor <;> linarith
  have e1 := rnd_any (f - y)
  have j1 := hF.sub hY (rnd_huge (b1.trans (f1.trans (by norm_num))))
  generalize rnd (f - y) = d1 at *
  have e1' : |d1 - (f - y)| ≤ 1 / 10 ^ 15 * f := e1.trans (by norm_num at *; linarith)
  have b2 : |d1| ≤ 1.01 * f := by
    rw [abs_le] at *; norm_num at *; constructor <;> linarith
  have b3 : |d1 * a| ≤ 1.01 * (f * a) := by
    rw [abs_mul, abs_of_pos ap]
    have := mul_le_mul_of_nonneg_right b2 ap.le
    linarith
  have e2 := rnd_any (d1 * a)
  have j2 := j1.mul hj (rnd_huge (b3.trans (by norm_num at *; linarith)))
  generalize rnd (d1 * a) = d2 at *
  have e2' : |d2 - (f - y) * a| ≤ 2 / 10 ^ 15 * (f * a) := by
    have t : |d1 * a - (f - y) * a| ≤ 1 / 10 ^ 15 * (f * a) := by
      rw [← sub_mul, abs_mul, abs_of_pos ap]
      have := mul_le_mul_of_nonneg_right e1' ap.le
      linarith
    generalize |d1 * a| = q at *
    rw [abs_le] at *
    norm_num at *; constructor <;> linarith
  have e3 := rnd_any (2 * f)
  rw [abs_of_pos (show 0 < 2 * f by linarith)] at e3
  have j3 := i2.mul hF (rnd_huge (by rw [abs_of_pos (by linarith)]; norm_num; linarith))
  generalize rnd (2 * f) = d3 at *
  rw [abs_le] at e3
  have d31 : 1.99 * f ≤ d3 := by norm_num at *; linarith
  have d30 : 0 < d3 := by norm_num at *; linarith
  set w := (f - y) * a / (2 * f) with hw
  have hwf : w * (2 * f) = (f - y) * a := by rw [hw]; field_simp
  have bw : |w| ≤ a / 2 := by
    rw [hw, abs_div, abs_mul, abs_of_pos ap, abs_of_pos (by linarith : 0 < 2 * f), div_le_iff₀ (by linarith)]
    have := mul_le_mul_of_nonneg_right b1 ap.le
    linarith
  have e4 : |d2 / d3 - w| ≤ 4 / 10 ^ 15 * a := by
    rw [show d2 / d3 - w = (d2 - w * d3) / d3 by field_simp, abs_div, abs_of_pos d30, div_le_iff₀ d30]
    have t1 : |w * (d3 - 2 * f)| ≤ a / 2 * (1 / 10 ^ 15 * f) := by
      rw [abs_mul]
      exact mul_le_mul bw (by rw [abs_le]; norm_num at *; constructor <;> linarith) (abs_nonneg _) (by positivity)
    have t2 : a * (1.99 * f) ≤ a * d3 := mul_le_mul_of_nonneg_left d31 ap.le
    have t3 : d2 - w * d3 = (d2 - (f - y) * a) - w * (d3 - 2 * f) := by rw [← hwf]; ring
    rw [t3]
    refine (abs_sub _ _).trans ?_
    generalize |w * (d3 - 2 * f)| = q1 at *
    generalize |d2 - (f - y) * a| = q2 at *
    norm_num at *; linarith
  have b4 : |d2 / d3| ≤ a := by
    rw [abs_le] at *; norm_num at *; constructor <;> linarith
  have e5 := rnd_any (d2 / d3)
  have j4 := j2.div j3 d30.ne' (rnd_huge (b4.trans (a1.trans (by norm_num))))
  generalize d2 / d3 = d4 at *
  generalize rnd d4 = d5 at *
  have e5' : |d5 - w| ≤ 5 / 10 ^ 15 * a := by
    generalize |d4| = q at *
    rw [abs_le] at *
    norm_num at *; constructor <;> linarith
  have b5 : |a - d5| ≤ 2 * a := by
    rw [abs_le] at *; norm_num at *; constructor <;> linarith
  have e6 := rnd_any (a - d5)
  have j5 := hj.sub j4 (rnd_huge (b5.trans (by norm_num at *; linarith)))
  refine ⟨_, j5, ?_⟩
  have t : a * ((1 + 1 / (f / y)) / 2) = a - w := by rw [hw]; field_simp; ring
  rw [t]
  generalize rnd (a - d5) = d6 at *
  generalize |a - d5| = q at *
  rw [abs_le] at *
  norm_num at *; constructor <;> linarith

end Mcu.Lemmas

