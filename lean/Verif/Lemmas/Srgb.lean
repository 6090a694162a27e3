import Verif.Model.ColorUtils
import Verif.Lemmas.Real
import Verif.Props.Angles
import Mathlib.Analysis.SpecialFunctions.Pow.NNReal
import Mathlib.Analysis.Convex.SpecificFunctions.Basic
import Mathlib.Analysis.MeanInequalitiesPow

/-! Facts about the sRGB transfer functions and the L* curve over exact arithmetic. -/

namespace Mcu.Lemmas

open Mcu.ColorUtils Mcu.MathUtils Real

/-! ### Comparing rational powers with rationals -/

/-- `a ≤ x ^ (p/q)` from `a ^ q ≤ x ^ p`. -/
theorem le_rpow_of_pow_le {a x : ℝ} {p q : ℕ} (hq : q ≠ 0) (ha : 0 ≤ a) (hx : 0 ≤ x)
    (h : a ^ q ≤ x ^ p) : a ≤ x ^ ((p : ℝ) / q) := by
  have hq' : (q : ℝ) ≠ 0 := by exact_mod_cast hq
  have e : x ^ ((p : ℝ) / q) = (x ^ p) ^ ((q : ℝ)⁻¹) := by
    rw [div_eq_mul_inv, rpow_mul hx, rpow_natCast]
  rw [e]
  calc a = (a ^ q) ^ ((q : ℝ)⁻¹) := (pow_rpow_inv_natCast ha hq).symm
    _ ≤ _ := rpow_le_rpow (by positivity) h (by positivity)

theorem rpow_le_of_le_pow {a x : ℝ} {p q : ℕ} (hq : q ≠ 0) (ha : 0 ≤ a) (hx : 0 ≤ x)
    (h : x ^ p ≤ a ^ q) : x ^ ((p : ℝ) / q) ≤ a := by
  have e : x ^ ((p : ℝ) / q) = (x ^ p) ^ ((q : ℝ)⁻¹) := by
    rw [div_eq_mul_inv, rpow_mul hx, rpow_natCast]
  rw [e]
  calc (x ^ p) ^ ((q : ℝ)⁻¹) ≤ (a ^ q) ^ ((q : ℝ)⁻¹) := rpow_le_rpow (by positivity) h (by positivity)
    _ = a := pow_rpow_inv_natCast ha hq

theorem lt_rpow_of_pow_lt {a x : ℝ} {p q : ℕ} (hq : q ≠ 0) (ha : 0 ≤ a) (hx : 0 ≤ x)
    (h : a ^ q < x ^ p) : a < x ^ ((p : ℝ) / q) := by
  have e : x ^ ((p : ℝ) / q) = (x ^ p) ^ ((q : ℝ)⁻¹) := by
    rw [div_eq_mul_inv, rpow_mul hx, rpow_natCast]
  rw [e]
  calc a = (a ^ q) ^ ((q : ℝ)⁻¹) := (pow_rpow_inv_natCast ha hq).symm
    _ < _ := rpow_lt_rpow (by positivity) h (by positivity)

theorem rpow_lt_of_lt_pow {a x : ℝ} {p q : ℕ} (hq : q ≠ 0) (ha : 0 ≤ a) (hx : 0 ≤ x)
    (h : x ^ p < a ^ q) : x ^ ((p : ℝ) / q) < a := by
  have e : x ^ ((p : ℝ) / q) = (x ^ p) ^ ((q : ℝ)⁻¹) := by
    rw [div_eq_mul_inv, rpow_mul hx, rpow_natCast]
  rw [e]
  calc (x ^ p) ^ ((q : ℝ)⁻¹) < (a ^ q) ^ ((q : ℝ)⁻¹) := rpow_lt_rpow (by positivity) h (by positivity)
    _ = a := pow_rpow_inv_natCast ha hq

/-! ### The two branches of the transfer function -/

/-- Encoded value (0..1) to linear light (0..1), power branch. -/
noncomputable def gpow (v : ℝ) : ℝ := ((v + 0.055) / 1.055) ^ (2.4 : ℝ)

/-- Linear light (0..1) to encoded value (0..1), both branches: the code of `delinearized` before
rounding. -/
noncomputable def encode (y : ℝ) : ℝ :=
  if y ≤ 0.0031308 then y * 12.92 else 1.055 * y ^ (1.0 / 2.4 : ℝ) - 0.055

theorem e24 : (2.4 : ℝ) = ((12 : ℕ) : ℝ) / ((5 : ℕ) : ℝ) := by norm_num
theorem e124 : (1.0 / 2.4 : ℝ) = ((5 : ℕ) : ℝ) / ((12 : ℕ) : ℝ) := by norm_num

theorem gpow_mono {v w : ℝ} (hv : -0.055 ≤ v) (h : v ≤ w) : gpow v ≤ gpow w := by
  unfold gpow
  apply rpow_le_rpow
  · have : 0 ≤ v + 0.055 := by norm_num at hv ⊢; linarith
    positivity
  · gcongr
  · norm_num

theorem gpow_strictMono {v w : ℝ} (hv : -0.055 ≤ v) (h : v < w) : gpow v < gpow w := by
  unfold gpow
  apply rpow_lt_rpow
  · have : 0 ≤ v + 0.055 := by norm_num at hv ⊢; linarith
    positivity
  · gcongr
  · norm_num

theorem gpow_nonneg {v : ℝ} (hv : -0.055 ≤ v) : 0 ≤ gpow v := by
  have : 0 ≤ v + 0.055 := by norm_num at hv ⊢; linarith
  unfold gpow; positivity

/-- The power branch of `encode` inverts `gpow`. -/
theorem encode_pow_gpow {v : ℝ} (hv : -0.055 ≤ v) : 1.055 * (gpow v) ^ (1.0 / 2.4 : ℝ) - 0.055 = v := by
  have h0 : 0 ≤ v + 0.055 := by norm_num at hv ⊢; linarith
  have h1 : 0 ≤ (v + 0.055) / 1.055 := by positivity
  unfold gpow
  rw [← rpow_mul h1, show (2.4 : ℝ) * (1.0 / 2.4) = 1 by norm_num, rpow_one]
  field_simp
  ring

theorem gpow_encode_pow {y : ℝ} (hy : 0 ≤ y) : gpow (1.055 * y ^ (1.0 / 2.4 : ℝ) - 0.055) = y := by
  unfold gpow
  rw [show (1.055 * y ^ (1.0 / 2.4 : ℝ) - 0.055 + 0.055) / 1.055 = y ^ (1.0 / 2.4 : ℝ) by ring,
    ← rpow_mul hy, show (1.0 / 2.4 : ℝ) * 2.4 = 1 by norm_num, rpow_one]

/-- Slope of the power branch from below (Bernoulli). -/
theorem gpow_sub_ge {v h : ℝ} (hv : 10.5 / 255 ≤ v) (hh : 0 ≤ h) : h * 0.078 ≤ gpow (v + h) - gpow v := by
  have hv0 : 0 < v + 0.055 := by norm_num at hv ⊢; linarith
  have hb := one_add_mul_self_le_rpow_one_add (s := h / (v + 0.055)) (p := 2.4)
    (by have : 0 ≤ h / (v + 0.055) := by positivity
        linarith) (by norm_num)
  have e : gpow (v + h) = gpow v * (1 + h / (v + 0.055)) ^ (2.4 : ℝ) := by
    unfold gpow
    rw [← mul_rpow (by positivity) (by positivity)]
    congr 1
    field_simp
    ring
  have hs : (0.03457 : ℝ) ≤ ((v + 0.055) / 1.055) ^ (1.4 : ℝ) := by
    calc (0.03457 : ℝ) ≤ ((10.5 / 255 + 0.055) / 1.055) ^ (1.4 : ℝ) := by
          rw [show (1.4 : ℝ) = ((7 : ℕ) : ℝ) / ((5 : ℕ) : ℝ) by norm_num]
          apply le_rpow_of_pow_le <;> norm_num
      _ ≤ _ := by
          apply rpow_le_rpow
          · norm_num
          · gcongr
          · norm_num
  have e2 : gpow v = (v + 0.055) / 1.055 * ((v + 0.055) / 1.055) ^ (1.4 : ℝ) := by
    unfold gpow
    rw [show (2.4 : ℝ) = 1 + 1.4 by norm_num, rpow_add (by positivity), rpow_one]
  have hg : 0 ≤ gpow v := gpow_nonneg (by norm_num at hv ⊢; linarith)
  calc h * 0.078 ≤ 2.4 * h / 1.055 * 0.03457 := by
        norm_num; nlinarith
    _ ≤ 2.4 * h / 1.055 * ((v + 0.055) / 1.055) ^ (1.4 : ℝ) := by gcongr
    _ = gpow v * (2.4 * (h / (v + 0.055))) := by
        rw [e2]; field_simp
    _ ≤ gpow (v + h) - gpow v := by rw [e]; nlinarith

/-! ### `linearized` and `delinearized` -/

theorem linearized_small {c : ℤ} (h : c ≤ 10) : (linearized c : ℝ) = c / 255 / 12.92 * 100 := by
  have hc : (c : ℝ) ≤ 10 := by exact_mod_cast h
  have : (Fl.ofInt c : ℝ) / 255.0 ≤ 0.040449936 := by
    rw [fl_ofInt]; norm_num; linarith
  simp only [linearized]
  rw [if_pos this, fl_ofInt]; norm_num

theorem linearized_large {c : ℤ} (h : 11 ≤ c) : (linearized c : ℝ) = gpow (c / 255) * 100 := by
  have hc : (11 : ℝ) ≤ c := by exact_mod_cast h
  have : ¬ (Fl.ofInt c : ℝ) / 255.0 ≤ 0.040449936 := by
    rw [fl_ofInt]; norm_num; linarith
  simp only [linearized]
  rw [if_neg this, fl_ofInt, fl_powf]
  unfold gpow
  norm_num

theorem delinearized_eq (x : ℝ) :
    delinearized x = clampInt 0 255 (satI64 (realTrunc (realRound (encode (x / 100) * 255)))) := by
  have e100 : (100.0 : ℝ) = 100 := by norm_num
  have e255 : (255.0 : ℝ) = 255 := by norm_num
  have e1 : (1.0 : ℝ) = 1 := by norm_num
  simp only [delinearized, encode, fl_powf, fl_round, fl_toI64, e100, e255]

theorem delinearized_of_round {x : ℝ} {n : ℤ} (h : realRound (encode (x / 100) * 255) = n) :
    delinearized x = clampInt 0 255 (satI64 n) := by
  rw [delinearized_eq, h, realTrunc_intCast]

theorem clamp_sat_mono {m n : ℤ} (h : m ≤ n) :
    clampInt 0 255 (satI64 m) ≤ clampInt 0 255 (satI64 n) := by
  unfold clampInt satI64
  split <;> split <;> (try split) <;> (try split) <;> omega

theorem clamp_sat_of_mem {n : ℤ} (h0 : 0 ≤ n) (h1 : n ≤ 255) : clampInt 0 255 (satI64 n) = n := by
  unfold clampInt satI64
  split <;> (try split) <;> omega

/-- The breakpoint of `encode` seen from above, in units of channel steps. -/
theorem encode_break {y : ℝ} (h : ¬ y ≤ 0.0031308) : 10.2 ≤ encode y * 255 := by
  unfold encode
  rw [if_neg h]
  have h1 : (0.0904 : ℝ) ≤ y ^ (1.0 / 2.4 : ℝ) := by
    calc (0.0904 : ℝ) ≤ (0.0031308 : ℝ) ^ (1.0 / 2.4 : ℝ) := by
          rw [e124]; apply le_rpow_of_pow_le <;> norm_num
      _ ≤ _ := by apply rpow_le_rpow <;> norm_num at h ⊢; linarith
  norm_num at h1 ⊢
  linarith

/-- Up to the rounding to channels the transfer function is monotone. -/
theorem realRound_encode_mono {x y : ℝ} (h : x ≤ y) :
    realRound (encode x * 255) ≤ realRound (encode y * 255) := by
  by_cases hx : x ≤ 0.0031308
  · by_cases hy : y ≤ 0.0031308
    · apply realRound_mono
      unfold encode
      rw [if_pos hx, if_pos hy]
      nlinarith
    · have h1 : realRound (encode x * 255) ≤ realRound ((10 : ℤ) + 0.4) := by
        apply realRound_mono
        unfold encode
        rw [if_pos hx]
        norm_num at hx ⊢; linarith
      have h2 : realRound ((10 : ℤ) + 0.2) ≤ realRound (encode y * 255) := by
        apply realRound_mono
        have := encode_break hy
        norm_num at this ⊢; linarith
      rw [realRound_eq_of_abs_lt (x := (10 : ℤ) + 0.4) (n := 10) (by norm_num [abs_of_pos])] at h1
      rw [realRound_eq_of_abs_lt (x := (10 : ℤ) + 0.2) (n := 10) (by norm_num [abs_of_pos])] at h2
      exact h1.trans h2
  · have hy : ¬ y ≤ 0.0031308 := fun h' => hx (h.trans h')
    apply realRound_mono
    unfold encode
    rw [if_neg hx, if_neg hy]
    have hx0 : 0 ≤ x := by norm_num at hx; linarith
    gcongr

theorem delinearized_mono {x y : ℝ} (h : x ≤ y) : delinearized x ≤ delinearized y := by
  obtain ⟨m, hm⟩ := realRound_int (encode (x / 100) * 255)
  obtain ⟨n, hn⟩ := realRound_int (encode (y / 100) * 255)
  rw [delinearized_of_round hm, delinearized_of_round hn]
  apply clamp_sat_mono
  have h1 : realRound (encode (x / 100) * 255) ≤ realRound (encode (y / 100) * 255) :=
    realRound_encode_mono (by gcongr)
  rw [hm, hn] at h1
  exact_mod_cast h1

theorem delinearized_of_near {x : ℝ} {c : ℤ} (h0 : 0 ≤ c) (h1 : c ≤ 255)
    (h : |encode (x / 100) * 255 - c| < 1 / 2) : delinearized x = c := by
  rw [delinearized_of_round (realRound_eq_of_abs_lt h), clamp_sat_of_mem h0 h1]

/-- The margin around every channel: a linear value within 0.009 of the value of channel `c` is encoded
as `c`. -/
theorem delinearized_near {x : ℝ} {c : ℤ} (h0 : 0 ≤ c) (h1 : c ≤ 255)
    (h : |x - linearized c| ≤ 0.009) : delinearized x = c := by
  apply delinearized_of_near h0 h1
  rw [abs_le] at h
  rcases le_or_gt c 10 with hc | hc
  · have hcr : (c : ℝ) ≤ 10 := by exact_mod_cast hc
    rw [linearized_small hc] at h
    have hle : x / 100 ≤ 0.0031308 := by norm_num at h ⊢; linarith
    unfold encode
    rw [if_pos hle, abs_lt]
    norm_num at h ⊢
    constructor <;> linarith
  · have hc : 11 ≤ c := hc
    have hcr : (11 : ℝ) ≤ c := by exact_mod_cast hc
    rw [linearized_large hc] at h
    have lo := gpow_sub_ge (v := (c - 0.5) / 255) (h := 0.49 / 255)
      (by norm_num; linarith) (by norm_num)
    have lo2 := gpow_mono (v := (c - 0.5) / 255 + 0.49 / 255) (w := c / 255)
      (by norm_num; linarith) (by norm_num; linarith)
    have hi := gpow_sub_ge (v := c / 255) (h := 0.49 / 255) (by norm_num; linarith) (by norm_num)
    have hlo : gpow ((c - 0.5) / 255) < x / 100 := by norm_num at h lo ⊢; linarith
    have hhi : x / 100 < gpow (c / 255 + 0.49 / 255) := by norm_num at h hi ⊢; linarith
    have hbase : (0.0031308 : ℝ) < gpow ((c - 0.5) / 255) := by
      calc (0.0031308 : ℝ) < gpow (10.5 / 255) := by
            unfold gpow; rw [e24]; apply lt_rpow_of_pow_lt <;> norm_num
        _ ≤ _ := gpow_mono (by norm_num) (by norm_num; linarith)
    have hx0 : (0 : ℝ) ≤ x / 100 := by norm_num at hbase; linarith
    have hgt : ¬ x / 100 ≤ 0.0031308 := by rw [not_le]; exact hbase.trans hlo
    unfold encode
    rw [if_neg hgt]
    generalize hv : 1.055 * (x / 100) ^ (1.0 / 2.4 : ℝ) - 0.055 = v
    have hvx : gpow v = x / 100 := by rw [← hv]; exact gpow_encode_pow hx0
    have hv0 : -0.055 ≤ v := by
      rw [← hv]
      have : (0 : ℝ) ≤ (x / 100) ^ (1.0 / 2.4 : ℝ) := by positivity
      norm_num; linarith
    have a1 : (c - 0.5) / 255 < v := by
      by_contra hcon
      have := gpow_mono hv0 (not_lt.1 hcon)
      rw [hvx] at this; linarith
    have a2 : v < c / 255 + 0.49 / 255 := by
      by_contra hcon
      have := gpow_mono (v := c / 255 + 0.49 / 255) (w := v) (by norm_num; linarith) (not_lt.1 hcon)
      rw [hvx] at this; linarith
    rw [abs_lt]
    norm_num at a1 a2 ⊢
    constructor <;> linarith

/-! ### The L* curve -/

theorem labF_of_le {t : ℝ} (h : t ≤ 216 / 24389) : labF t = (24389 / 27 * t + 16) / 116 := by
  have : ¬ t > (216.0 / 24389.0 : ℝ) := by norm_num; linarith
  simp only [labF]
  rw [if_neg this]; norm_num

theorem labF_of_gt {t : ℝ} (h : 216 / 24389 < t) : labF t = t ^ (1 / 3 : ℝ) := by
  have : t > (216.0 / 24389.0 : ℝ) := by norm_num; linarith
  simp only [labF]
  rw [if_pos this, fl_powf]; norm_num

theorem labInvf_of_le {f : ℝ} (h : f ≤ 6 / 29) : labInvf f = (116 * f - 16) / (24389 / 27) := by
  have h3 : f * f * f ≤ 216 / 24389 := by
    rcases le_total 0 f with h0 | h0
    · have : f * f * f ≤ (6/29) * (6/29) * (6/29) := by gcongr
      norm_num at this ⊢; linarith
    · have : f * f * f ≤ 0 := by nlinarith [mul_self_nonneg f]
      linarith
  have : ¬ f * f * f > (216.0 / 24389.0 : ℝ) := by norm_num; linarith
  simp only [labInvf]
  rw [if_neg this]; norm_num

theorem labInvf_of_gt {f : ℝ} (h : 6 / 29 < f) : labInvf f = f ^ 3 := by
  have h3 : 216 / 24389 < f * f * f := by
    have : (6/29) * (6/29) * (6/29) < f * f * f := by
      have h0 : (0:ℝ) < 6/29 := by norm_num
      gcongr
    norm_num at this ⊢; linarith
  have : f * f * f > (216.0 / 24389.0 : ℝ) := by norm_num; linarith
  simp only [labInvf]
  rw [if_pos this]; ring

theorem labF_labInvf (f : ℝ) : labF (labInvf f) = f := by
  rcases le_or_gt f (6 / 29) with h | h
  · rw [labInvf_of_le h, labF_of_le]
    · field_simp; ring
    · rw [div_le_iff₀ (by norm_num)]; norm_num; linarith
  · rw [labInvf_of_gt h, labF_of_gt]
    · rw [show (1 / 3 : ℝ) = ((3 : ℕ) : ℝ)⁻¹ by norm_num]
      exact pow_rpow_inv_natCast (by linarith) (by norm_num)
    · have h0 : (0:ℝ) < 6/29 := by norm_num
      have : (6/29 : ℝ) ^ 3 < f ^ 3 := by gcongr
      norm_num at this ⊢; linarith

theorem labInvf_labF (t : ℝ) : labInvf (labF t) = t := by
  rcases le_or_gt t (216 / 24389) with h | h
  · rw [labF_of_le h, labInvf_of_le]
    · field_simp; ring
    · rw [div_le_iff₀ (by norm_num)]; linarith
  · have h0 : (0 : ℝ) ≤ t := by linarith
    have e : (1 / 3 : ℝ) = ((3 : ℕ) : ℝ)⁻¹ := by norm_num
    rw [labF_of_gt h, labInvf_of_gt]
    · rw [e]; exact rpow_inv_natCast_pow h0 (by norm_num)
    · have : (216 / 24389 : ℝ) ^ (1 / 3 : ℝ) < t ^ (1 / 3 : ℝ) :=
        rpow_lt_rpow (by norm_num) h (by norm_num)
      rwa [show (216 / 24389 : ℝ) = (6 / 29) ^ 3 by norm_num, e,
        pow_rpow_inv_natCast (by norm_num) (by norm_num), ← e] at this

theorem labInvf_strictMono : StrictMono (labInvf : ℝ → ℝ) := by
  intro f g h
  rcases le_or_gt g (6 / 29) with hg | hg
  · rw [labInvf_of_le hg, labInvf_of_le (h.le.trans hg)]
    gcongr
  · rw [labInvf_of_gt hg]
    rcases le_or_gt f (6 / 29) with hf | hf
    · rw [labInvf_of_le hf]
      have h1 : (116 * f - 16) / (24389 / 27) ≤ (6/29 : ℝ) ^ 3 := by
        rw [div_le_iff₀ (by norm_num)]; norm_num; linarith
      have h0 : (0:ℝ) < 6/29 := by norm_num
      have h2 : (6/29 : ℝ) ^ 3 < g ^ 3 := by gcongr
      linarith
    · rw [labInvf_of_gt hf]
      have : 0 ≤ f := by linarith
      gcongr

theorem labF_strictMono : StrictMono (labF : ℝ → ℝ) := by
  intro s t h
  by_contra hc
  have := labInvf_strictMono.monotone (not_lt.1 hc)
  rw [labInvf_labF, labInvf_labF] at this
  linarith

theorem lstarFromY_eq (y : ℝ) : lstarFromY y = labF (y / 100) * 116 - 16 := by
  unfold lstarFromY; norm_num

theorem yFromLstar_eq (l : ℝ) : yFromLstar l = 100 * labInvf ((l + 16) / 116) := by
  unfold yFromLstar; norm_num

end Mcu.Lemmas
