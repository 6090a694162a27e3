import Mathlib.Analysis.Complex.ExponentialBounds
import Verif.Lemmas.F64Search
import Verif.Lemmas.Planes
import Verif.Lemmas.Solver

/-! The critical planes of the gamut-limit search in IEEE-754 binary64: the computed plane indices bracket the coordinates
up to a relative error of 4e-13, and they are never outside -1..255. -/

namespace Mcu.Lemmas

open Mcu.Ieee Props Props.Binary64 MathUtils ColorUtils HctSolver

variable {L : Libm}

local notation "𝔻" => F64 L

/-- One rounding: no overflow, and a small relative error. -/
theorem rnd_fine {v : ℝ} (h : |v| ≤ 1000) :
    |rnd v| < 2 ^ 1024 ∧ |rnd v - v| ≤ |v| * (2 / 10 ^ 16) + 1 / 10 ^ 60 := by
  refine ⟨(rnd_ok h).1, (rnd_error v).trans ?_⟩
  have h1 : (2 : ℝ) ^ (-1075 : ℤ) ≤ 2 ^ (-200 : ℤ) := zpow_le_zpow_right₀ (by norm_num) (by norm_num)
  have h2 : (2 : ℝ) ^ (-200 : ℤ) ≤ 1 / 10 ^ 60 := by norm_num
  have h3 : (2 : ℝ) ^ (-53 : ℤ) ≤ 2 / 10 ^ 16 := by norm_num
  exact add_le_add (mul_le_mul_of_nonneg_left h3 (abs_nonneg _)) (h1.trans h2)

/-- The same with a bound on the size. -/
theorem rnd_within {v : ℝ} (B : ℝ) (hB : B ≤ 1000) (h : |v| ≤ B) :
    |rnd v| < 2 ^ 1024 ∧ |rnd v - v| ≤ B * (2 / 10 ^ 16) + 1 / 10 ^ 60 := by
  obtain ⟨h1, h2⟩ := rnd_fine (h.trans hB)
  refine ⟨h1, h2.trans ?_⟩
  have := mul_le_mul_of_nonneg_right h (show (0 : ℝ) ≤ 2 / 10 ^ 16 by norm_num)
  linarith

theorem is_dec {m e : ℕ} {s : Bool} {v : ℝ} (hv : (OfScientific.ofScientific m s e : ℝ) = v) (B : ℝ) (hB : B ≤ 1000) (h : |v| ≤ B) :
    ∃ c, Is (OfScientific.ofScientific m s e : 𝔻) c ∧ |c - v| ≤ B * (2 / 10 ^ 16) + 1 / 10 ^ 60 := by
  refine ⟨rnd v, is_lit hv ((h.trans hB).trans ?_), (rnd_within B hB h).2⟩
  calc (1000 : ℝ) ≤ 2 ^ 10 := by norm_num
    _ ≤ 2 ^ 1000 := pow_le_pow_right₀ (by norm_num) (by norm_num)

theorem plane9 : plane 9 ≤ 0.2884 := by
  have := (abs_le.1 (plane_linear (m := 9) (by norm_num))).2
  norm_num at this ⊢; linarith

theorem plane10 {m : ℕ} (h : 10 ≤ m) (h' : m < 255) : 0.318 ≤ plane m := by
  have h9 := (abs_le.1 (plane_linear (m := 9) (by norm_num))).1
  have := plane_mono (m := 9) (n := m) (by omega) h'
  norm_num at this h9 ⊢; linarith

theorem plane_small {m : ℕ} (h : m < 10) : plane m ≤ 0.2884 := by
  rcases Nat.lt_or_ge m 9 with h9 | h9
  · have := plane_mono h9 (by norm_num)
    have := plane9
    norm_num at *; linarith
  · have : m = 9 := by omega
    subst this; exact plane9

/-- Entry `m` has a relative error of at most 1e-14, as an inequality between natural numbers. -/
def planeFine (m : Nat) (p : Nat × Nat) : Bool :=
  if m < 10 then
    (planeScaled p) * (255 * 1292) * 10 ^ 14 ≤ (2 * m + 1) * 5000 * 10 ^ 18 * (10 ^ 14 + 1) &&
    (2 * m + 1) * 5000 * 10 ^ 18 * (10 ^ 14 - 1) ≤ (planeScaled p) * (255 * 1292) * 10 ^ 14
  else
    (1000 * m + 14525) ^ 12 * 10 ^ 170 ≤ (planeScaled p * (10 ^ 14 + 1)) ^ 5 * 269025 ^ 12 &&
    (planeScaled p * (10 ^ 14 - 1)) ^ 5 * 269025 ^ 12 ≤ (1000 * m + 14525) ^ 12 * 10 ^ 170

theorem planesFine_true : ((List.range 255).all fun m => planeFine m (criticalPlanesTable.getD m (0, 0))) = true := by
  decide +kernel

theorem planeFine_of {m : Nat} (h : m < 255) : planeFine m (criticalPlanesTable.getD m (0, 0)) = true := by
  have ht := planesFine_true
  rw [List.all_eq_true] at ht
  exact ht m (List.mem_range.2 h)

theorem plane_linear_fine {m : Nat} (h : m < 10) :
    plane m * 32.946 ≤ ((m : ℝ) + 1 / 2) * (1 + 1 / 10 ^ 14) ∧ ((m : ℝ) + 1 / 2) * (1 - 1 / 10 ^ 14) ≤ plane m * 32.946 := by
  have hok := planeFine_of (m := m) (by omega)
  unfold planeFine at hok
  simp only [if_pos h, Bool.and_eq_true, decide_eq_true_eq] at hok
  obtain ⟨h1, h2⟩ := hok
  rw [plane_eq (by omega)]
  generalize planeScaled (criticalPlanesTable.getD m (0, 0)) = N at *
  have r1 : (N : ℝ) * (255 * 1292) * 10 ^ 14 ≤ (2 * m + 1) * 5000 * 10 ^ 18 * (10 ^ 14 + 1) := by exact_mod_cast h1
  have r2 : (2 * (m : ℝ) + 1) * 5000 * 10 ^ 18 * ((10 ^ 14 - 1 : ℕ) : ℝ) ≤ N * (255 * 1292) * 10 ^ 14 := by exact_mod_cast h2
  norm_num at r1 r2 ⊢
  constructor <;> linarith

theorem plane_power_fine {m : Nat} (h : 10 ≤ m) (h' : m < 255) :
    ((1000 * (m : ℝ) + 14525) / 269025) ^ 12 ≤ (plane m / 100 * (1 + 1 / 10 ^ 14)) ^ 5 ∧
    (plane m / 100 * (1 - 1 / 10 ^ 14)) ^ 5 ≤ ((1000 * (m : ℝ) + 14525) / 269025) ^ 12 := by
  have hok := planeFine_of h'
  unfold planeFine at hok
  simp only [if_neg (show ¬ m < 10 by omega), Bool.and_eq_true, decide_eq_true_eq] at hok
  obtain ⟨h1, h2⟩ := hok
  rw [plane_eq h']
  generalize planeScaled (criticalPlanesTable.getD m (0, 0)) = N at *
  have r1 : (1000 * (m : ℝ) + 14525) ^ 12 * 10 ^ 170 ≤ ((N : ℝ) * (10 ^ 14 + 1)) ^ 5 * 269025 ^ 12 := by exact_mod_cast h1
  have r2 : ((N : ℝ) * ((10 ^ 14 - 1 : ℕ) : ℝ)) ^ 5 * 269025 ^ 12 ≤ (1000 * (m : ℝ) + 14525) ^ 12 * 10 ^ 170 := by
    exact_mod_cast h2
  have e14 : ((10 ^ 14 - 1 : ℕ) : ℝ) = 10 ^ 14 - 1 := by norm_num
  rw [e14] at r2
  generalize 1000 * (m : ℝ) + 14525 = U at *
  have e1 : (N : ℝ) / 10 ^ 18 / 100 * (1 + 1 / 10 ^ 14) = (N * (10 ^ 14 + 1)) / 10 ^ 34 := by ring
  have e2 : (N : ℝ) / 10 ^ 18 / 100 * (1 - 1 / 10 ^ 14) = (N * (10 ^ 14 - 1)) / 10 ^ 34 := by ring
  rw [e1, e2, div_pow, div_pow, div_pow]
  constructor
  · rw [div_le_div_iff₀ (by positivity) (by positivity), ← pow_mul]
    exact r1
  · rw [div_le_div_iff₀ (by positivity) (by positivity), ← pow_mul]
    exact r2

/-- The power branch against the planes, over the reals. -/
theorem power_ge {m : ℕ} (hm : 10 ≤ m) (h : m < 255) {a : ℝ} (ha : plane m * (1 + 4 / 10 ^ 13) ≤ a) :
    (1000 * (m : ℝ) + 14525) / 269025 * (1 + 16 / 10 ^ 14) ≤ (a / 100) ^ (((5 : ℕ) : ℝ) / ((12 : ℕ) : ℝ)) := by
  have hp := (plane_power_fine hm h).1
  have hlow := plane10 hm h
  have hm' : (10 : ℝ) ≤ m := by exact_mod_cast hm
  set u : ℝ := (1000 * (m : ℝ) + 14525) / 269025 with hu
  have hu0 : 0 ≤ u := by positivity
  norm_num at hlow
  apply le_rpow_of_pow_le (by norm_num) (by positivity) (by nlinarith)
  set q := plane m / 100 * (1 + 1 / 10 ^ 14) with hq
  have hq0 : 0 ≤ q := by rw [hq]; norm_num; linarith
  have h1 : q * (1 + 389 / 10 ^ 15) ≤ a / 100 := by rw [hq]; norm_num at ha ⊢; linarith
  calc (u * (1 + 16 / 10 ^ 14)) ^ 12 = u ^ 12 * (1 + 16 / 10 ^ 14) ^ 12 := by rw [mul_pow]
    _ ≤ q ^ 5 * (1 + 389 / 10 ^ 15) ^ 5 := by gcongr ?_ * ?_; norm_num
    _ = (q * (1 + 389 / 10 ^ 15)) ^ 5 := (mul_pow q _ 5).symm
    _ ≤ _ := pow_le_pow_left₀ (by positivity) h1 5

theorem power_le {m : ℕ} (hm : 10 ≤ m) (h : m < 255) {a : ℝ} (h0 : 0 ≤ a) (ha : a ≤ plane m * (1 - 4 / 10 ^ 13)) :
    (a / 100) ^ (((5 : ℕ) : ℝ) / ((12 : ℕ) : ℝ)) ≤ (1000 * (m : ℝ) + 14525) / 269025 * (1 - 16 / 10 ^ 14) := by
  have hp := (plane_power_fine hm h).2
  have hlow := plane10 hm h
  have hm' : (10 : ℝ) ≤ m := by exact_mod_cast hm
  set u : ℝ := (1000 * (m : ℝ) + 14525) / 269025 with hu
  have hu0 : 0 ≤ u := by positivity
  norm_num at hlow
  apply rpow_le_of_le_pow (by norm_num) (mul_nonneg hu0 (by norm_num)) (by positivity)
  set q := plane m / 100 * (1 - 1 / 10 ^ 14) with hq
  have hq0 : 0 ≤ q := by rw [hq]; norm_num; linarith
  have h1 : a / 100 ≤ q * (1 - 389 / 10 ^ 15) := by rw [hq]; norm_num at ha ⊢; linarith
  calc (a / 100) ^ 5 ≤ (q * (1 - 389 / 10 ^ 15)) ^ 5 := pow_le_pow_left₀ (by positivity) h1 5
    _ = q ^ 5 * (1 - 389 / 10 ^ 15) ^ 5 := mul_pow q _ 5
    _ ≤ u ^ 12 * (1 - 16 / 10 ^ 14) ^ 12 := by gcongr ?_ * ?_; norm_num
    _ = _ := by rw [mul_pow]

/-- A power of nearly the right base with nearly the right exponent, relatively. -/
theorem rpow_rel {v b e f : ℝ} (hb0 : 0.003 ≤ b) (hb1 : b ≤ 1.01) (hv : |v - b| ≤ b * (3 / 10 ^ 16)) (hf : |f| ≤ 1 / 2)
    (he : |e - f| ≤ 6 / 10 ^ 16) : |v ^ e - b ^ f| ≤ b ^ f * (1 / 10 ^ 14) := by
  norm_num at hb0 hb1
  have b0 : 0 < b := by linarith
  have hv' := abs_le.1 hv
  have v0 : 0 < v := by nlinarith
  have hlog : |Real.log b| ≤ 6 := by
    rw [abs_le]
    constructor
    · rw [Real.le_log_iff_exp_le b0]
      have h1 : Real.exp (-6) = (Real.exp 1 ^ 6)⁻¹ := by rw [Real.exp_neg, ← Real.exp_nat_mul]; norm_num
      have h2 : (2.7 : ℝ) ^ 6 ≤ Real.exp 1 ^ 6 := pow_le_pow_left₀ (by norm_num) (by linarith [Real.exp_one_gt_d9]) 6
      rw [h1]
      calc (Real.exp 1 ^ 6)⁻¹ ≤ ((2.7 : ℝ) ^ 6)⁻¹ := inv_anti₀ (by norm_num) h2
        _ ≤ 3 / 1000 := by norm_num
        _ ≤ b := hb0
    · have := Real.log_le_sub_one_of_pos b0
      linarith
  have hlv : |Real.log v - Real.log b| ≤ 4 / 10 ^ 16 := by
    rw [← Real.log_div v0.ne' b0.ne', abs_le]
    have hq : |v / b - 1| ≤ 3 / 10 ^ 16 := by
      rw [div_sub_one b0.ne', abs_div, abs_of_pos b0, div_le_iff₀ b0]; linarith
    have hq := abs_le.1 hq
    have q0 : 0 < v / b := by positivity
    constructor
    · have := Real.one_sub_inv_le_log_of_pos q0
      have h2 : (v / b)⁻¹ ≤ 1 + 4 / 10 ^ 16 := by
        rw [inv_le_comm₀ q0 (by norm_num)]
        refine le_trans ?_ (show 1 - 3 / 10 ^ 16 ≤ v / b by linarith)
        norm_num
      linarith
    · have := Real.log_le_sub_one_of_pos q0
      linarith
  rw [Real.rpow_def_of_pos v0, Real.rpow_def_of_pos b0]
  have hx : |Real.log v * e - Real.log b * f| ≤ 5 / 10 ^ 15 := by
    have e1 : Real.log v * e - Real.log b * f = (Real.log v - Real.log b) * f + (Real.log v - Real.log b) * (e - f) +
      Real.log b * (e - f) := by ring
    rw [e1]
    refine (abs_add_le _ _).trans ((add_le_add_left (abs_add_le _ _) _).trans ?_)
    rw [abs_mul, abs_mul, abs_mul]
    have m1 : |Real.log v - Real.log b| * |f| ≤ 4 / 10 ^ 16 * (1 / 2) := by gcongr
    have m2 : |Real.log v - Real.log b| * |e - f| ≤ 4 / 10 ^ 16 * (6 / 10 ^ 16) := by gcongr
    have m3 : |Real.log b| * |e - f| ≤ 6 * (6 / 10 ^ 16) := by gcongr
    norm_num at m1 m2 m3 ⊢
    linarith
  have e2 : Real.exp (Real.log v * e) = Real.exp (Real.log b * f) * Real.exp (Real.log v * e - Real.log b * f) := by
    rw [← Real.exp_add]; congr 1; ring
  rw [e2]
  generalize Real.log v * e - Real.log b * f = x at *
  have h3 := Real.abs_exp_sub_one_le (x := x) (hx.trans (by norm_num))
  have h4 : |Real.exp x - 1| ≤ 1 / 10 ^ 14 := h3.trans (by linarith)
  rw [← mul_sub_one, abs_mul, abs_of_pos (Real.exp_pos _)]
  exact mul_le_mul_of_nonneg_left h4 (Real.exp_pos _).le

/-- The value of the power branch in binary64. -/
theorem power64 (hL : L.PowOk) {x : 𝔻} {v a : ℝ} (hx : Is x v) (hv : |v - a / 100| ≤ a / 100 * (3 / 10 ^ 16)) (h0 : 0.313 ≤ a)
    (h1 : a ≤ 100.02) : ∃ d, Is ((1.055 * Fl.powf x (1.0 / 2.4) - 0.055) * 255.0 : 𝔻) d ∧
      |d - (1.055 * (a / 100) ^ (((5 : ℕ) : ℝ) / ((12 : ℕ) : ℝ)) - 0.055) * 255| ≤
        269.025 * (a / 100) ^ (((5 : ℕ) : ℝ) / ((12 : ℕ) : ℝ)) * (111 / 10 ^ 15) + 5 / 10 ^ 13 := by
  have hv' := abs_le.1 hv
  norm_num at h0 h1
  -- the exponent
  obtain ⟨t, i24, c1⟩ := is_dec (L := L) (m := 24) (s := true) (e := 1) (v := 2.4) rfl 3 (by norm_num) (by norm_num)
  have c1' := abs_le.1 c1
  have tq : |1 / t - 5 / 12| ≤ 3 / 10 ^ 16 := by
    have t0 : 0 < t := by norm_num at c1'; linarith
    rw [div_sub_div _ _ t0.ne' (by norm_num), abs_div, div_le_iff₀ (by positivity), abs_of_pos (show 0 < t * 12 by positivity),
      abs_le]
    norm_num at c1' ⊢
    constructor <;> linarith
  have tq' := abs_le.1 tq
  obtain ⟨b2, c2⟩ := rnd_within (v := 1 / t) 1 (by norm_num) (by rw [abs_le]; constructor <;> linarith)
  have i2 : Is (1.0 / 2.4 : 𝔻) (rnd (1 / t)) := l1.div i24 (by norm_num at c1'; intro h; rw [h] at c1'; linarith) b2
  generalize rnd (1 / t) = e at *
  generalize 1 / t = t' at *
  have c2' := abs_le.1 c2
  have he : |e - 5 / 12| ≤ 6 / 10 ^ 16 := by rw [abs_le]; norm_num at c2' ⊢; constructor <;> linarith
  have he' := abs_le.1 he
  obtain ⟨p, ip, cp⟩ := is_pow64 hL hx i2 (by norm_num at hv' ⊢; linarith) (by norm_num at hv' ⊢; linarith) (by linarith) (by linarith)
  have near := rpow_rel (v := v) (b := a / 100) (e := e) (f := 5 / 12) (by norm_num; linarith) (by norm_num; linarith) hv
    (by rw [abs_le]; norm_num) he
  have e512 : (((5 : ℕ) : ℝ) / ((12 : ℕ) : ℝ)) = 5 / 12 := by norm_num
  rw [e512]
  have hw0 : 0 ≤ (a / 100) ^ (5 / 12 : ℝ) := Real.rpow_nonneg (by linarith) _
  have hw1 : (a / 100) ^ (5 / 12 : ℝ) ≤ 1.0002 := by
    rw [← e512]
    apply rpow_le_of_le_pow (by norm_num) (by norm_num) (by linarith)
    calc (a / 100) ^ 5 ≤ 1.0002 ^ 5 := pow_le_pow_left₀ (by linarith) (by norm_num; linarith) 5
      _ ≤ 1.0002 ^ 12 := by norm_num
  generalize (a / 100) ^ (5 / 12 : ℝ) = w at *
  generalize v ^ e = ve at *
  have near' := abs_le.1 near
  have cp' := abs_le.1 cp
  have hpw : |p - w| ≤ w * (1101 / 10 ^ 16) := by
    rw [abs_le]; norm_num at near' cp' hw1 ⊢; constructor <;> linarith
  have cp2 := abs_le.1 hpw
  have hp0 : 0 ≤ p := by norm_num at cp2; linarith
  have hp1 : p ≤ 1.0003 := by norm_num at cp2 hw1 ⊢; linarith
  norm_num at hw1 hp1
  -- the rest
  obtain ⟨k, ik, ck⟩ := is_dec (L := L) (m := 1055) (s := true) (e := 3) (v := 1.055) rfl 1.06 (by norm_num) (by norm_num)
  obtain ⟨q, iq, cq⟩ := is_dec (L := L) (m := 55) (s := true) (e := 3) (v := 0.055) rfl 0.06 (by norm_num) (by norm_num)
  have l255 : Is (255.0 : 𝔻) 255 := by simpa using lit (L := L) 2550 1 true 255 (by norm_num) (by norm_num)
  have ck' := abs_le.1 ck
  have cq' := abs_le.1 cq
  norm_num at ck' cq'
  have kp : |k * p - 1.055 * p| ≤ 3 / 10 ^ 16 := by
    rw [← sub_mul, abs_mul]
    calc |k - 1.055| * |p| ≤ (1.06 * (2 / 10 ^ 16) + 1 / 10 ^ 60) * 1.0003 := by
          gcongr; rw [abs_le]; norm_num; constructor <;> linarith
      _ ≤ _ := by norm_num
  have kp' := abs_le.1 kp
  obtain ⟨b3, c3⟩ := rnd_within (v := k * p) 1.06 (by norm_num) (by rw [abs_le]; norm_num at kp' ⊢; constructor <;> linarith)
  have i3 := ik.mul ip b3
  generalize rnd (k * p) = d1 at *
  generalize k * p = kp at *
  have c3' := abs_le.1 c3
  norm_num at c3' kp' cp2
  obtain ⟨b4, c4⟩ := rnd_within (v := d1 - q) 1.06 (by norm_num) (by rw [abs_le]; norm_num; constructor <;> linarith)
  have i4 := i3.sub iq b4
  generalize rnd (d1 - q) = d2 at *
  have c4' := abs_le.1 c4
  norm_num at c4'
  obtain ⟨b5, c5⟩ := rnd_within (v := d2 * 255) 300 (by norm_num) (by rw [abs_le]; constructor <;> linarith)
  have i5 := i4.mul l255 b5
  refine ⟨_, i5, ?_⟩
  generalize rnd (d2 * 255) = d3 at *
  have c5' := abs_le.1 c5
  norm_num at c5'
  rw [abs_le]
  norm_num
  constructor <;> linarith

/-- The encoded value of a coordinate against the planes. -/
theorem td64 (hL : L.PowOk) {x : 𝔻} {a : ℝ} (hx : Is x a) (h0 : -0.01 ≤ a) (h1 : a ≤ 100.02) :
    ∃ d, Is (trueDelinearized x) d ∧ -0.4 ≤ d ∧ d ≤ 255.4 ∧
      (∀ m : ℕ, m < 255 → plane m * (1 + 4 / 10 ^ 13) ≤ a → (m : ℝ) + 1 / 2 + 15 / 10 ^ 14 ≤ d) ∧
      (∀ m : ℕ, m < 255 → a ≤ plane m * (1 - 4 / 10 ^ 13) → d ≤ (m : ℝ) + 1 / 2 - 15 / 10 ^ 14) := by
  norm_num at h0 h1
  have ha : |a / 100| ≤ 1.0002 := by rw [abs_le]; norm_num; constructor <;> linarith
  obtain ⟨b1, c1⟩ := rnd_fine (v := a / 100) (ha.trans (by norm_num))
  have i1 := hx.div l100 (by norm_num) b1
  generalize rnd (a / 100) = v at *
  have hv : |v - a / 100| ≤ 3 / 10 ^ 16 := by
    refine c1.trans ?_
    have : |a / 100| * (2 / 10 ^ 16) ≤ 1.0002 * (2 / 10 ^ 16) := by gcongr
    refine (add_le_add_left this _).trans ?_
    norm_num
  have hv' := abs_le.1 hv
  obtain ⟨T, iT, cT⟩ := is_dec (L := L) (m := 31308) (s := true) (e := 7) (v := 0.0031308) rfl 1 (by norm_num) (by norm_num)
  have cT' := abs_le.1 cT
  norm_num at cT'
  by_cases hb : v ≤ T
  · -- the linear branch
    obtain ⟨k, ik, ck⟩ := is_dec (L := L) (m := 1292) (s := true) (e := 2) (v := 12.92) rfl 13 (by norm_num) (by norm_num)
    have l255 : Is (255.0 : 𝔻) 255 := by simpa using lit (L := L) 2550 1 true 255 (by norm_num) (by norm_num)
    have ck' := abs_le.1 ck
    have hA := abs_nonneg a
    have e100 : |a / 100| = |a| / 100 := by rw [abs_div]; norm_num
    rw [e100] at c1 ha
    have g1 : |v * k - 12.92 * (a / 100)| ≤ |a| * (6 / 10 ^ 17) + 2 / 10 ^ 59 := by
      have : v * k - 12.92 * (a / 100) = (v - a / 100) * k + a / 100 * (k - 12.92) := by ring
      rw [this]
      refine (abs_add_le _ _).trans ?_
      rw [abs_mul, abs_mul, e100]
      have hk : |k| ≤ 13 := by rw [abs_le]; norm_num at ck' ⊢; constructor <;> linarith
      have m1 : |v - a / 100| * |k| ≤ (|a| / 100 * (2 / 10 ^ 16) + 1 / 10 ^ 60) * 13 := by gcongr
      have m2 : |a| / 100 * |k - 12.92| ≤ |a| / 100 * (13 * (2 / 10 ^ 16) + 1 / 10 ^ 60) := by gcongr
      refine (add_le_add m1 m2).trans ?_
      norm_num; linarith
    have f1 : |v * k| ≤ |a| * (2 / 10) + 2 / 10 ^ 59 := by
      have : v * k = (v * k - 12.92 * (a / 100)) + 12.92 * (a / 100) := by ring
      rw [this]
      refine (abs_add_le _ _).trans ?_
      have e : |12.92 * (a / 100)| = 12.92 * (|a| / 100) := by rw [abs_mul, e100]; norm_num
      rw [e]
      norm_num at g1 ⊢; linarith
    obtain ⟨b2, c2⟩ := rnd_fine (v := v * k) (by norm_num at ha f1 ⊢; linarith)
    have i2 := i1.mul ik b2
    generalize rnd (v * k) = d1 at *
    generalize v * k = vk at *
    have g2 : |d1 * 255 - 32.946 * a| ≤ |a| * (3 / 10 ^ 14) + 1 / 10 ^ 56 := by
      have : d1 * 255 - 32.946 * a = ((d1 - vk) + (vk - 12.92 * (a / 100))) * 255 := by ring
      rw [this, abs_mul]
      have := abs_add_le (d1 - vk) (vk - 12.92 * (a / 100))
      have m1 : |vk| * (2 / 10 ^ 16) ≤ (|a| * (2 / 10) + 2 / 10 ^ 59) * (2 / 10 ^ 16) := by gcongr
      calc |(d1 - vk) + (vk - 12.92 * (a / 100))| * |(255 : ℝ)|
          ≤ ((|a| * (2 / 10) + 2 / 10 ^ 59) * (2 / 10 ^ 16) + 1 / 10 ^ 60 + (|a| * (6 / 10 ^ 17) + 2 / 10 ^ 59)) * 255 := by
            rw [abs_of_pos (show (0 : ℝ) < 255 by norm_num)]
            gcongr; linarith
        _ ≤ _ := by norm_num; linarith
    have f2 : |d1 * 255| ≤ |a| * 33 + 1 / 10 ^ 56 := by
      have : d1 * 255 = (d1 * 255 - 32.946 * a) + 32.946 * a := by ring
      rw [this]
      refine (abs_add_le _ _).trans ?_
      have e : |32.946 * a| = 32.946 * |a| := by rw [abs_mul]; norm_num
      rw [e]
      norm_num at g2 ⊢; linarith
    have ha3 : a ≤ 0.31309 := by norm_num; linarith
    norm_num at ha3
    have hA3 : |a| ≤ 0.31309 := by rw [abs_le]; norm_num; constructor <;> linarith
    norm_num at hA3
    obtain ⟨b3, c3⟩ := rnd_fine (v := d1 * 255) (f2.trans (by norm_num; linarith))
    have i3 := i2.mul l255 b3
    generalize rnd (d1 * 255) = d at *
    have g3 : |d - 32.946 * a| ≤ |a| * (4 / 10 ^ 14) + 1 / 10 ^ 55 := by
      have : d - 32.946 * a = (d - d1 * 255) + (d1 * 255 - 32.946 * a) := by ring
      rw [this]
      refine (abs_add_le _ _).trans ?_
      have m1 : |d1 * 255| * (2 / 10 ^ 16) ≤ (|a| * 33 + 1 / 10 ^ 56) * (2 / 10 ^ 16) := by gcongr
      norm_num at m1 g2 c3 ⊢; linarith
    have g4 := abs_le.1 g3
    norm_num at g4
    refine ⟨d, ?_, ?_, ?_, ?_, ?_⟩
    · simp only [trueDelinearized]
      rw [if_pos (by rw [i1.le_iff iT]; exact hb)]
      exact i3
    · norm_num; linarith
    · norm_num; linarith
    · intro m hm hp
      rcases Nat.lt_or_ge m 10 with h10 | h10
      · have hq := (plane_linear_fine h10).2
        have hl := plane_low hm
        have a0 : 0 ≤ a := by norm_num at hl hp; linarith
        rw [abs_of_nonneg a0] at g4
        norm_num at hl hq hp ⊢
        linarith
      · have := plane10 h10 hm
        norm_num at this hp; linarith
    · intro m hm hp
      rcases Nat.lt_or_ge m 10 with h10 | h10
      · have hq := (plane_linear_fine h10).1
        have hl := plane_low hm
        have hm0 : (0 : ℝ) ≤ m := by positivity
        rcases le_total 0 a with a0 | a0
        · rw [abs_of_nonneg a0] at g4
          norm_num at hl hq hp ⊢
          linarith
        · rw [abs_of_nonpos a0] at g4
          linarith
      · have : (10 : ℝ) ≤ m := by exact_mod_cast h10
        linarith
  · push Not at hb
    have ha0 : 0.31307 ≤ a := by norm_num; linarith
    norm_num at ha0
    have hrel : |v - a / 100| ≤ a / 100 * (3 / 10 ^ 16) := by
      rw [abs_of_nonneg (show 0 ≤ a / 100 by linarith)] at c1
      refine c1.trans ?_
      norm_num; linarith
    obtain ⟨d, id, hd⟩ := power64 hL i1 hrel (by norm_num; linarith) (by norm_num; linarith)
    have hd' := abs_le.1 hd
    set w := (a / 100) ^ (((5 : ℕ) : ℝ) / ((12 : ℕ) : ℝ)) with hw
    have hw0 : 0.0904 ≤ w := by
      rw [hw]
      apply le_rpow_of_pow_le (by norm_num) (by norm_num) (by linarith)
      calc (0.0904 : ℝ) ^ 12 ≤ 0.0031307 ^ 5 := by norm_num
        _ ≤ _ := pow_le_pow_left₀ (by norm_num) (by norm_num; linarith) 5
    have hw1 : w ≤ 1.0002 := by
      rw [hw]
      apply rpow_le_of_le_pow (by norm_num) (by norm_num) (by linarith)
      calc (a / 100) ^ 5 ≤ 1.0002 ^ 5 := pow_le_pow_left₀ (by linarith) (by norm_num; linarith) 5
        _ ≤ 1.0002 ^ 12 := by norm_num
    refine ⟨d, ?_, ?_, ?_, ?_, ?_⟩
    · simp only [trueDelinearized]
      rw [if_neg (by rw [i1.le_iff iT]; exact not_le.2 hb)]
      exact id
    · norm_num at hd' hw0 ⊢; linarith
    · norm_num at hd' hw1 ⊢; linarith
    · intro m hm hp
      rcases Nat.lt_or_ge m 10 with h10 | h10
      · have : (m : ℝ) ≤ 9 := by exact_mod_cast Nat.le_of_lt_succ h10
        norm_num at hd' hw0 ⊢; linarith
      · have hq := power_ge h10 hm hp
        rw [← hw] at hq
        have : (10 : ℝ) ≤ m := by exact_mod_cast h10
        norm_num at hd' hq ⊢
        linarith
    · intro m hm hp
      rcases Nat.lt_or_ge m 10 with h10 | h10
      · have := plane_small h10
        norm_num at this hp
        linarith
      · have hq := power_le h10 hm (by linarith) hp
        rw [← hw] at hq
        have : (10 : ℝ) ≤ m := by exact_mod_cast h10
        norm_num at hd' hq ⊢
        linarith

/-- `x.floor() as i64` and `x.ceil() as i64` for moderate numbers. -/
theorem toI64_floor64 {x : 𝔻} {a : ℝ} (hx : Is x a) (h : |a| ≤ 1000) : Fl.toI64 (Fl.floor x) = ⌊a⌋ := by
  have hn : |⌊a⌋| ≤ 1001 := by
    have h' := abs_le.1 h
    rw [abs_le]
    constructor
    · rw [Int.le_floor]; push_cast; linarith
    · have := Int.floor_le a
      have : (⌊a⌋ : ℝ) ≤ ((1001 : ℤ) : ℝ) := by push_cast; linarith
      exact_mod_cast this
  have := is_toInteger (L := L) (fun v => ⌊v⌋) (by simp) x hx.1 ⌊a⌋ (by rw [hx.2]) (hn.trans (by norm_num))
  rw [show Fl.toI64 (Fl.floor x) = _ from Is.toI64 (L := L) this, realTrunc_intCast]
  have := abs_le.1 hn
  exact satI64_of_mem (by omega)

theorem toI64_ceil64 {x : 𝔻} {a : ℝ} (hx : Is x a) (h : |a| ≤ 1000) : Fl.toI64 (Fl.ceil x) = ⌈a⌉ := by
  have hn : |⌈a⌉| ≤ 1001 := by
    have h' := abs_le.1 h
    rw [abs_le]
    constructor
    · have := Int.le_ceil a
      have : ((-1001 : ℤ) : ℝ) ≤ (⌈a⌉ : ℝ) := by push_cast; linarith
      exact_mod_cast this
    · rw [Int.ceil_le]; push_cast; linarith
  have := is_toInteger (L := L) (fun v => ⌈v⌉) (by simp) x hx.1 ⌈a⌉ (by rw [hx.2]) (hn.trans (by norm_num))
  rw [show Fl.toI64 (Fl.ceil x) = _ from Is.toI64 (L := L) this, realTrunc_intCast]
  have := abs_le.1 hn
  exact satI64_of_mem (by omega)

/-- Plane indices bracketing two coordinates. -/
structure Bracket64 (lo hi : Int) (x z : ℝ) : Prop where
  lo_ge : -1 ≤ lo
  hi_le : hi ≤ 255
  le : lo ≤ hi + 1
  low : ∀ m : ℕ, m < 255 → lo < m → x ≤ plane m * (1 + 4 / 10 ^ 13)
  high : ∀ m : ℕ, m < 255 → (m : Int) < hi → plane m * (1 - 4 / 10 ^ 13) ≤ z

theorem lhalf : Is (0.5 : 𝔻) (1 / 2) := by
  have hr : Rep (1 / 2 : ℝ) := by
    have := rep_zpow (e := -1) (by norm_num)
    rwa [zpow_neg_one, ← one_div] at this
  have h2 : (1 : ℝ) ≤ 2 ^ 1000 := one_le_pow₀ (by norm_num)
  have := is_lit (L := L) (m := 5) (s := true) (e := 1) (v := 1 / 2) (by norm_num)
    (by rw [abs_of_pos (by norm_num)]; exact le_trans (by norm_num) h2)
  rwa [hr.rnd_eq] at this

theorem below64 {x : 𝔻} {d : ℝ} (hx : Is x d) (h0 : -0.4 ≤ d) (h1 : d ≤ 255.4) :
    ∃ w, criticalPlaneBelow x = ⌊w⌋ ∧ |w - (d - 1 / 2)| ≤ 1 / 10 ^ 13 := by
  norm_num at h0 h1
  have hb : |d - 1 / 2| ≤ 256 := by rw [abs_le]; constructor <;> linarith
  obtain ⟨b, c⟩ := rnd_within (v := d - 1 / 2) 256 (by norm_num) hb
  have i := hx.sub lhalf b
  refine ⟨rnd (d - 1 / 2), ?_, c.trans (by norm_num)⟩
  exact toI64_floor64 i (by
    have := abs_le.1 c
    norm_num at this
    rw [abs_le]; constructor <;> linarith)

theorem above64 {x : 𝔻} {d : ℝ} (hx : Is x d) (h0 : -0.4 ≤ d) (h1 : d ≤ 255.4) :
    ∃ w, criticalPlaneAbove x = ⌈w⌉ ∧ |w - (d - 1 / 2)| ≤ 1 / 10 ^ 13 := by
  norm_num at h0 h1
  have hb : |d - 1 / 2| ≤ 256 := by rw [abs_le]; constructor <;> linarith
  obtain ⟨b, c⟩ := rnd_within (v := d - 1 / 2) 256 (by norm_num) hb
  have i := hx.sub lhalf b
  refine ⟨rnd (d - 1 / 2), ?_, c.trans (by norm_num)⟩
  exact toI64_ceil64 i (by
    have := abs_le.1 c
    norm_num at this
    rw [abs_le]; constructor <;> linarith)

/-- The indices computed for two coordinates bracket them. -/
theorem bracket64_init (hL : L.PowOk) {x z : 𝔻} {a b : ℝ} (hx : Is x a) (hz : Is z b) (ha0 : -0.01 ≤ a) (ha1 : a ≤ 100.01)
    (hb0 : -0.01 ≤ b) (hb1 : b ≤ 100.01) (hab : a < b) :
    Bracket64 (criticalPlaneBelow (trueDelinearized x)) (criticalPlaneAbove (trueDelinearized z)) a b := by
  obtain ⟨d, id, d0, d1, du, dl⟩ := td64 hL hx ha0 (ha1.trans (by norm_num))
  obtain ⟨e, ie, e0, e1, eu, el⟩ := td64 hL hz hb0 (hb1.trans (by norm_num))
  obtain ⟨w, ew, cw⟩ := below64 id d0 d1
  obtain ⟨q, eq, cq⟩ := above64 ie e0 e1
  rw [ew, eq]
  have cw := abs_le.1 cw
  have cq := abs_le.1 cq
  norm_num at d0 d1 e0 e1 cw cq
  refine ⟨?_, ?_, ?_, ?_, ?_⟩
  · rw [Int.le_floor]; push_cast; linarith
  · rw [Int.ceil_le]; push_cast; linarith
  · by_contra hc
    push Not at hc
    -- an index two too small would put a plane between them the wrong way round
    have hlo : -1 ≤ ⌈q⌉ := by
      have : ((-2 : ℤ) : ℝ) < ⌈q⌉ := lt_of_lt_of_le (by push_cast; linarith) (Int.le_ceil q)
      have : -2 < ⌈q⌉ := by exact_mod_cast this
      omega
    have hq := Int.le_ceil q
    have hw := Int.floor_le w
    obtain ⟨n, hn⟩ := Int.eq_ofNat_of_zero_le (show 0 ≤ ⌈q⌉ + 1 by omega)
    have hn' : ((⌈q⌉ : ℤ) : ℝ) = (n : ℝ) - 1 := by
      have : ((⌈q⌉ + 1 : ℤ) : ℝ) = (n : ℝ) := by rw [hn]; norm_num
      push_cast at this; linarith
    have hwn : (n : ℝ) + 1 ≤ w := by
      have : ((⌈q⌉ + 2 : ℤ) : ℝ) ≤ (⌊w⌋ : ℝ) := by exact_mod_cast (show ⌈q⌉ + 2 ≤ ⌊w⌋ by omega)
      push_cast at this; linarith
    have hn255 : n < 255 := by
      have : (n : ℝ) < 255 := by linarith
      exact_mod_cast this
    have h1 : plane n * (1 - 4 / 10 ^ 13) < a := by
      by_contra hcon
      have := dl n hn255 (not_lt.1 hcon)
      linarith
    have h2 : b < plane n * (1 + 4 / 10 ^ 13) := by
      by_contra hcon
      have := eu n hn255 (not_lt.1 hcon)
      linarith
    rcases Nat.lt_or_ge (n + 1) 255 with hs | hs
    · have h3 : plane (n + 1) * (1 - 4 / 10 ^ 13) < a := by
        by_contra hcon
        have := dl (n + 1) hs (not_lt.1 hcon)
        push_cast at this
        linarith
      have h4 := plane_mono (m := n) (n := n + 1) (by omega) hs
      have h5 := plane_high hs
      norm_num at h2 h3 h4 h5
      linarith
    · have : (254 : ℝ) ≤ n := by exact_mod_cast (show 254 ≤ n by omega)
      linarith
  · intro m hm hlt
    by_contra hcon
    have h1 := du m hm (not_le.1 hcon).le
    rw [Int.floor_lt] at hlt
    push_cast at hlt
    linarith
  · intro m hm hlt
    by_contra hcon
    have h1 := el m hm (not_le.1 hcon).le
    rw [Int.lt_ceil] at hlt
    push_cast at hlt
    linarith

/-- The index of the middle plane. -/
theorem mid_eq64 {l r : Int} (h0 : -1 ≤ min l r) (h1 : max l r ≤ 255) :
    Fl.toI64 (Fl.floor (Fl.ofInt (l + r) / (2.0 : 𝔻))) = (l + r) / 2 := by
  have hs : |l + r| ≤ 510 := by rw [abs_le]; omega
  have i1 : Is (Fl.ofInt (l + r) : 𝔻) ((l + r : ℤ) : ℝ) := is_ofInt (hs.trans (by norm_num))
  have l2 : Is (2.0 : 𝔻) 2 := by simpa using lit (L := L) 20 1 true 2 (by norm_num) (by norm_num)
  have hr : Rep (((l + r : ℤ) : ℝ) / 2) := by
    refine ⟨l + r, -1, by omega, by norm_num, ?_⟩
    rw [zpow_neg_one]; ring
  have hbound : |((l + r : ℤ) : ℝ) / 2| ≤ 255 := by
    rw [abs_div, ← Int.cast_abs, abs_of_pos (show (0 : ℝ) < 2 by norm_num), div_le_iff₀ (by norm_num)]
    have : ((|l + r| : ℤ) : ℝ) ≤ ((510 : ℤ) : ℝ) := by exact_mod_cast hs
    push_cast at this ⊢; linarith
  have i2 := i1.div l2 (by norm_num) (rnd_ok (hbound.trans (by norm_num))).1
  rw [hr.rnd_eq] at i2
  rw [toI64_floor64 i2 (hbound.trans (by norm_num))]
  have := Int.floor_div_natCast (((l + r : ℤ) : ℝ)) 2
  rw [Int.floor_intCast] at this
  exact_mod_cast this

theorem planes_length64 : (criticalPlanes : List 𝔻).length = 255 := by
  have := planes_length
  rw [criticalPlanes, List.length_map] at *
  exact this

/-- The inner loop never leaves the table, whatever the points are. -/
theorem limLoop_inBounds (hue : 𝔻) (axis : Fin 3) (n : Nat) : ∀ s : LimState 𝔻, -1 ≤ min s.lPlane s.rPlane →
    max s.lPlane s.rPlane ≤ 255 → s.inBounds = true → (limLoop hue axis n s).inBounds = true := by
  induction n with
  | zero => intro s _ _ h; simpa [limLoop] using h
  | succ n ih =>
    intro s h0 h1 h
    simp only [limLoop]
    split
    · exact h
    · next hd =>
      have hm := mid_eq64 (L := L) h0 h1
      have hr : min s.lPlane s.rPlane < (s.lPlane + s.rPlane) / 2 ∧ (s.lPlane + s.rPlane) / 2 < max s.lPlane s.rPlane := by
        constructor <;> omega
      rw [hm, planes_length64]
      have hok : decide (0 ≤ (s.lPlane + s.rPlane) / 2 ∧ (s.lPlane + s.rPlane) / 2 < ((255 : ℕ) : Int)) = true := by
        rw [decide_eq_true_eq]; constructor <;> push_cast <;> omega
      rw [hok, h]
      split
      · exact ih _ (by simp only; omega) (by simp only; omega) rfl
      · exact ih _ (by simp only; omega) (by simp only; omega) rfl

end Mcu.Lemmas
