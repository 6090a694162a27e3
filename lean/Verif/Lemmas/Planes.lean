import Verif.Model.HctSolver
import Verif.Lemmas.Srgb

/-! The table of critical planes: every literal is within 1e-13 of the exact linear value at which the
encoded channel is `m + 1/2`, and the table is increasing. -/

namespace Mcu.Lemmas

open Mcu.HctSolver Real

/-- The table entries in units of 1e-18. -/
def planeScaled (p : Nat × Nat) : Nat := p.1 * 10 ^ (18 - p.2)

/-- Entry `m` lies within 1e-13 of the exact plane, as an inequality between natural numbers. -/
def planeOk (m : Nat) (p : Nat × Nat) : Bool :=
  p.2 ≤ 18 &&
  if m < 10 then
    -- |T - (m + 1/2) / 255 / 12.92 * 100| ≤ 1e-13
    (planeScaled p) * (255 * 1292) ≤ (2 * m + 1) * 5000 * 10 ^ 18 + 100000 * (255 * 1292) &&
    (2 * m + 1) * 5000 * 10 ^ 18 ≤ (planeScaled p + 100000) * (255 * 1292)
  else
    100000 ≤ planeScaled p &&
    (1000 * m + 14525) ^ 12 * 10 ^ 100 ≤ (planeScaled p + 100000) ^ 5 * 269025 ^ 12 &&
    (planeScaled p - 100000) ^ 5 * 269025 ^ 12 ≤ (1000 * m + 14525) ^ 12 * 10 ^ 100

def planesOk : Bool :=
  criticalPlanesTable.length == 255 &&
  (List.range 255).all fun m => planeOk m (criticalPlanesTable.getD m (0, 0))

theorem planesOk_true : planesOk = true := by decide +kernel

/-- Consecutive entries are at least 0.03 apart. -/
def planesGap : Bool :=
  (List.range 254).all fun m =>
    planeScaled (criticalPlanesTable.getD m (0, 0)) + 3 * 10 ^ 16 ≤
      planeScaled (criticalPlanesTable.getD (m + 1) (0, 0))

theorem planesGap_true : planesGap = true := by decide +kernel

theorem ofScientific_real (d e : Nat) : (OfScientific.ofScientific d true e : ℝ) = d / 10 ^ e := by
  rw [NNRatCast.ofScientific_eq_ite]
  simp

/-- Plane `m` as a real number. -/
noncomputable def plane (m : Nat) : ℝ := (criticalPlanes : List ℝ).getD m 0.0

theorem planes_length : (criticalPlanes : List ℝ).length = 255 := by
  rw [criticalPlanes, List.length_map]
  have h := planesOk_true
  unfold planesOk at h
  rw [Bool.and_eq_true] at h
  exact beq_iff_eq.1 h.1

theorem planeOk_of {m : Nat} (h : m < 255) :
    planeOk m (criticalPlanesTable.getD m (0, 0)) = true := by
  have ht := planesOk_true
  unfold planesOk at ht
  rw [Bool.and_eq_true, List.all_eq_true] at ht
  exact ht.2 m (List.mem_range.2 h)

theorem plane_eq {m : Nat} (h : m < 255) :
    plane m = (planeScaled (criticalPlanesTable.getD m (0, 0)) : ℝ) / 10 ^ 18 := by
  have hl : m < criticalPlanesTable.length := by
    have := planes_length
    rw [criticalPlanes, List.length_map] at this
    omega
  have hok := planeOk_of h
  unfold plane criticalPlanes
  simp only [List.getD_eq_getElem?_getD, List.getElem?_map, List.getElem?_eq_getElem hl, Option.map_some,
    Option.getD_some] at hok ⊢
  set p := criticalPlanesTable[m] with hp
  have h18 : p.2 ≤ 18 := by
    unfold planeOk at hok
    rw [Bool.and_eq_true] at hok
    exact of_decide_eq_true hok.1
  have e := ofScientific_real p.1 p.2
  rw [show (OfScientific.ofScientific p.1 true p.2 : ℝ) = _ from e]
  unfold planeScaled
  push_cast
  rw [div_eq_div_iff (by positivity) (by positivity), mul_assoc, ← pow_add]
  congr 2
  omega

theorem plane_gap {m : Nat} (h : m < 254) : plane m + 0.03 ≤ plane (m + 1) := by
  have ht := planesGap_true
  unfold planesGap at ht
  rw [List.all_eq_true] at ht
  have := of_decide_eq_true (ht m (List.mem_range.2 h))
  rw [plane_eq (by omega), plane_eq (by omega)]
  have hr : (planeScaled (criticalPlanesTable.getD m (0, 0)) : ℝ) + 3 * 10 ^ 16 ≤
      planeScaled (criticalPlanesTable.getD (m + 1) (0, 0)) := by exact_mod_cast this
  rw [div_add' _ _ _ (by positivity), div_le_div_iff_of_pos_right (by positivity)]
  norm_num at hr ⊢
  linarith

theorem plane_mono {m n : Nat} (h : m < n) (hn : n < 255) : plane m + 0.03 ≤ plane n := by
  obtain ⟨k, rfl⟩ := Nat.exists_eq_add_of_lt h
  clear h
  induction k with
  | zero => exact plane_gap (by omega)
  | succ k ih =>
    have h1 := ih (by omega)
    have h2 := plane_gap (m := m + k + 1) (by omega)
    have e : m + (k + 1) + 1 = m + k + 1 + 1 := by omega
    rw [e]
    norm_num at h1 h2 ⊢
    linarith

theorem table_first : criticalPlanesTable.getD 0 (0, 0) = (15176349177441876, 18) := by decide +kernel

theorem plane_low {m : Nat} (h : m < 255) : 0.015 ≤ plane m := by
  have h0 : (0.015 : ℝ) ≤ plane 0 := by
    rw [plane_eq (by norm_num), table_first]
    simp only [planeScaled]
    norm_num
  rcases Nat.eq_zero_or_pos m with rfl | hp
  · exact h0
  · have := plane_mono hp h
    norm_num at this h0 ⊢
    linarith

theorem table_last : criticalPlanesTable.getD 254 (0, 0) = (9955452497210776, 14) := by decide +kernel

theorem plane_high {m : Nat} (h : m < 255) : plane m ≤ 99.6 := by
  have h0 : plane 254 ≤ 99.56 := by
    rw [plane_eq (by norm_num), table_last]
    simp only [planeScaled]
    norm_num
  rcases Nat.lt_or_ge m 254 with hp | hp
  · have := plane_mono hp (by norm_num)
    norm_num at this h0 ⊢
    linarith
  · have : m = 254 := by omega
    subst this
    norm_num at h0 ⊢
    linarith

/-! ### Relation with `trueDelinearized` -/

theorem trueDelinearized_eq (x : ℝ) : trueDelinearized x = encode (x / 100) * 255 := by
  have e100 : (100.0 : ℝ) = 100 := by norm_num
  have e255 : (255.0 : ℝ) = 255 := by norm_num
  simp only [trueDelinearized, e100, e255]
  rfl

theorem plane_linear {m : Nat} (h : m < 10) :
    |plane m - ((m : ℝ) + 1 / 2) / 255 / 12.92 * 100| ≤ 1e-13 := by
  have hok := planeOk_of (m := m) (by omega)
  unfold planeOk at hok
  simp only [Bool.and_eq_true, if_pos h, decide_eq_true_eq] at hok
  obtain ⟨-, h1, h2⟩ := hok
  rw [plane_eq (by omega)]
  generalize planeScaled (criticalPlanesTable.getD m (0, 0)) = N at *
  have r1 : (N : ℝ) * (255 * 1292) ≤ (2 * m + 1) * 5000 * 10 ^ 18 + 100000 * (255 * 1292) := by
    exact_mod_cast h1
  have r2 : (2 * (m : ℝ) + 1) * 5000 * 10 ^ 18 ≤ (N + 100000) * (255 * 1292) := by exact_mod_cast h2
  rw [abs_le]
  norm_num at r1 r2 ⊢
  constructor <;> linarith

theorem plane_power {m : Nat} (h : 10 ≤ m) (h' : m < 255) :
    ((1000 * (m : ℝ) + 14525) / 269025) ^ 12 ≤ ((plane m + 1e-13) / 100) ^ 5 ∧
    ((plane m - 1e-13) / 100) ^ 5 ≤ ((1000 * (m : ℝ) + 14525) / 269025) ^ 12 := by
  have hok := planeOk_of h'
  unfold planeOk at hok
  simp only [Bool.and_eq_true, if_neg (show ¬ m < 10 by omega), decide_eq_true_eq] at hok
  obtain ⟨-, ⟨h0, h1⟩, h2⟩ := hok
  rw [plane_eq h']
  generalize planeScaled (criticalPlanesTable.getD m (0, 0)) = N at *
  have r1 : ((1000 * m + 14525 : ℕ) : ℝ) ^ 12 * 10 ^ 100 ≤ ((N + 100000 : ℕ) : ℝ) ^ 5 * 269025 ^ 12 := by
    exact_mod_cast h1
  have r2 : ((N - 100000 : ℕ) : ℝ) ^ 5 * 269025 ^ 12 ≤ ((1000 * m + 14525 : ℕ) : ℝ) ^ 12 * 10 ^ 100 := by
    exact_mod_cast h2
  rw [Nat.cast_sub h0] at r2
  push_cast at r1 r2
  have e1 : ((N : ℝ) / 10 ^ 18 + 1e-13) / 100 = (N + 100000) / 10 ^ 20 := by norm_num; ring
  have e2 : ((N : ℝ) / 10 ^ 18 - 1e-13) / 100 = (N - 100000) / 10 ^ 20 := by norm_num; ring
  rw [e1, e2]
  generalize (N : ℝ) + 100000 = A at *
  generalize (N : ℝ) - 100000 = B at *
  generalize 1000 * (m : ℝ) + 14525 = C at *
  rw [div_pow, div_pow, div_pow]
  constructor
  · rw [div_le_div_iff₀ (by positivity) (by positivity), ← pow_mul]
    exact r1
  · rw [div_le_div_iff₀ (by positivity) (by positivity), ← pow_mul]
    exact r2

/-- A value above the plane is encoded at or above `m + 1/2`. -/
theorem td_of_ge {m : Nat} (h : m < 255) {x : ℝ} (hx : plane m + 1e-13 ≤ x) :
    (m : ℝ) + 1 / 2 ≤ trueDelinearized x := by
  rw [trueDelinearized_eq]
  rcases Nat.lt_or_ge m 10 with hm | hm
  · have hp := (abs_le.1 (plane_linear hm)).1
    by_cases hb : x / 100 ≤ 0.0031308
    · unfold encode
      rw [if_pos hb]
      norm_num at hp hx ⊢
      linarith
    · have h1 := encode_break hb
      have h2 : (m : ℝ) ≤ 9 := by exact_mod_cast Nat.le_of_lt_succ hm
      norm_num at h1
      linarith
  · have hp := (plane_power hm h).1
    have hpos := plane_low h
    have hm' : (10 : ℝ) ≤ m := by exact_mod_cast hm
    set u : ℝ := (1000 * (m : ℝ) + 14525) / 269025 with hu
    have hu0 : 0 ≤ u := by positivity
    have hx0 : 0 ≤ x / 100 := by norm_num at hpos hx; linarith
    have hx5 : u ^ 12 ≤ (x / 100) ^ 5 := by
      refine hp.trans ?_
      apply pow_le_pow_left₀
      · norm_num at hpos ⊢; linarith
      · norm_num at hx ⊢; linarith
    have hb : ¬ x / 100 ≤ 0.0031308 := by
      intro hb
      have h1 : (x / 100) ^ 5 ≤ 0.0031308 ^ 5 := pow_le_pow_left₀ hx0 hb 5
      have h2 : (0.0911 : ℝ) ≤ u := by
        rw [hu, le_div_iff₀ (by norm_num)]; norm_num; linarith
      have h3 : (0.0911 : ℝ) ^ 12 ≤ u ^ 12 := pow_le_pow_left₀ (by norm_num) h2 12
      norm_num at h1 h3
      linarith
    unfold encode
    rw [if_neg hb]
    have hr : u ≤ (x / 100) ^ (1.0 / 2.4 : ℝ) := by
      rw [e124]; exact le_rpow_of_pow_le (by norm_num) hu0 hx0 hx5
    have : 1.055 * u - 0.055 = ((m : ℝ) + 1 / 2) / 255 := by rw [hu]; norm_num; ring
    have h4 : 1.055 * u - 0.055 ≤ 1.055 * (x / 100) ^ (1.0 / 2.4 : ℝ) - 0.055 := by gcongr
    rw [this, div_le_iff₀ (by norm_num)] at h4
    exact h4

/-- A value below the plane is encoded at or below `m + 1/2`. -/
theorem td_of_le {m : Nat} (h : m < 255) {x : ℝ} (hx : x ≤ plane m - 1e-13) :
    trueDelinearized x ≤ (m : ℝ) + 1 / 2 := by
  rw [trueDelinearized_eq]
  rcases Nat.lt_or_ge m 10 with hm | hm
  · have hp := (abs_le.1 (plane_linear hm)).2
    have h2 : (m : ℝ) ≤ 9 := by exact_mod_cast Nat.le_of_lt_succ hm
    have hb : x / 100 ≤ 0.0031308 := by
      norm_num at hp hx ⊢
      linarith
    unfold encode
    rw [if_pos hb]
    norm_num at hp hx ⊢
    linarith
  · have hp := (plane_power hm h).2
    have hm' : (10 : ℝ) ≤ m := by exact_mod_cast hm
    by_cases hb : x / 100 ≤ 0.0031308
    · unfold encode
      rw [if_pos hb]
      norm_num at hb ⊢
      linarith
    · have hx0 : 0 ≤ x / 100 := by norm_num at hb ⊢; linarith
      set u : ℝ := (1000 * (m : ℝ) + 14525) / 269025 with hu
      have hu0 : 0 ≤ u := by positivity
      have hx5 : (x / 100) ^ 5 ≤ u ^ 12 := by
        refine le_trans ?_ hp
        apply pow_le_pow_left₀ hx0
        norm_num at hx ⊢; linarith
      unfold encode
      rw [if_neg hb]
      have hr : (x / 100) ^ (1.0 / 2.4 : ℝ) ≤ u := by
        rw [e124]; exact rpow_le_of_le_pow (by norm_num) hu0 hx0 hx5
      have : 1.055 * u - 0.055 = ((m : ℝ) + 1 / 2) / 255 := by rw [hu]; norm_num; ring
      have h4 : 1.055 * (x / 100) ^ (1.0 / 2.4 : ℝ) - 0.055 ≤ 1.055 * u - 0.055 := by gcongr
      rw [this, le_div_iff₀ (by norm_num)] at h4
      exact h4

/-- The encoded value of a coordinate in (slightly more than) the cube is in 0..255 with slack. -/
theorem td_range {x : ℝ} (h0 : -0.001 ≤ x) (h1 : x ≤ 100.001) :
    -0.1 ≤ trueDelinearized x ∧ trueDelinearized x ≤ 255.1 := by
  rw [trueDelinearized_eq]
  by_cases hb : x / 100 ≤ 0.0031308
  · unfold encode
    rw [if_pos hb]
    norm_num at *
    constructor <;> linarith
  · have hx0 : 0 ≤ x / 100 := by norm_num at hb ⊢; linarith
    unfold encode
    rw [if_neg hb]
    have h2 : 0 ≤ (x / 100) ^ (1.0 / 2.4 : ℝ) := by positivity
    have h3 : (x / 100) ^ (1.0 / 2.4 : ℝ) ≤ 1.0001 := by
      rw [e124]; apply rpow_le_of_le_pow (by norm_num) (by norm_num) hx0
      have : x / 100 ≤ 1.00001 := by norm_num at h1 ⊢; linarith
      calc (x / 100) ^ 5 ≤ 1.00001 ^ 5 := pow_le_pow_left₀ hx0 this 5
        _ ≤ 1.0001 ^ 12 := by norm_num
    have h4 := encode_break hb
    unfold encode at h4
    rw [if_neg hb] at h4
    norm_num at h2 h3 h4 ⊢
    constructor <;> linarith

end Mcu.Lemmas
