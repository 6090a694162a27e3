import Verif.Lemmas.SelfBins

/-! A component that is found close enough is encoded as the channel it started from. -/

namespace Mcu.Lemmas

open Mcu.ColorUtils Mcu.MathUtils Mcu.HctSolver Real

/-- Up to the next rounding boundary the power branch grows by more than the search can miss by. -/
theorem gpow_room {v : ℝ} (h0 : 11 / 255 ≤ v) (h1 : v ≤ 1) : 1.001 * gpow v + 0.000148 < gpow (v + 0.4999 / 255) := by
  have hv0 : 0 < v + 0.055 := by norm_num at h0 ⊢; linarith
  have hs0 : 0 ≤ 0.4999 / 255 / (v + 0.055) := by positivity
  have hb := one_add_mul_self_le_rpow_one_add (s := 0.4999 / 255 / (v + 0.055)) (p := 2.4) (by linarith) (by norm_num)
  have e : gpow (v + 0.4999 / 255) = gpow v * (1 + 0.4999 / 255 / (v + 0.055)) ^ (2.4 : ℝ) := by
    unfold gpow
    rw [← mul_rpow (by positivity) (by positivity)]
    congr 1
    field_simp
    ring
  have e2 : gpow v = (v + 0.055) / 1.055 * ((v + 0.055) / 1.055) ^ (1.4 : ℝ) := by
    unfold gpow
    rw [show (2.4 : ℝ) = 1 + 1.4 by norm_num, rpow_add (by positivity), rpow_one]
  have hg : 0 ≤ gpow v := gpow_nonneg (by norm_num at h0 ⊢; linarith)
  have m := mul_le_mul_of_nonneg_left hb hg
  rw [← e] at m
  refine lt_of_lt_of_le ?_ m
  have e14 : (1.4 : ℝ) = ((7 : ℕ) : ℝ) / ((5 : ℕ) : ℝ) := by norm_num
  have hu : (11 / 255 + 0.055) / 1.055 ≤ (v + 0.055) / 1.055 := by gcongr
  have hu1 : (v + 0.055) / 1.055 ≤ 1 := by rw [div_le_one (by norm_num)]; norm_num; linarith
  have hd : gpow v * (2.4 * (0.4999 / 255 / (v + 0.055))) = 2.4 * 0.4999 / 255 / 1.055 * ((v + 0.055) / 1.055) ^ (1.4 : ℝ) := by
    rw [e2]; field_simp
  rw [mul_add, mul_one, hd, e2]
  generalize (v + 0.055) / 1.055 = u at *
  have up : 0 < u := lt_of_lt_of_le (by norm_num) hu
  have key : 0.000148 < u ^ (1.4 : ℝ) * (2.4 * 0.4999 / 255 / 1.055 - 0.001 * u) := by
    rcases le_total u 0.3 with h3 | h3
    · have q : (0.03597 : ℝ) ≤ u ^ (1.4 : ℝ) := by
        rw [e14]
        exact le_rpow_of_pow_le (by norm_num) (by norm_num) up.le (le_trans (by norm_num) (pow_le_pow_left₀ (by norm_num) hu 7))
      generalize u ^ (1.4 : ℝ) = w at *
      have := mul_le_mul q (show (0.004159 : ℝ) ≤ 2.4 * 0.4999 / 255 / 1.055 - 0.001 * u by norm_num at h3 ⊢; linarith) (by norm_num) (by norm_num at q; linarith)
      refine lt_of_lt_of_le (by norm_num) this
    · have q : (0.18 : ℝ) ≤ u ^ (1.4 : ℝ) := by
        rw [e14]
        exact le_rpow_of_pow_le (by norm_num) (by norm_num) up.le (le_trans (by norm_num) (pow_le_pow_left₀ (by norm_num) h3 7))
      generalize u ^ (1.4 : ℝ) = w at *
      have := mul_le_mul q (show (0.0034 : ℝ) ≤ 2.4 * 0.4999 / 255 / 1.055 - 0.001 * u by norm_num at hu1 ⊢; linarith) (by norm_num) (by norm_num at q; linarith)
      refine lt_of_lt_of_le (by norm_num) this
  generalize u ^ (1.4 : ℝ) = w at *
  linarith [key, show w * (2.4 * 0.4999 / 255 / 1.055 - 0.001 * u) = 2.4 * 0.4999 / 255 / 1.055 * w - 0.001 * (u * w) by ring]

theorem encode_lt {x w : ℝ} (hx : 0.0031308 < x) (hw : -0.055 ≤ w) (h : x < gpow w) : encode x < w := by
  have hx0 : 0 ≤ x := by norm_num at hx; linarith
  unfold encode
  rw [if_neg (not_le.2 hx)]
  by_contra hcon
  have := gpow_mono hw (not_lt.1 hcon)
  rw [gpow_encode_pow hx0] at this
  linarith

theorem delinearized_good {x : ℝ} {c : ℤ} (h0 : 0 ≤ c) (h1 : c ≤ 255) (g : Aim.Fair x (linearized c)) : delinearized x = c := by
  rcases le_total x (linearized c) with hx | hx
  · have := g.lo
    refine delinearized_near h0 h1 ?_
    rw [abs_le]
    norm_num at this ⊢
    constructor <;> linarith
  have lo : c ≤ delinearized x := by
    have := delinearized_mono hx
    rwa [delinearized_near h0 h1 (x := linearized c) (by norm_num)] at this
  refine le_antisymm ?_ lo
  have hi := g.hi
  obtain ⟨n, hn⟩ := realRound_int (encode (x / 100) * 255)
  rw [delinearized_of_round hn]
  have hlt : encode (x / 100) * 255 < c + 0.5 := by
    rcases le_or_gt c 10 with hc | hc
    · have hcr : (c : ℝ) ≤ 10 := by exact_mod_cast hc
      rw [linearized_small hc] at hi
      by_cases hb : x / 100 ≤ 0.0031308
      · unfold encode
        rw [if_pos hb]
        norm_num at hi ⊢
        linarith
      · have c10 : c = 10 := by
          by_contra hne
          have : (c : ℝ) ≤ 9 := by exact_mod_cast (show c ≤ 9 by omega)
          norm_num at hi hb
          linarith
        subst c10
        have := encode_lt (not_le.1 hb) (w := 10.5 / 255) (by norm_num) (by
          refine lt_of_le_of_lt (b := 0.0031864) (by norm_num at hi ⊢; linarith) ?_
          unfold gpow; rw [e24]; apply lt_rpow_of_pow_lt <;> norm_num)
        norm_num at this ⊢
        linarith
    · have hc : 11 ≤ c := hc
      have hcr : (11 : ℝ) ≤ c := by exact_mod_cast hc
      have hcr' : (c : ℝ) ≤ 255 := by exact_mod_cast h1
      rw [linearized_large hc] at hi hx
      have room := gpow_room (v := c / 255) (by gcongr) (by rw [div_le_one (by norm_num)]; exact hcr')
      have hbase : (0.0031308 : ℝ) < gpow (c / 255) := by
        calc (0.0031308 : ℝ) < gpow (10.5 / 255) := by
              unfold gpow; rw [e24]; apply lt_rpow_of_pow_lt <;> norm_num
          _ ≤ _ := gpow_mono (by norm_num) (by norm_num; linarith)
      have := encode_lt (x := x / 100) (w := c / 255 + 0.4999 / 255) (by norm_num at hbase hx ⊢; linarith) (by norm_num; linarith)
        (by norm_num at room hi ⊢; linarith)
      norm_num at this ⊢
      linarith
  have hr := abs_le.1 (abs_realRound_sub (encode (x / 100) * 255))
  rw [hn] at hr
  have hnc : (n : ℝ) < c + 1 := by norm_num at hlt hr; linarith [hr.2]
  have hle : n ≤ c := by have : n < c + 1 := by exact_mod_cast hnc
                         omega
  exact (clamp_sat_mono hle).trans (clamp_sat_of_mem h0 h1).le

end Mcu.Lemmas
