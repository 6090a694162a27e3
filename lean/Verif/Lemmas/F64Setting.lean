import Verif.Lemmas.F64Rounds
import Verif.Props.Solver

/-! Hue and chroma of the exact search in IEEE-754 binary64. -/

namespace Mcu.Lemmas

open Mcu.Ieee Props Props.Binary64 MathUtils ColorUtils HctSolver Real

variable {L : Libm}

local notation "𝔻" => F64 L

theorem in_p1 (hL : L.PowOk) (hR : L.TrigOk) {hr : 𝔻} (h : In hr 0 7) : In (p1Of hr) 2000 5000 := by
  obtain ⟨x, ix, x0, x1⟩ := h.add (in_lit (L := L) (m := 20) (s := true) (e := 1) 2 (by norm_num) (by norm_num [abs_le])) 1.9 9.1 (by norm_num) (by norm_num) (by norm_num) (by norm_num)
  obtain ⟨f1, e1, -, -⟩ := hR (hr + 2.0 : 𝔻) ix.1 (by rw [ix.2]; norm_num at x0; linarith) (by rw [ix.2]; norm_num at x1; linarith)
  have hc : In (Fl.cos (hr + 2.0) : 𝔻) (-1.0001) 1.0001 := by
    refine ⟨_, ⟨f1, rfl⟩, ?_⟩
    change -1.0001 ≤ Dbl.val (L.cos (hr + 2.0 : 𝔻)) ∧ Dbl.val (L.cos (hr + 2.0 : 𝔻)) ≤ 1.0001
    have c1 := Real.neg_one_le_cos (Dbl.val (hr + 2.0 : 𝔻))
    have c2 := Real.cos_le_one (Dbl.val (hr + 2.0 : 𝔻))
    rw [abs_le] at e1
    change _ ≤ Dbl.val (L.cos (hr + 2.0 : 𝔻)) - Real.cos (Dbl.val (hr + 2.0 : 𝔻)) ∧ Dbl.val (L.cos (hr + 2.0 : 𝔻)) - Real.cos (Dbl.val (hr + 2.0 : 𝔻)) ≤ _ at e1
    generalize Real.cos (Dbl.val (hr + 2.0 : 𝔻)) = q at *
    generalize Dbl.val (L.cos (hr + 2.0 : 𝔻)) = w at *
    norm_num at *; constructor <;> linarith
  have a := hc.add (in_lit (L := L) (m := 38) (s := true) (e := 1) 3.8 (by norm_num) (by norm_num [abs_le])) 2.79 4.81 (by norm_num) (by norm_num) (by norm_num) (by norm_num)
  have b := (in_lit (L := L) (m := 25) (s := true) (e := 2) 0.25 (by norm_num) (by norm_num [abs_le])).mul a 0.69 1.21 (by norm_num) (by norm_num) (by norm_num) (by norm_num) (by norm_num) (by norm_num)
  have c := (in_lit (L := L) (m := 500000) (s := true) (e := 1) 50000 (by norm_num) (by norm_num [abs_le])).div
    (in_lit (L := L) (m := 130) (s := true) (e := 1) 13 (by norm_num) (by norm_num [abs_le])) 3846 3847 (by norm_num) (by norm_num) (by norm_num) (by norm_num) (by norm_num) (by norm_num)
  have d := b.mul c 2650 4660 (by norm_num) (by norm_num) (by norm_num) (by norm_num) (by norm_num) (by norm_num)
  have e := d.mul in_f 2600 4700 (by norm_num) (by norm_num) (by norm_num) (by norm_num) (by norm_num) (by norm_num)
  have g : In (vc64 L).ncb 1.0169 1.01694 := in_nbb hL
  exact e.mul g _ _ (by norm_num) (by norm_num) (by norm_num) (by norm_num) (by norm_num) (by norm_num)

theorem setting_of (hL : L.PowOk) (hR : L.TrigOk) {hr C : 𝔻} (h : In hr 0 7) (hc : Dbl.Fin C) (c0 : 1 / 10 ^ 5 ≤ Dbl.val C) (c1 : Dbl.val C ≤ 10 ^ 50) : Setting hr C := by
  obtain ⟨p, ip, p0, p1⟩ := in_p1 hL hR h
  obtain ⟨x, ix, x0, x1⟩ := h
  obtain ⟨f1, e1, f2, e2⟩ := hR hr ix.1 (by rw [ix.2]; exact x0) (by rw [ix.2]; linarith)
  have ec : (ray64 hr C).c = Dbl.val (L.cos hr) := rfl
  have es : (ray64 hr C).s = Dbl.val (L.sin hr) := rfl
  have ep : (ray64 hr C).p1 = p := ip.2
  have sq := Real.cos_sq_add_sin_sq (Dbl.val hr)
  have a1 := Real.neg_one_le_cos (Dbl.val hr)
  have a2 := Real.cos_le_one (Dbl.val hr)
  have b1 := Real.neg_one_le_sin (Dbl.val hr)
  have b2 := Real.sin_le_one (Dbl.val hr)
  have hk : |(ray64 hr C).c| ≤ 1.001 ∧ |(ray64 hr C).s| ≤ 1.001 ∧ 0.99 ≤ |(ray64 hr C).c| + |(ray64 hr C).s| ∧ (ray64 hr C).c ^ 2 + (ray64 hr C).s ^ 2 ≤ 1.001 := by
    rw [ec, es]
    generalize Dbl.val (L.cos hr) = u at *
    generalize Dbl.val (L.sin hr) = v at *
    generalize Real.cos (Dbl.val hr) = c at *
    generalize Real.sin (Dbl.val hr) = s at *
    have A1 : |c| ≤ 1 := abs_le.2 ⟨a1, a2⟩
    have A2 : |s| ≤ 1 := abs_le.2 ⟨b1, b2⟩
    have A3 : 1 ≤ |c| + |s| := by
      have h1 : c ^ 2 ≤ |c| := by rw [← sq_abs]; nlinarith [abs_nonneg c]
      have h2 : s ^ 2 ≤ |s| := by rw [← sq_abs]; nlinarith [abs_nonneg s]
      linarith
    have B1 : |u| ≤ |c| + 1 / 10 ^ 12 := by
      have := abs_add_le c (u - c); rw [add_sub_cancel] at this; linarith
    have B2 : |v| ≤ |s| + 1 / 10 ^ 12 := by
      have := abs_add_le s (v - s); rw [add_sub_cancel] at this; linarith
    have B3 : |c| ≤ |u| + 1 / 10 ^ 12 := by
      have := abs_add_le u (c - u); rw [add_sub_cancel, abs_sub_comm c u] at this; linarith
    have B4 : |s| ≤ |v| + 1 / 10 ^ 12 := by
      have := abs_add_le v (s - v); rw [add_sub_cancel, abs_sub_comm s v] at this; linarith
    refine ⟨by norm_num at *; linarith, by norm_num at *; linarith, by norm_num at *; linarith, ?_⟩
    have C1 : u ^ 2 ≤ c ^ 2 + 3 / 10 ^ 12 := by
      rw [← sq_abs u, ← sq_abs c]
      refine (pow_le_pow_left₀ (abs_nonneg u) B1 2).trans ?_
      rw [add_sq]; norm_num at *; linarith
    have C2 : v ^ 2 ≤ s ^ 2 + 3 / 10 ^ 12 := by
      rw [← sq_abs v, ← sq_abs s]
      refine (pow_le_pow_left₀ (abs_nonneg v) B2 2).trans ?_
      rw [add_sq]; norm_num at *; linarith
    norm_num at *; linarith
  exact ⟨⟨f1, rfl⟩, ⟨f2, rfl⟩, hk.1, hk.2.1, hk.2.2.1, hk.2.2.2, ⟨ip.1, rfl⟩, by rw [ep]; exact p0, by rw [ep]; exact p1, hc, c0, c1⟩

/-- A luminance within 1.12 % (in the dark 6.72 %) has an L* within 0.4351. -/
theorem lstar_close64 {y f : ℝ} (hy0 : 0 < y) (hy1 : y ≤ 100)
    (h1 : 1 / 2 ≤ y → 0.9888 * y ≤ f ∧ f ≤ 1.0112 * y) (h2 : 0.9448 * y ≤ f ∧ f ≤ 1.0672 * y) :
    |lstarFromY f - lstarFromY y| ≤ 0.4351 := by
  have hl := lstarFromY_lipschitz f y
  rcases lt_or_ge y (1 / 2) with h | h
  · refine hl.trans ?_
    have : |f - y| ≤ 0.0672 * y := by
      rw [abs_le]; norm_num at *; constructor <;> linarith [h2.1, h2.2]
    norm_num at *; linarith
  · obtain ⟨a, b⟩ := h1 h
    rcases lt_or_ge y 1 with h' | h'
    · refine hl.trans ?_
      have : |f - y| ≤ 0.0112 * y := by
        rw [abs_le]; norm_num at *; constructor <;> linarith
      norm_num at *; linarith
    · have g1 : 216 / 24389 ≤ y / 100 := by norm_num; linarith
      have g2 : 216 / 24389 ≤ f / 100 := by norm_num at *; linarith
      rw [lstarFromY_eq, lstarFromY_eq, labF_of_ge g1, labF_of_ge g2]
      have hc0 : 0 ≤ (y / 100) ^ (1 / 3 : ℝ) := by positivity
      have hc1 : (y / 100) ^ (1 / 3 : ℝ) ≤ 1 := rpow_le_one (by positivity) (by linarith) (by norm_num)
      have up : (f / 100) ^ (1 / 3 : ℝ) ≤ 1.00375 * (y / 100) ^ (1 / 3 : ℝ) := by
        calc (f / 100) ^ (1 / 3 : ℝ) ≤ (1.00375 ^ 3 * (y / 100)) ^ (1 / 3 : ℝ) := by
              apply rpow_le_rpow (by norm_num at *; linarith) _ (by norm_num)
              norm_num at *; linarith
          _ = _ := by
              rw [mul_rpow (by norm_num) (by positivity), ← rpow_natCast, ← rpow_mul (by norm_num)]; norm_num
      have lo : 0.99625 * (y / 100) ^ (1 / 3 : ℝ) ≤ (f / 100) ^ (1 / 3 : ℝ) := by
        calc _ = (0.99625 ^ 3 * (y / 100)) ^ (1 / 3 : ℝ) := by
              rw [mul_rpow (by norm_num) (by positivity), ← rpow_natCast, ← rpow_mul (by norm_num)]; norm_num
          _ ≤ _ := by
              apply rpow_le_rpow (by positivity) _ (by norm_num)
              norm_num at *; linarith
      rw [abs_le]
      generalize (f / 100) ^ (1 / 3 : ℝ) = p at *
      generalize (y / 100) ^ (1 / 3 : ℝ) = q at *
      norm_num at *; constructor <;> linarith

end Mcu.Lemmas
