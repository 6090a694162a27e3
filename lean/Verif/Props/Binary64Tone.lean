import Verif.Lemmas.F64Find

/-! The tone of the colour the HCT solver finds, in IEEE-754 binary64. -/

namespace Mcu.Props.Binary64

open Mcu.Ieee MathUtils ColorUtils HctSolver Lemmas

variable {L : Libm}

local notation "𝔻" => F64 L

/-- The hue in radians the solver computes with. -/
noncomputable def radians (h : 𝔻) : 𝔻 := sanitizeDegreesDouble h / 180.0 * Fl.pi

theorem solve_cases (hL : L.PowOk) (h c t : 𝔻) (ht : Fin t) (h0 : 0 ≤ val t) (h1 : val t ≤ 100) :
    |val (lstarFromArgb (solveToInt h c t) : 𝔻) - val t| ≤ 0.471 ∨
    ((∀ m, m ≤ 4 → Passed (candidate (radians h) c (yFromLstar t) m)) ∧
      ¬ ((candidate (radians h) c (yFromLstar t) 4).x0 > 100.01 ∨ (candidate (radians h) c (yFromLstar t) 4).x1 > 100.01 ∨
        (candidate (radians h) c (yFromLstar t) 4).x2 > 100.01) ∧
      ¬ (c < 0.0001 ∨ t < 0.0001 ∨ t > 99.9999) ∧ findResultByJ (radians h) c (yFromLstar t) ≠ 0 ∧
      solveToInt h c t = argbFromLinrgb (candidate (radians h) c (yFromLstar t) 4)) := by
  have near := Ap.val_near (ap_lstarFromArgb hL (solveToInt h c t))
  by_cases c1 : c < 0.0001 ∨ t < 0.0001 ∨ t > 99.9999
  · left
    have e : solveToInt h c t = argbFromLstar t := by simp only [solveToInt]; rw [if_pos c1]
    rw [e]
    have := c16_binary64_accuracy hL t ht h0 h1
    norm_num at this ⊢; linarith
  obtain ⟨v, iv, v0, v1, dv⟩ := is_target ⟨ht, rfl⟩ h0 (fun hh => c1 (.inr (.inr hh)))
  have dl := lstarFromY_lipschitz v (yFromLstar (val t))
  rw [c11_lstar_y_lstar] at dl
  have dl := dl.trans (mul_le_mul_of_nonneg_left (show |v - yFromLstar (val t)| ≤ 2 / 10 ^ 8 from dv) (by norm_num))
  have fin : ∀ {argb : Int} {b : ℝ}, solveToInt h c t = argb → |(lstarFromArgb argb : ℝ) - lstarFromY v| ≤ b → b ≤ 0.4702 →
      |val (lstarFromArgb (solveToInt h c t) : 𝔻) - val t| ≤ 0.471 := by
    intro argb b e hb hb1
    rw [e] at near ⊢
    have a1 := abs_le.1 near.2
    have a2 := abs_le.1 hb
    have a3 := abs_le.1 dl
    rw [abs_le]
    generalize val (lstarFromArgb argb : 𝔻) = z at *
    generalize (lstarFromArgb argb : ℝ) = z' at *
    norm_num at *
    constructor <;> linarith
  have e : solveToInt h c t = if findResultByJ (radians h) c (yFromLstar t) ≠ 0 then findResultByJ (radians h) c (yFromLstar t)
      else argbFromLinrgb (bisectToLimit (yFromLstar t) (radians h)) := by
    simp only [solveToInt]; rw [if_neg c1]; rfl
  by_cases c2 : findResultByJ (radians h) c (yFromLstar t) = 0
  · left
    rw [if_neg (not_not.2 c2)] at e
    exact fin e (limit64_color hL _ _ iv v0 v1) (by norm_num)
  · rw [if_pos c2] at e
    rcases find_result (radians h) c (yFromLstar t) 5 0 rfl with hr | ⟨i, hi, hp, hcube, hclose, hr⟩
    · exact absurd hr c2
    · rcases hclose with rfl | hclose
      · exact .inr ⟨fun m hm => hp m (Nat.zero_le m) hm, hcube, c1, c2, e.trans hr⟩
      · left
        exact fin (e.trans hr) (checked64 hL iv (hp i (Nat.zero_le i) le_rfl) hcube hclose) (by norm_num)

/-- C26 in binary64, whatever doubles hue and chroma are, NaN and infinities included: the tone of the colour found is within
0.471 of the requested tone, or the colour is the one of the fifth round of the exact search, which the code returns without
comparing its luminance with the requested one.  Missing: a bound for that colour; for finite hues and chromas see
`c26_binary64`. -/
theorem c26_binary64_partial (hL : L.PowOk) (h c t : 𝔻) (ht : Fin t) (h0 : 0 ≤ val t) (h1 : val t ≤ 100) :
    |val (lstarFromArgb (solveToInt h c t) : 𝔻) - val t| ≤ 0.471 ∨
    ((∀ m, m ≤ 4 → Passed (candidate (radians h) c (yFromLstar t) m)) ∧
      solveToInt h c t = argbFromLinrgb (candidate (radians h) c (yFromLstar t) 4)) := by
  rcases solve_cases hL h c t ht h0 h1 with h | ⟨h1, -, -, -, h2⟩
  · exact .inl h
  · exact .inr ⟨h1, h2⟩

/-- C26 in binary64: when the exact search fails the tone is within 0.471. -/
theorem c26_binary64_out_of_gamut (hL : L.PowOk) (h c t : 𝔻) (ht : Fin t) (h0 : 0 ≤ val t) (h1 : val t ≤ 100)
    (hf : findResultByJ (radians h) c (yFromLstar t) = 0) :
    |val (lstarFromArgb (solveToInt h c t) : 𝔻) - val t| ≤ 0.471 := by
  rcases solve_cases hL h c t ht h0 h1 with h | ⟨-, -, -, hn, -⟩
  · exact h
  · exact absurd hf hn

/-- C26 in binary64: grays have the requested tone within 0.2601. -/
theorem c26_binary64_gray (hL : L.PowOk) (h c t : 𝔻) (ht : Fin t) (h0 : 0 ≤ val t) (h1 : val t ≤ 100) (hc : c < 0.0001) :
    |val (lstarFromArgb (solveToInt h c t) : 𝔻) - val t| ≤ 0.2601 := by
  rw [(c24_gray h c t (.inl hc)).1]
  exact c16_binary64_accuracy hL t ht h0 h1

/-- The hypotheses are met by tone 50 and chroma 0. -/
example : Fin (L := L) (50.0 : 𝔻) ∧ 0 ≤ val (50.0 : 𝔻) ∧ val (50.0 : 𝔻) ≤ 100 ∧ (0.0 : 𝔻) < 0.0001 := by
  have h : Is (50.0 : 𝔻) 50 := by simpa using lit (L := L) 500 1 true 50 (by norm_num) (by norm_num)
  obtain ⟨w, iw, hw⟩ := ap_lit (L := L) (m := 1) (s := true) (e := 4) (v := 0.0001) rfl (by norm_num [abs_of_pos])
  change Is (0.0001 : 𝔻) w at iw
  refine ⟨h.1, ?_, ?_, ?_⟩
  · rw [show val (50.0 : 𝔻) = 50 from h.2]; norm_num
  · rw [show val (50.0 : 𝔻) = 50 from h.2]; norm_num
  · rw [l0'.lt_iff iw]
    have := abs_le.1 hw
    unfold ρ at this
    norm_num at *; linarith

end Mcu.Props.Binary64
