import Verif.Props.Binary64Drawn

/-! Property C24 in IEEE-754 binary64: whole turns of the hue. -/

namespace Mcu.Props.Binary64

open Mcu.Ieee MathUtils ColorUtils HctSolver Lemmas

variable {L : Libm}

local notation "𝔻" => F64 L

/-- Finite doubles of the same value other than 0 are equal. -/
theorem eq_of_value {x y : 𝔻} {a : ℝ} (hx : Is x a) (hy : Is y a) (h : a ≠ 0) : x = y := by
  obtain ⟨h1, rfl⟩ := hx
  obtain ⟨h2, e⟩ := hy
  rcases x with _ | s | s | ⟨v, hv⟩
  · exact h1.elim
  · exact h1.elim
  · exact absurd rfl h
  rcases y with _ | t | t | ⟨w, hw⟩
  · exact h2.elim
  · exact h2.elim
  · exact absurd e.symm h
  · change w = v at e
    subst e; rfl

/-- A double above -360 is not too close to it. -/
theorem turn_gap {r : ℝ} (hr : Rep r) (h : -360 < r) : 2 ^ (-44 : ℤ) ≤ r + 360 := by
  obtain ⟨n, e, hn, he, rfl⟩ := hr
  rcases le_or_gt (-44) e with h' | h'
  · obtain ⟨d, hd⟩ := Int.eq_ofNat_of_zero_le (show 0 ≤ e + 44 by omega)
    have e1 : (n : ℝ) * 2 ^ e + 360 = ((n * 2 ^ d + 360 * 2 ^ 44 : ℤ) : ℝ) * 2 ^ (-44 : ℤ) := by
      rw [show e = -44 + d by omega, zpow_add₀ (by norm_num)]
      push_cast; rw [zpow_natCast]; norm_num; ring
    rw [e1]
    have p : (0 : ℝ) < ((n * 2 ^ d + 360 * 2 ^ 44 : ℤ) : ℝ) := by
      by_contra hc
      push Not at hc
      have := mul_nonpos_of_nonpos_of_nonneg hc (two_zpow_pos (-44)).le
      rw [← e1] at this; linarith
    have p' : 1 ≤ n * 2 ^ d + 360 * 2 ^ 44 := by
      have : (0 : ℤ) < n * 2 ^ d + 360 * 2 ^ 44 := by exact_mod_cast p
      omega
    have p2 : (1 : ℝ) ≤ ((n * 2 ^ d + 360 * 2 ^ 44 : ℤ) : ℝ) := by exact_mod_cast p'
    nlinarith [two_zpow_pos (-44)]
  · have h1 : |(n : ℝ) * 2 ^ e| ≤ 256 := by
      rw [abs_mul, abs_of_pos (two_zpow_pos e)]
      have a1 : |(n : ℝ)| ≤ 2 ^ 53 := by exact_mod_cast (by omega : |n| ≤ 2 ^ 53)
      have a2 : (2 : ℝ) ^ e ≤ 2 ^ (-45 : ℤ) := zpow_le_zpow_right₀ (by norm_num) (by omega)
      refine (mul_le_mul a1 a2 (two_zpow_pos e).le (by norm_num)).trans ?_
      norm_num
    have := (abs_le.1 h1).1
    norm_num; linarith

/-- What sanitising gives: the angle in [0, 360), rounded. -/
theorem is_sanitize {x : 𝔻} {a : ℝ} (hx : Is x a) (c : ∀ m : ℤ, a ≠ 360 * m) :
    Is (sanitizeDegreesDouble x) (rnd (a - 360 * (⌊a / 360⌋ : ℤ))) ∧ rnd (a - 360 * (⌊a / 360⌋ : ℤ)) ≠ 0 := by
  have i := hx.fmod l360 (by norm_num)
  have f0 := Int.floor_le (a / 360)
  have f1 := Int.lt_floor_add_one (a / 360)
  have f2 : (⌊a / 360⌋ : ℝ) ≠ a / 360 := fun h => c ⌊a / 360⌋ (by rw [h]; ring)
  have f3 := lt_of_le_of_ne f0 f2
  simp only [sanitizeDegreesDouble]
  by_cases h : 0 ≤ a / 360
  · have t : realTrunc (a / 360) = ⌊a / 360⌋ := by unfold realTrunc; rw [if_pos h]
    rw [t] at i
    have e := i.rep.rnd_eq
    rw [if_neg (by rw [i.lt_iff l0]; push Not; linarith), e]
    exact ⟨i, by intro h'; linarith⟩
  · have t : realTrunc (a / 360) = ⌊a / 360⌋ + 1 := by
      unfold realTrunc; rw [if_neg h, Int.ceil_eq_iff]
      push_cast
      exact ⟨by linarith, by linarith⟩
    rw [t] at i
    push_cast at i
    have g := turn_gap i.rep (by linarith)
    have e : a - 360 * ((⌊a / 360⌋ : ℝ) + 1) + 360 = a - 360 * (⌊a / 360⌋ : ℝ) := by ring
    rw [if_pos (by rw [i.lt_iff l0]; linarith)]
    rw [e] at g
    have m := rnd_mono g
    rw [(rep_zpow (by norm_num)).rnd_eq] at m
    have b : |a - 360 * (⌊a / 360⌋ : ℝ)| ≤ 360 := by rw [abs_le]; constructor <;> linarith
    have s := i.add l360 (by rw [e]; exact rnd_huge (b.trans (by norm_num)))
    rw [e] at s
    exact ⟨s, ((two_zpow_pos (-44)).trans_le m).ne'⟩

/-- C24 (binary64): two hues that differ by whole turns give the same answer, unless they are multiples of 360 themselves (where
one may be 0 and the other -0, between which the math library may distinguish). -/
theorem c24_binary64_hue_mod_360 (h h' c t : 𝔻) (hh : Fin h) (hh' : Fin h') (k : ℤ) (e : val h' = val h + 360 * k) (h0 : ∀ m : ℤ, val h ≠ 360 * m) :
    solveToInt h' c t = solveToInt h c t := by
  have i : Is h (val h) := ⟨hh, rfl⟩
  have i' : Is h' (val h') := ⟨hh', rfl⟩
  obtain ⟨s, p⟩ := is_sanitize i h0
  obtain ⟨s', -⟩ := is_sanitize i' fun m hm => h0 (m - k) (by push_cast; linarith)
  have f : val h' - 360 * (⌊val h' / 360⌋ : ℤ) = val h - 360 * (⌊val h / 360⌋ : ℤ) := by
    rw [e, show (val h + 360 * (k : ℝ)) / 360 = val h / 360 + (k : ℤ) by ring, Int.floor_add_intCast]
    push_cast; ring
  rw [f] at s'
  exact c24_hue_sanitized _ _ _ _ (eq_of_value s' s p)

/-- The hypotheses can be met: hues 1 and 361. -/
example (c t : 𝔻) : solveToInt (361.0 : 𝔻) c t = solveToInt (1.0 : 𝔻) c t := by
  have i1 : Is (1.0 : 𝔻) 1 := l1
  have i2 : Is (361.0 : 𝔻) 361 := by simpa using lit (L := L) 3610 1 true 361 (by norm_num) (by norm_num)
  have e1 : val (1.0 : 𝔻) = 1 := i1.2
  have e2 : val (361.0 : 𝔻) = 361 := i2.2
  refine c24_binary64_hue_mod_360 _ _ _ _ i1.1 i2.1 1 (by rw [e1, e2]; norm_num) fun m hm => ?_
  rw [e1] at hm
  have : (1 : ℤ) = 360 * m := by exact_mod_cast hm
  omega

end Mcu.Props.Binary64
