import Verif.Lemmas.F64Backward
import Verif.Lemmas.F64Find

/-! The product with the matrix from stimuli to linear RGB in IEEE-754 binary64, read backwards: coordinates that are not negative come from
stimuli that are positive and of similar size. -/

namespace Mcu.Lemmas

open Mcu.Ieee Props Props.Binary64 MathUtils ColorUtils HctSolver Real

variable {L : Libm}

local notation "𝔻" => F64 L

/-- The smallest positive double, halved. -/
noncomputable def μ : ℝ := 2 ^ (-1075 : ℤ)

theorem μ_pos : 0 < μ := two_zpow_pos _
theorem μ_small : μ ≤ 1 / 10 ^ 72 := by
  have h1 : (2 : ℝ) ^ (-1075 : ℤ) ≤ 2 ^ (-240 : ℤ) := zpow_le_zpow_right₀ (by norm_num) (by norm_num)
  have h2 : (2 : ℝ) ^ (-240 : ℤ) ≤ 1 / 10 ^ 72 := by norm_num
  exact h1.trans h2

theorem rep_min {v : ℝ} (h : Rep v) (h0 : v ≠ 0) : 2 * μ ≤ |v| := by
  obtain ⟨m, e, -, he, rfl⟩ := h
  have hm : m ≠ 0 := by rintro rfl; simp at h0
  have h1 : (1 : ℝ) ≤ |(m : ℝ)| := by
    rw [← Int.cast_abs]; exact_mod_cast Int.one_le_abs hm
  have h2 : (2 : ℝ) * μ = 2 ^ (-1074 : ℤ) := by
    unfold μ
    rw [show (-1074 : ℤ) = -1075 + 1 by norm_num, zpow_add_one₀ (by norm_num)]; ring
  rw [h2, abs_mul, abs_of_pos (two_zpow_pos e)]
  have h3 : (2 : ℝ) ^ (-1074 : ℤ) ≤ 2 ^ e := zpow_le_zpow_right₀ (by norm_num) he
  nlinarith [two_zpow_pos e]

theorem rnd_tiny {v K S : ℝ} (h : |v| ≤ K * S) : |rnd v - v| ≤ K * (2 / 10 ^ 16) * S + μ := by
  refine (rnd_error v).trans (add_le_add ?_ le_rfl)
  have h3 : (2 : ℝ) ^ (-53 : ℤ) ≤ 2 / 10 ^ 16 := by norm_num
  calc |v| * 2 ^ (-53 : ℤ) ≤ |v| * (2 / 10 ^ 16) := mul_le_mul_of_nonneg_left h3 (abs_nonneg _)
    _ ≤ K * S * (2 / 10 ^ 16) := mul_le_mul_of_nonneg_right h (by norm_num)
    _ = _ := by ring

/-- One row of a product with a matrix. -/
theorem row64 {X Y Z m0 m1 m2 : 𝔻} {x y z c0 c1 c2 S : ℝ} (hX : Is X x) (hY : Is Y y) (hZ : Is Z z)
    (h0 : In m0 (c0 - 1 / 10 ^ 10) (c0 + 1 / 10 ^ 10)) (h1 : In m1 (c1 - 1 / 10 ^ 10) (c1 + 1 / 10 ^ 10)) (h2 : In m2 (c2 - 1 / 10 ^ 10) (c2 + 1 / 10 ^ 10))
    (b0 : |c0| ≤ 1399) (b1 : |c1| ≤ 1399) (b2 : |c2| ≤ 1399) (hx : |x| ≤ S) (hy : |y| ≤ S) (hz : |z| ≤ S) (h : Dbl.Fin (X * m0 + Y * m1 + Z * m2)) :
    ∃ w, Is (X * m0 + Y * m1 + Z * m2) w ∧ |w - (x * c0 + y * c1 + z * c2)| ≤ 1 / 10 ^ 9 * S + 6 * μ ∧ (x = 0 → y = 0 → z = 0 → w = 0) := by
  obtain ⟨d0, i0, l0, u0⟩ := h0
  obtain ⟨d1, i1, l1, u1⟩ := h1
  obtain ⟨d2, i2, l2, u2⟩ := h2
  obtain ⟨f1, f2⟩ := fin_add h
  have jz := inv_mul hZ i2 f2
  obtain ⟨v, iv, jw⟩ := inv_add jz h
  obtain ⟨f3, f4⟩ := fin_add iv.1
  have jy := inv_mul hY i1 f4
  obtain ⟨u, iu, jv⟩ := inv_add jy iv.1
  obtain rfl := iv.unique jv
  have jx := inv_mul hX i0 iu.1
  obtain rfl := iu.unique jx
  refine ⟨_, jw, ?_, ?_⟩
  swap
  · rintro rfl rfl rfl
    simp [rnd_zero]
  have S0 : 0 ≤ S := (abs_nonneg _).trans hx
  have a0 : |d0 - c0| ≤ 1 / 10 ^ 10 := by rw [abs_le]; constructor <;> linarith
  have a1 : |d1 - c1| ≤ 1 / 10 ^ 10 := by rw [abs_le]; constructor <;> linarith
  have a2 : |d2 - c2| ≤ 1 / 10 ^ 10 := by rw [abs_le]; constructor <;> linarith
  have t0 := abs_mul_le hx a0
  have t1 := abs_mul_le hy a1
  have t2 := abs_mul_le hz a2
  have b0' : |d0| ≤ 1400 := by rw [abs_le] at *; norm_num at *; constructor <;> linarith
  have b1' : |d1| ≤ 1400 := by rw [abs_le] at *; norm_num at *; constructor <;> linarith
  have b2' : |d2| ≤ 1400 := by rw [abs_le] at *; norm_num at *; constructor <;> linarith
  have s0 := abs_mul_le hx b0'
  have s1 := abs_mul_le hy b1'
  have s2 := abs_mul_le hz b2'
  rw [mul_comm S] at s0 s1 s2
  have e0 := rnd_tiny s0
  have e1 := rnd_tiny s1
  have e2 := rnd_tiny s2
  rw [mul_sub] at t0 t1 t2
  generalize x * d0 = xd at *
  generalize y * d1 = yd at *
  generalize z * d2 = zd at *
  generalize x * c0 = xc at *
  generalize y * c1 = yc at *
  generalize z * c2 = zc at *
  generalize rnd xd = x' at *
  generalize rnd yd = y' at *
  generalize rnd zd = z' at *
  clear i0 i1 i2 jz jy jx jw iv iu jv h f1 f2 f3 f4 hX hY hZ hx hy hz b0' b1' b2' b0 b1 b2 l0 u0 l1 u1 l2 u2 a0 a1 a2
  have m0 := μ_pos
  have b : |x' + y'| ≤ 1 * (3000 * S + 3 * μ) := by
    generalize μ = m at *
    rw [abs_le] at *; norm_num at *; constructor <;> linarith
  have e3 := rnd_tiny b
  generalize rnd (x' + y') = w' at *
  have b' : |w' + z'| ≤ 1 * (6000 * S + 6 * μ) := by
    generalize μ = m at *
    rw [abs_le] at *; norm_num at *; constructor <;> linarith
  have e4 := rnd_tiny b'
  generalize rnd (w' + z') = w at *
  generalize μ = m at *
  clear b b' s0 s1 s2
  rw [abs_le] at *
  norm_num at *
  constructor <;> linarith

/-- The coordinates of the matrix. -/
noncomputable def rowR (x y z : ℝ) : ℝ := x * 1373.2198709594231 + y * (-1100.4251190754821) + z * (-7.278681089101213)
noncomputable def rowG (x y z : ℝ) : ℝ := x * (-271.815969077903) + y * 559.6580465940733 + z * (-32.46047482791194)
noncomputable def rowB (x y z : ℝ) : ℝ := x * 1.9622899599665666 + y * (-57.173814538844006) + z * 308.7233197812385

theorem in_neg_lit {m e : ℕ} {s : Bool} (v : ℝ) (hv : (OfScientific.ofScientific m s e : ℝ) = v) (h : |v| ≤ 10 ^ 5) :
    In (-(OfScientific.ofScientific m s e) : 𝔻) (-v - 1 / 10 ^ 10) (-v + 1 / 10 ^ 10) :=
  (in_neg (in_lit (L := L) v hv h)).mono (by linarith) (by linarith)

/-- The computed coordinates. -/
theorem matrix64 {X Y Z : 𝔻} {x y z S : ℝ} (hX : Is X x) (hY : Is Y y) (hZ : Is Z z) (hx : |x| ≤ S) (hy : |y| ≤ S) (hz : |z| ≤ S)
    (h : ∀ i, Dbl.Fin ((matrixMultiply ⟨X, Y, Z⟩ linrgbFromScaledDiscount : Vec3 𝔻).get i)) :
    ∃ u v w, Is (matrixMultiply ⟨X, Y, Z⟩ linrgbFromScaledDiscount : Vec3 𝔻).x0 u ∧ Is (matrixMultiply ⟨X, Y, Z⟩ linrgbFromScaledDiscount : Vec3 𝔻).x1 v ∧
      Is (matrixMultiply ⟨X, Y, Z⟩ linrgbFromScaledDiscount : Vec3 𝔻).x2 w ∧
      |u - rowR x y z| ≤ 1 / 10 ^ 9 * S + 6 * μ ∧ |v - rowG x y z| ≤ 1 / 10 ^ 9 * S + 6 * μ ∧ |w - rowB x y z| ≤ 1 / 10 ^ 9 * S + 6 * μ ∧
      (x = 0 → y = 0 → z = 0 → u = 0 ∧ v = 0 ∧ w = 0) := by
  obtain ⟨u, iu, eu, zu⟩ := row64 hX hY hZ (in_lit (m := 13732198709594231) (s := true) (e := 13) 1373.2198709594231 rfl (by norm_num [abs_le]))
    (in_neg_lit (m := 11004251190754821) (s := true) (e := 13) 1100.4251190754821 rfl (by norm_num [abs_le]))
    (in_neg_lit (m := 7278681089101213) (s := true) (e := 15) 7.278681089101213 rfl (by norm_num [abs_le]))
    (by norm_num [abs_le]) (by norm_num [abs_le]) (by norm_num [abs_le]) hx hy hz (h 0)
  obtain ⟨v, iv, ev, zv⟩ := row64 hX hY hZ (in_neg_lit (m := 271815969077903) (s := true) (e := 12) 271.815969077903 rfl (by norm_num [abs_le]))
    (in_lit (m := 5596580465940733) (s := true) (e := 13) 559.6580465940733 rfl (by norm_num [abs_le]))
    (in_neg_lit (m := 3246047482791194) (s := true) (e := 14) 32.46047482791194 rfl (by norm_num [abs_le]))
    (by norm_num [abs_le]) (by norm_num [abs_le]) (by norm_num [abs_le]) hx hy hz (h 1)
  obtain ⟨w, iw, ew, zw⟩ := row64 hX hY hZ (in_lit (m := 19622899599665666) (s := true) (e := 16) 1.9622899599665666 rfl (by norm_num [abs_le]))
    (in_neg_lit (m := 57173814538844006) (s := true) (e := 15) 57.173814538844006 rfl (by norm_num [abs_le]))
    (in_lit (m := 3087233197812385) (s := true) (e := 13) 308.7233197812385 rfl (by norm_num [abs_le]))
    (by norm_num [abs_le]) (by norm_num [abs_le]) (by norm_num [abs_le]) hx hy hz (h 2)
  exact ⟨u, v, w, iu, iv, iw, eu, ev, ew, fun a b c => ⟨zu a b c, zv a b c, zw a b c⟩⟩

/-- Stimuli whose coordinates are almost not negative. -/
theorem stimuli_rough {x y z S : ℝ} (hS : 0 < S) (hx : |x| ≤ S) (hy : |y| ≤ S) (hz : |z| ≤ S) (hm : |x| = S ∨ |y| = S ∨ |z| = S)
    (h0 : -(3.1 * S) ≤ rowR x y z) (h1 : -(3.1 * S) ≤ rowG x y z) (h2 : -(3.1 * S) ≤ rowB x y z) :
    0.05 * S ≤ x ∧ 0.05 * S ≤ y ∧ 0.05 * S ≤ z := by
  unfold rowR at h0
  unfold rowG at h1
  unfold rowB at h2
  rw [abs_le] at hx hy hz
  norm_num at *
  have key : x = S ∨ y = S ∨ z = S := by
    rcases hm with h | h | h
    · rcases abs_eq hS.le |>.1 h with h | h
      · exact .inl h
      · exfalso; subst h; linarith
    · rcases abs_eq hS.le |>.1 h with h | h
      · exact .inr (.inl h)
      · exfalso; subst h; linarith
    · rcases abs_eq hS.le |>.1 h with h | h
      · exact .inr (.inr h)
      · exfalso; subst h; linarith
  rcases key with rfl | rfl | rfl
  · refine ⟨by linarith, by linarith, by linarith⟩
  · refine ⟨by linarith, by linarith, by linarith⟩
  · refine ⟨by linarith, by linarith, by linarith⟩

/-- Stimuli whose coordinates are not negative but for a small error. -/
theorem stimuli_fine {x y z : ℝ} (hy : 0 < y) (h0 : -(1 / 10 ^ 4 * y) ≤ rowR x y z) (h1 : -(1 / 10 ^ 4 * y) ≤ rowG x y z) (h2 : -(1 / 10 ^ 4 * y) ≤ rowB x y z) :
    0.8022 * y ≤ x ∧ x ≤ 2.0386 * y ∧ 0.1721 * y ≤ z ∧ z ≤ 10.085 * y := by
  unfold rowR at h0
  unfold rowG at h1
  unfold rowB at h2
  norm_num at *
  refine ⟨?_, ?_, ?_, ?_⟩ <;> linarith

theorem inside_of_stimuli {r g b : ℝ} (r0 : 0 < r) (r4 : r < 400) (g0 : 0 < g) (g4 : g < 400) (b0 : 0 < b) (b4 : b < 400)
    (h1 : 0.8022 * unadapt g ≤ unadapt r) (h2 : unadapt r ≤ 2.0386 * unadapt g) (h3 : 0.1721 * unadapt g ≤ unadapt b)
    (h4 : unadapt b ≤ 10.085 * unadapt g) : Inside r g b := by
  have g1 := response_le g0 g4 r0 r4 (k := 1 / 0.9105) (m := 1 / 0.8022) (by norm_num) (by norm_num) (by
    norm_num at h1 ⊢; linarith) (by norm_num)
  have g2 := response_le r0 r4 g0 g4 (k := 1.3525) (m := 2.0386) (by norm_num) (by norm_num) h2 (by norm_num)
  have g3 := response_le g0 g4 b0 b4 (k := 1 / 0.4705) (m := 1 / 0.1721) (by norm_num) (by norm_num) (by
    norm_num at h3 ⊢; linarith) (by norm_num)
  have g4 := response_le b0 b4 g0 g4 (k := 2.6595) (m := 10.085) (by norm_num) (by norm_num) h4 (by norm_num)
  refine ⟨g0, ?_, g2, ?_, g4⟩
  · norm_num at g1 ⊢; linarith
  · norm_num at g3 ⊢; linarith

/-- Small stimuli come from small responses. -/
theorem response_small {a : ℝ} (h4 : a < 400) (h : unadapt a ≤ 4.1 / 10 ^ 12) : a ≤ 3 / 10 ^ 4 := by
  by_contra hc
  push Not at hc
  have h1 := unadapt_mono (a := 3 / 10 ^ 4) (by norm_num) hc.le h4
  have h2 : 5 / 10 ^ 12 ≤ unadapt (3 / 10 ^ 4) := by
    unfold unadapt
    rw [show (1 / 0.42 : ℝ) = ((50 : ℕ) : ℝ) / ((21 : ℕ) : ℝ) by norm_num]
    exact le_rpow_of_pow_le (by norm_num) (by norm_num) (by norm_num) (by norm_num)
  norm_num at *; linarith

/-- Small responses come from a small achromatic response. -/
theorem achromatic_small {p γ c s r g b : ℝ} (p0 : 0 < p) (unit : 0.99 ≤ |c| + |s|) (r0 : 0 < r) (g0 : 0 < g) (b0 : 0 < b)
    (r1 : r ≤ 3 / 10 ^ 4) (g1 : g ≤ 3 / 10 ^ 4) (b1 : b ≤ 3 / 10 ^ 4)
    (hr : |1403 * r - (460 * p + 451 * (γ * c) + 288 * (γ * s))| ≤ 1 / 10 ^ 9 * (p + |γ|))
    (hg : |1403 * g - (460 * p - 891 * (γ * c) - 261 * (γ * s))| ≤ 1 / 10 ^ 9 * (p + |γ|))
    (hb : |1403 * b - (460 * p - 220 * (γ * c) - 6300 * (γ * s))| ≤ 1 / 10 ^ 9 * (p + |γ|)) : p ≤ 1 / 10 ^ 3 := by
  have e : |γ| * (|c| + |s|) = |γ * c| + |γ * s| := by rw [abs_mul, abs_mul]; ring
  have e' : |γ| * 0.99 ≤ |γ * c| + |γ * s| := by rw [← e]; exact mul_le_mul_of_nonneg_left unit (abs_nonneg _)
  have n := abs_nonneg γ
  generalize γ * c = X at *
  generalize γ * s = Y at *
  generalize |γ| = G at *
  rw [abs_le] at hr hg hb
  have bX : |X| ≤ 1 / 10 ^ 3 + 1 / 10 ^ 6 * (p + G) := by
    rw [abs_le]; norm_num at *; constructor <;> linarith
  have bY : |Y| ≤ 1 / 10 ^ 3 + 1 / 10 ^ 6 * (p + G) := by
    rw [abs_le]; norm_num at *; constructor <;> linarith
  norm_num at *; linarith

end Mcu.Lemmas
