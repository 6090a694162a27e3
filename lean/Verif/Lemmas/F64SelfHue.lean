import Verif.Lemmas.F64SelfLoop
import Verif.Lemmas.SelfColor
import Verif.Props.Binary64Search

/-! From the hue the code computes for a colour back to the direction in the plane of the opponent coordinates, in
IEEE-754 binary64. -/

namespace Mcu.Lemmas

open Mcu.Ieee Props Props.Binary64 MathUtils ColorUtils HctSolver Real

variable {L : Libm}

local notation "𝔻" => F64 L

theorem hue_chain (hS : L.Sound) (hT : L.TempOk) {A B : 𝔻} {x y : ℝ} (ix : Is A x) (iy : Is B y) (z0 : ¬ (x = 0 ∧ y = 0)) :
    ∃ (H : ℝ) (k : ℤ), Is (Cam16.hueDegrees A B) H ∧ 0 ≤ H ∧ H ≤ 360 ∧
      |H * (π / 180) - (Complex.arg ⟨x, y⟩ + k * (2 * π))| ≤ 1.03 / 10 ^ 12 := by
  have hin := in_hueDegrees hS.atan ix.1 iy.1
  obtain ⟨f, hθ⟩ := hS.atan _ _ iy.1 ix.1
  have hang := hT.atan _ _ iy.1 ix.1
  rw [ix.2, iy.2] at hang
  obtain ⟨θ, iθ, hθ, hang⟩ : ∃ θ, Is (Fl.atan2 B A : 𝔻) θ ∧ |θ| ≤ 3.1416 ∧ (¬ (x = 0 ∧ y = 0) →
      ∃ k : ℤ, |θ - (Complex.arg ⟨x, y⟩ + k * (2 * π))| ≤ 1 / 10 ^ 12) := ⟨_, ⟨f, rfl⟩, hθ, hang⟩
  obtain ⟨k2, hk2⟩ := hang z0
  have hp := pi_pos
  have hp6 := pi_gt_d6
  have hu6 := pi_lt_d6
  obtain ⟨u, iu, hu⟩ := ap_degrees iθ hθ
  have tot : |u * (π / 180) - (Complex.arg ⟨x, y⟩ + k2 * (2 * π))| ≤ 1.02 / 10 ^ 12 := by
    have e : u * (π / 180) - (Complex.arg ⟨x, y⟩ + k2 * (2 * π)) = (u - θ * 180 / π) * (π / 180) + (θ - (Complex.arg ⟨x, y⟩ + k2 * (2 * π))) := by
      field_simp; ring
    rw [e]
    refine (abs_add_le _ _).trans ?_
    rw [abs_mul, abs_of_pos (show 0 < π / 180 by positivity)]
    have h1 := mul_le_mul hu (show π / 180 ≤ 0.0175 by norm_num at *; linarith) (by positivity) (by norm_num)
    refine (add_le_add h1 hk2).trans (by norm_num)
  generalize Complex.arg ⟨x, y⟩ = D at *
  obtain ⟨v, iv, v0, v1⟩ := hin
  refine ⟨v, ?_⟩
  have h360 : Is (360.0 : 𝔻) 360 := by simpa using lit (L := L) 3600 1 true 360 (by norm_num) (by norm_num)
  have ub : |u| ≤ 181 := by
    have h1 := abs_add_le (u - θ * 180 / π) (θ * 180 / π)
    rw [sub_add_cancel] at h1
    have h2 : |θ * 180 / π| ≤ 180.1 := by
      rw [abs_div, abs_mul, abs_of_pos hp, abs_of_pos (show (0:ℝ) < 180 by norm_num), div_le_iff₀ hp]
      norm_num at *; linarith
    generalize |θ * 180 / π| = A at *
    norm_num at *; linarith
  have ub' := abs_le.1 ub
  by_cases hneg : u < 0
  · have eh : Cam16.hueDegrees A B = Fl.atan2 B A * 180.0 / Fl.pi + 360.0 := by
      unfold Cam16.hueDegrees
      simp only
      rw [if_pos (by rw [iu.lt_iff l0']; exact hneg)]
    rw [eh] at iv ⊢
    have r1 := rnd_huge (v := u + 360) (show |u + 360| ≤ 10 ^ 120 from (show |u + 360| ≤ 1000 by rw [abs_le]; constructor <;> linarith).trans (by norm_num))
    have r2 := rnd_any (u + 360)
    rw [abs_of_nonneg (show 0 ≤ u + 360 by linarith)] at r2
    have r3 : |rnd (u + 360) - (u + 360)| ≤ 1 / 10 ^ 13 := r2.trans (by norm_num; linarith)
    have := iv.unique (iu.add h360 r1)
    subst this
    refine ⟨k2 + 1, iv, v0, v1, ?_⟩
    have e : rnd (u + 360) * (π / 180) - (D + ((k2 + 1 : ℤ) : ℝ) * (2 * π)) = (rnd (u + 360) - (u + 360)) * (π / 180) + (u * (π / 180) - (D + k2 * (2 * π))) := by push_cast; ring
    rw [e]
    refine (abs_add_le _ _).trans ?_
    rw [abs_mul, abs_of_pos (show 0 < π / 180 by positivity)]
    have h1 := mul_le_mul r3 (show π / 180 ≤ 0.0175 by norm_num at *; linarith) (by positivity) (by norm_num)
    refine (add_le_add h1 tot).trans (by norm_num)
  · have eh : Cam16.hueDegrees A B = Fl.atan2 B A * 180.0 / Fl.pi := by
      unfold Cam16.hueDegrees
      simp only
      rw [if_neg (by rw [iu.lt_iff l0']; exact hneg), if_neg (by rw [ge_iff_le, h360.le_iff iu]; linarith)]
    rw [eh] at iv ⊢
    have := iv.unique iu
    subst this
    exact ⟨k2, iv, v0, v1, tot.trans (by norm_num)⟩

/-- The hue in radians, as the solver computes it. -/
theorem rad_chain {h : 𝔻} {H : ℝ} (ih : Is h H) (h0 : 0 ≤ H) : ∃ (r : ℝ) (m : ℤ), Is (radians h) r ∧ 0 ≤ r ∧ r ≤ 7 ∧
    |r - (H * (π / 180) + m * (2 * π))| ≤ 1 / 10 ^ 14 := by
  obtain ⟨r, ir, r0, r1⟩ := in_radians (L := L) ih.1
  obtain ⟨f, s0, s1, -, hk⟩ := c06_binary64_partial h ih.1
  rw [show val h = H from ih.2] at hk
  obtain ⟨-, m, hm⟩ := hk h0
  refine ⟨r, m, ir, r0, r1, ?_⟩
  have l180 : Is (180.0 : 𝔻) 180 := by simpa using lit (L := L) 1800 1 true 180 (by norm_num) (by norm_num)
  have ia : Is (sanitizeDegreesDouble h) (val (sanitizeDegreesDouble h)) := ⟨f, rfl⟩
  have e : H * (π / 180) + m * (2 * π) = val (sanitizeDegreesDouble h) / 180 * π := by rw [hm]; ring
  rw [e]
  generalize val (sanitizeDegreesDouble h) = a at *
  have a1 : |a / 180| ≤ 2 := by rw [abs_of_nonneg (by positivity)]; linarith
  have q : Ap (sanitizeDegreesDouble h / 180.0 : 𝔻) (a / 180) (5 / 10 ^ 16) :=
    ap_rndS (B := 2) (a := 0) (fun h => ia.div l180 (by norm_num) h) (by simp) a1 (by norm_num) (by norm_num)
  have hu6 := pi_lt_d6
  have pp := pi_pos
  have p : Ap (Fl.pi : 𝔻) π (3.15 / 10 ^ 15) := (nr_pi (L := L)).ap _ (by norm_num at *; linarith)
  obtain ⟨w, iw, hw⟩ := q.mulS p 2 3.1416 6.5 (1 / 10 ^ 14) a1 (by rw [abs_of_pos pp]; norm_num at *; linarith) (by norm_num) (by norm_num) (by norm_num)
  have : Is (radians h) w := iw
  rw [ir.unique this]
  exact hw

/-- The computed cosine and sine of that hue. -/
theorem polar_chain (hR : L.TrigOk) {hr C : 𝔻} {r x y δ : ℝ} {k : ℤ} (ir : Is hr r) (r0 : 0 ≤ r) (r1 : r ≤ 7)
    (h : |r - (Complex.arg ⟨x, y⟩ + k * (2 * π))| ≤ δ) :
    |(ray64 hr C).c * Real.sqrt (x * x + y * y) - x| ≤ (δ + 1 / 10 ^ 12) * Real.sqrt (x * x + y * y) ∧
    |(ray64 hr C).s * Real.sqrt (x * x + y * y) - y| ≤ (δ + 1 / 10 ^ 12) * Real.sqrt (x * x + y * y) := by
  obtain ⟨-, e1, -, e2⟩ := hR hr ir.1 (by rw [ir.2]; exact r0) (by rw [ir.2]; linarith)
  rw [ir.2] at e1 e2
  change |(ray64 hr C).c - cos r| ≤ _ at e1
  change |(ray64 hr C).s - sin r| ≤ _ at e2
  have en : ‖(⟨x, y⟩ : ℂ)‖ = Real.sqrt (x * x + y * y) := by
    rw [Complex.norm_eq_sqrt_sq_add_sq]; congr 1; ring
  have f1 := abs_cos_sub_cos_le r (Complex.arg ⟨x, y⟩ + k * (2 * π))
  have f2 := abs_sin_sub_sin_le r (Complex.arg ⟨x, y⟩ + k * (2 * π))
  rw [cos_add_int_mul_two_pi] at f1
  rw [sin_add_int_mul_two_pi] at f2
  have g1 := Complex.norm_mul_cos_arg (⟨x, y⟩ : ℂ)
  have g2 := Complex.norm_mul_sin_arg (⟨x, y⟩ : ℂ)
  rw [en] at g1 g2
  change _ = x at g1
  change _ = y at g2
  have n0 : 0 ≤ Real.sqrt (x * x + y * y) := Real.sqrt_nonneg _
  generalize Real.sqrt (x * x + y * y) = N at *
  have h1 := (abs_add_le _ _).trans (add_le_add e1 (f1.trans h))
  have h2 := (abs_add_le _ _).trans (add_le_add e2 (f2.trans h))
  rw [sub_add_sub_cancel] at h1 h2
  constructor
  · rw [← g1, mul_comm N, ← sub_mul, abs_mul, abs_of_nonneg n0]
    exact mul_le_mul_of_nonneg_right (by linarith) n0
  · rw [← g2, mul_comm N, ← sub_mul, abs_mul, abs_of_nonneg n0]
    exact mul_le_mul_of_nonneg_right (by linarith) n0

/-! ### The hue factor, computed in two ways -/

theorem Is.nr {x : 𝔻} {v : ℝ} (h : Is x v) (n : ℕ) (h0 : 1 / 10 ^ n ≤ v) (h1 : v ≤ 10 ^ n) : Nr x v 0 n := ⟨h.rl, le_rfl, h0, h1⟩

/-- The hue factor with the computed constants. -/
noncomputable def p1R (L : Libm) (H : ℝ) : ℝ := 50000 / 13 * (1 / 4 * eccentricity H) * Dbl.val (vc64 L).nC * Dbl.val (vc64 L).ncb

theorem nr_cosE (hR : L.TrigOk) {x : 𝔻} {H t δ : ℝ} {k : ℤ} (hx : Ap x t (3 / 10 ^ 14)) (t0 : 1 ≤ t) (t1 : t ≤ 9.9) (ht : |t - (H * π / 180 + 2 + k * (2 * π))| ≤ δ) (hδ : δ ≤ 2 / 10 ^ 14) :
    Nr (Fl.cos x + 3.8 : 𝔻) (eccentricity H) (3.78 / 10 ^ 13) 1 := by
  obtain ⟨a, ia, ha⟩ := hx
  have ha' := abs_le.1 ha
  obtain ⟨fc, hc, -⟩ := hR _ ia.1 (by rw [ia.2]; norm_num at *; linarith) (by rw [ia.2]; norm_num at *; linarith)
  rw [ia.2] at hc
  have C : Ap (Fl.cos x : 𝔻) (cos (H * π / 180 + 2)) (1.05 / 10 ^ 12) := by
    refine ⟨_, ⟨fc, rfl⟩, ?_⟩
    have e : cos (H * π / 180 + 2) = cos (H * π / 180 + 2 + k * (2 * π)) := (cos_add_int_mul_two_pi _ k).symm
    rw [e]
    have h1 := abs_cos_sub_cos_le a (H * π / 180 + 2 + k * (2 * π))
    have h3 := h1.trans ((abs_sub_le _ t _).trans (add_le_add ha (ht.trans hδ)))
    have h4 := (abs_add_le _ _).trans (add_le_add hc h3)
    rw [sub_add_sub_cancel] at h4
    exact h4.trans (by norm_num)
  have l38 : Ap (3.8 : 𝔻) (3.8 : ℝ) (3.8 / 10 ^ 15) := (nr_lit (L := L) (m := 38) (s := true) (e := 1) 1 (by norm_num) (by norm_num) (by norm_num)).ap _ (by norm_num)
  have c0 := neg_one_le_cos (H * π / 180 + 2)
  have c1 := cos_le_one (H * π / 180 + 2)
  unfold eccentricity
  generalize cos (H * π / 180 + 2) = x at *
  have S := C.addS l38 5 (1.055 / 10 ^ 12) (by rw [abs_of_pos] <;> norm_num <;> linarith) (by norm_num) (by norm_num)
  exact S.nr _ 1 (by norm_num; linarith) (by norm_num; linarith) (by norm_num; linarith)

theorem nC_nr : Nr (vc64 L).nC (Dbl.val (vc64 L).nC) 0 1 := by
  obtain ⟨v, iv, v0, v1⟩ := in_f (L := L)
  have : Is (vc64 L).nC v := iv
  rw [this.2]
  exact this.nr 1 (by norm_num at *; linarith) (by norm_num at *; linarith)

theorem ncb_nr (hL : L.PowOk) : Nr (vc64 L).ncb (Dbl.val (vc64 L).ncb) 0 1 := by
  obtain ⟨v, iv, v0, v1⟩ := in_nbb hL
  have : Is (vc64 L).ncb v := iv
  rw [this.2]
  exact this.nr 1 (by norm_num at *; linarith) (by norm_num at *; linarith)

theorem p1_164 (hL : L.PowOk) (hR : L.TrigOk) {hue : 𝔻} {v : ℝ} (iv : Is hue v) (v0 : 0 ≤ v) (v1 : v ≤ 360) :
    Nr (p164 hue) (p1R L v) (3.95 / 10 ^ 13) 11 := by
  have h360 : Is (360.0 : 𝔻) 360 := by simpa using lit (L := L) 3600 1 true 360 (by norm_num) (by norm_num)
  have h180 : Is (180.0 : 𝔻) 180 := by simpa using lit (L := L) 1800 1 true 180 (by norm_num) (by norm_num)
  obtain ⟨t, it, t0, t1⟩ := in_lit (L := L) (m := 2014) (s := true) (e := 2) 20.14 (by norm_num) (by norm_num [abs_le])
  norm_num at t0 t1
  obtain ⟨g, k', ig, g0, g1, hg⟩ : ∃ (g : ℝ) (k' : ℤ), Is (if hue < 20.14 then hue + 360.0 else hue : 𝔻) g ∧ 0 ≤ g ∧ g ≤ 381 ∧ |g - (v + k' * 360)| ≤ 8 / 10 ^ 14 := by
    split
    · rename_i hlt
      have hlt := (iv.lt_iff it).1 hlt
      have r1 := rnd_huge (v := v + 360) (show |v + 360| ≤ 10 ^ 120 from (show |v + 360| ≤ 1000 by rw [abs_le]; constructor <;> linarith).trans (by norm_num))
      have r2 := rnd_any (v + 360)
      rw [abs_of_nonneg (show 0 ≤ v + 360 by linarith)] at r2
      have r3 : |rnd (v + 360) - (v + 360)| ≤ 8 / 10 ^ 14 := r2.trans (by norm_num at *; linarith)
      refine ⟨_, 1, iv.add h360 r1, rnd_nonneg (by linarith), ?_, ?_⟩
      · have := abs_le.1 r3; norm_num at *; linarith
      · push_cast; rw [one_mul]; exact r3
    · exact ⟨v, 0, iv, v0, by linarith, by norm_num⟩
  unfold p164
  generalize (if hue < 20.14 then hue + 360.0 else hue : 𝔻) = hp at *
  have pp := pi_gt_d6
  have pu := pi_lt_d6
  have gp : 0 ≤ g * π := mul_nonneg g0 pi_pos.le
  have gp1 : g * π ≤ 1198 := (mul_le_mul g1 (show π ≤ 3.142 by norm_num at *; linarith) pi_pos.le (by norm_num)).trans (by norm_num)
  have G : Ap (hp * Fl.pi / 180.0 + 2.0 : 𝔻) (g * π / 180 + 2) (3 / 10 ^ 14) := by
    obtain ⟨p, ip, hp'⟩ := (nr_pi (L := L)).rl
    have hp2 := abs_le.1 hp'
    have m : Ap (hp * Fl.pi : 𝔻) (g * π) (2 / 10 ^ 12) := by
      refine ap_rndS (B := 1198) (a := 381 * (4 / 10 ^ 15)) (fun h => ig.mul ip h) ?_ ?_ (by norm_num) (by norm_num)
      · rw [← mul_sub, abs_mul, abs_of_nonneg g0]
        refine mul_le_mul g1 (hp'.trans ?_) (abs_nonneg _) (by norm_num)
        norm_num at pu ⊢; linarith
      · have p0 : 0 ≤ p := by norm_num at *; linarith
        rw [abs_of_nonneg (mul_nonneg g0 p0)]
        refine (mul_le_mul g1 (show p ≤ 3.142 by norm_num at *; linarith) p0 (by norm_num)).trans (by norm_num)
    have d : Ap (hp * Fl.pi / 180.0 : 𝔻) (g * π / 180) (2 / 10 ^ 14) := by
      obtain ⟨q, iq, hq⟩ := m
      refine ap_rndS (B := 7) (a := 2 / 10 ^ 12 / 180) (fun h => iq.div h180 (by norm_num) h) ?_ ?_ (by norm_num) (by norm_num)
      · rw [← sub_div, abs_div, abs_of_pos (show (0:ℝ) < 180 by norm_num)]; gcongr
      · have hq := abs_le.1 hq
        rw [abs_le]; constructor <;> norm_num at * <;> linarith
    have l2' : Ap (2.0 : 𝔻) 2 0 := by simpa using ap_int (L := L) (m := 20) (s := true) (e := 1) 2 (by norm_num) (by norm_num)
    refine d.addS l2' 10 _ ?_ (by norm_num) (by norm_num)
    rw [abs_of_nonneg (by positivity)]
    norm_num; linarith
  have e := nr_cosE hR (H := v) (k := k') (δ := 2 / 10 ^ 15) G (by linarith) (by norm_num; linarith) (by
    rw [show g * π / 180 + 2 - (v * π / 180 + 2 + k' * (2 * π)) = (g - (v + k' * 360)) * (π / 180) by ring, abs_mul, abs_of_pos (show 0 < π / 180 by positivity)]
    refine (mul_le_mul hg (show π / 180 ≤ 0.0175 by norm_num at *; linarith) (by positivity) (by norm_num)).trans (by norm_num)) (by norm_num)
  have l5 : Nr (50000.0 : 𝔻) (50000.0 : ℝ) (1 / 10 ^ 15) 5 := nr_lit 5 (by norm_num) (by norm_num) (by norm_num)
  have l13 : Nr (13.0 : 𝔻) (13.0 : ℝ) (1 / 10 ^ 15) 2 := nr_lit 2 (by norm_num) (by norm_num) (by norm_num)
  have l1' : Nr (1.0 : 𝔻) (1.0 : ℝ) (1 / 10 ^ 15) 0 := nr_lit 0 (by norm_num) (by norm_num) (by norm_num)
  have l4 : Nr (4.0 : 𝔻) (4.0 : ℝ) (1 / 10 ^ 15) 1 := nr_lit 1 (by norm_num) (by norm_num) (by norm_num)
  have a := l5.div l13 (4 / 10 ^ 15) (by norm_num) (by norm_num) (by norm_num)
  have b := (l1'.div l4 (4 / 10 ^ 15) (by norm_num) (by norm_num) (by norm_num)).mul e (3.84 / 10 ^ 13) (by norm_num) (by norm_num) (by norm_num)
  have d := ((a.mul b (3.9 / 10 ^ 13) (by norm_num) (by norm_num) (by norm_num)).mul nC_nr (3.92 / 10 ^ 13) (by norm_num) (by norm_num) (by norm_num)).mul (ncb_nr hL) (3.95 / 10 ^ 13) (by norm_num) (by norm_num) (by norm_num)
  have e5 : (50000.0 / 13.0 : ℝ) = 50000 / 13 := by norm_num
  have e14 : (1.0 / 4.0 : ℝ) = 1 / 4 := by norm_num
  rw [e5, e14] at d
  exact d

theorem p1_of (hL : L.PowOk) (hR : L.TrigOk) {hr : 𝔻} {r H : ℝ} {m : ℤ} (ir : Is hr r) (r0 : 0 ≤ r) (r1 : r ≤ 7) (h : |r - (H * (π / 180) + m * (2 * π))| ≤ 1 / 10 ^ 14) :
    Nr (p1Of hr) (p1R L H) (3.95 / 10 ^ 13) 11 := by
  have l2' : Ap (2.0 : 𝔻) 2 0 := by simpa using ap_int (L := L) (m := 20) (s := true) (e := 1) 2 (by norm_num) (by norm_num)
  have hx : Ap (hr + 2.0) (r + 2) (3 / 10 ^ 14) := (show Ap hr r 0 from ⟨r, ir, by simp⟩).addS l2' 10 _ (by rw [abs_of_nonneg (by positivity)]; linarith) (by norm_num) (by norm_num)
  have e := nr_cosE hR (H := H) (k := m) (δ := 1 / 10 ^ 14) hx (by linarith) (by norm_num; linarith) (by
    rw [show r + 2 - (H * π / 180 + 2 + m * (2 * π)) = r - (H * (π / 180) + m * (2 * π)) by ring]; exact h) (by norm_num)
  have l5 : Nr (50000.0 : 𝔻) (50000.0 : ℝ) (1 / 10 ^ 15) 5 := nr_lit 5 (by norm_num) (by norm_num) (by norm_num)
  have l13 : Nr (13.0 : 𝔻) (13.0 : ℝ) (1 / 10 ^ 15) 2 := nr_lit 2 (by norm_num) (by norm_num) (by norm_num)
  have l4 : Nr (0.25 : 𝔻) (0.25 : ℝ) (1 / 10 ^ 15) 1 := nr_lit 1 (by norm_num) (by norm_num) (by norm_num)
  have a := l5.div l13 (4 / 10 ^ 15) (by norm_num) (by norm_num) (by norm_num)
  have b := l4.mul e (3.81 / 10 ^ 13) (by norm_num) (by norm_num) (by norm_num)
  have d := ((b.mul a (3.87 / 10 ^ 13) (by norm_num) (by norm_num) (by norm_num)).mul nC_nr (3.9 / 10 ^ 13) (by norm_num) (by norm_num) (by norm_num)).mul (ncb_nr hL) (3.95 / 10 ^ 13) (by norm_num) (by norm_num) (by norm_num)
  have e5 : (0.25 : ℝ) * eccentricity H * (50000.0 / 13.0) * Dbl.val (vc64 L).nC * Dbl.val (vc64 L).ncb = p1R L H := by
    unfold p1R
    generalize Dbl.val (vc64 L).nC = a
    generalize Dbl.val (vc64 L).ncb = b
    generalize eccentricity H = c
    rw [show (0.25 : ℝ) = 1 / 4 by norm_num, show (50000.0 / 13.0 : ℝ) = 50000 / 13 by norm_num]
    ring
  rw [e5] at d
  exact d

end Mcu.Lemmas
