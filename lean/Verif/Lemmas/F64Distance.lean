import Verif.Lemmas.F64BackUcs

/-! Helper lemmas: the distance of two colours in binary64. -/

namespace Mcu.Lemmas

open Ieee Real

variable {L : Libm}

local notation "𝔻" => F64 L

/-- Rounding of a number that is not negative. -/
theorem rnd_pos_range {v : ℝ} (h : 0 ≤ v) : v * (1 - 2 / 10 ^ 16) - 1 / 10 ^ 72 ≤ rnd v ∧ rnd v ≤ v * (1 + 2 / 10 ^ 16) + 1 / 10 ^ 72 ∧ 0 ≤ rnd v := by
  have r := abs_le.1 (rnd_any v)
  rw [abs_of_nonneg h] at r
  have := rnd_mono h
  rw [rnd_zero] at this
  exact ⟨by linarith [r.1], by linarith [r.2], this⟩

/-- Both differences have the same square, infinities and NaN included. -/
theorem square_swap (x y : 𝔻) : (x - y) * (x - y) = (y - x) * (y - x) := by
  have key : ∀ a b : Dbl, Dbl.mul (Dbl.sub a b) (Dbl.sub a b) = Dbl.mul (Dbl.sub b a) (Dbl.sub b a) := by
    have ofR (v : ℝ) : Dbl.mul (Dbl.ofReal false v) (Dbl.ofReal false v) = Dbl.mul (Dbl.ofReal false (-v)) (Dbl.ofReal false (-v)) := by
      by_cases h0 : rnd v = 0
      · have h0' : rnd (-v) = 0 := by rw [rnd_neg, h0, neg_zero]
        simp only [Dbl.ofReal, h0, h0', dif_pos]
      · have h0' : rnd (-v) ≠ 0 := by rw [rnd_neg]; exact neg_ne_zero.2 h0
        by_cases h1 : |rnd v| < 2 ^ 1024
        · have h1' : |rnd (-v)| < 2 ^ 1024 := by rw [rnd_neg, abs_neg]; exact h1
          simp only [Dbl.ofReal, dif_neg h0, dif_neg h0', dif_pos h1, dif_pos h1']
          simp [Dbl.mul, Dbl.neg?, Dbl.val, rnd_neg]
        · have h1' : ¬ |rnd (-v)| < 2 ^ 1024 := by rw [rnd_neg, abs_neg]; exact h1
          simp only [Dbl.ofReal, dif_neg h0, dif_neg h0', dif_neg h1, dif_neg h1', Dbl.mul, Dbl.neg?, bne_self_eq_false]
    intro a b
    rcases a with _ | s | s | ⟨v, hv⟩ <;> rcases b with _ | t | t | ⟨w, hw⟩ <;> try rfl
    · cases s <;> cases t <;> simp [Dbl.sub, Dbl.add, Dbl.neg, Dbl.mul, Dbl.neg?]
    · cases s <;> cases t <;> simp [Dbl.sub, Dbl.add, Dbl.neg, Dbl.mul, Dbl.neg?]
    · cases s <;> simp [Dbl.sub, Dbl.add, Dbl.neg, Dbl.mul, Dbl.neg?]
    · cases s <;> cases t <;> simp [Dbl.sub, Dbl.add, Dbl.neg, Dbl.mul, Dbl.neg?]
    · cases s <;> cases t <;> simp [Dbl.sub, Dbl.add, Dbl.neg, Dbl.mul, Dbl.neg?, Dbl.val]
    · have := ofR w
      simpa [Dbl.sub, Dbl.add, Dbl.neg, Dbl.val, hw.2.1] using this.symm
    · cases t <;> simp [Dbl.sub, Dbl.add, Dbl.neg, Dbl.mul, Dbl.neg?]
    · have := ofR v
      simpa [Dbl.sub, Dbl.add, Dbl.neg, Dbl.val, hv.2.1] using this
    · have := ofR (v - w)
      rw [neg_sub] at this
      by_cases e : v = w
      · subst e; rfl
      · have e1 : v + -w ≠ 0 := fun h => e (by linarith)
        have e2 : w + -v ≠ 0 := fun h => e (by linarith)
        simpa [Dbl.sub, Dbl.add, Dbl.neg, Dbl.val, e1, e2, sub_eq_add_neg] using this
  exact key x y

/-- The square of the difference of two coordinates. -/
theorem square_part {x y : 𝔻} {a b : ℝ} (hx : Is x a) (hy : Is y b) (ha : |a| ≤ 140) (hb : |b| ≤ 140) :
    ∃ q, Is ((x - y) * (x - y)) q ∧ 0 ≤ q ∧ q ≤ 10 ^ 5 ∧ (1 / 10 ^ 13 ≤ |a - b| → 1 / 10 ^ 27 ≤ q) ∧ (a = b → q = 0) := by
  have hd : |a - b| ≤ 280 := (abs_sub _ _).trans (by linarith)
  have d := hx.sub hy (rnd_huge (hd.trans (by norm_num)))
  have r := rnd_any (a - b)
  have d1 : |rnd (a - b)| ≤ 281 := by
    have := abs_add_le (rnd (a - b) - (a - b)) (a - b)
    rw [sub_add_cancel] at this
    norm_num at *; linarith
  have d2 : |a - b| * (1 - 2 / 10 ^ 16) - 1 / 10 ^ 72 ≤ |rnd (a - b)| := by
    have := abs_sub_abs_le_abs_sub (a - b) (rnd (a - b))
    rw [abs_sub_comm (a - b)] at this
    linarith
  generalize hr : rnd (a - b) = e at *
  have e0 : 0 ≤ e * e := mul_self_nonneg e
  have ee : e * e = |e| * |e| := (abs_mul_abs_self e).symm
  have e1 : e * e ≤ 281 * 281 := by rw [ee]; exact mul_le_mul d1 d1 (abs_nonneg _) (by norm_num)
  obtain ⟨r1, r2, r3⟩ := rnd_pos_range e0
  refine ⟨_, d.mul d (rnd_huge (by rw [abs_of_nonneg e0]; exact e1.trans (by norm_num))), r3, ?_, fun h => ?_, fun h => ?_⟩
  · refine r2.trans ?_
    norm_num at *; linarith
  · have e2 : 0.9 / 10 ^ 13 ≤ |e| := by
      refine le_trans ?_ d2
      generalize |a - b| = w at *
      norm_num at *; linarith
    have e3 : (0.9 / 10 ^ 13) * (0.9 / 10 ^ 13) ≤ e * e := by rw [ee]; exact mul_le_mul e2 e2 (by norm_num) (abs_nonneg _)
    refine le_trans ?_ r1
    generalize e * e = w at *
    norm_num at *; linarith
  · rw [h, sub_self, rnd_zero] at hr
    rw [← hr]; simp [rnd_zero]

/-- Sum, square root and power. -/
theorem distance_part (hS : L.Sound) (hC : L.CamOk) (hP : L.PowPos) {x y z : 𝔻} {a b c : ℝ} (hx : Is x a) (hy : Is y b) (hz : Is z c) (a0 : 0 ≤ a) (a1 : a ≤ 10 ^ 5)
    (b0 : 0 ≤ b) (b1 : b ≤ 10 ^ 5) (c0 : 0 ≤ c) (c1 : c ≤ 10 ^ 5) :
    ∃ v, Is ((1.41 : 𝔻) * Fl.powf (Fl.sqrt (x + y + z)) 0.63) v ∧ 0 ≤ v ∧ (1 / 10 ^ 27 ≤ a ∨ 1 / 10 ^ 27 ≤ b ∨ 1 / 10 ^ 27 ≤ c → 0 < v) ∧ (a = 0 → b = 0 → c = 0 → v = 0) := by
  obtain ⟨s1, s2, s3⟩ := rnd_pos_range (add_nonneg a0 b0)
  have i1 := hx.add hy (rnd_huge (by rw [abs_of_nonneg (add_nonneg a0 b0)]; norm_num at *; linarith))
  have z1 : a = 0 → b = 0 → rnd (a + b) = 0 := by rintro rfl rfl; rw [_root_.add_zero, rnd_zero]
  generalize rnd (a + b) = s at *
  obtain ⟨t1, t2, t3⟩ := rnd_pos_range (add_nonneg s3 c0)
  have i2 := i1.add hz (rnd_huge (by rw [abs_of_nonneg (add_nonneg s3 c0)]; norm_num at *; linarith))
  have z2 : s = 0 → c = 0 → rnd (s + c) = 0 := by rintro rfl rfl; rw [_root_.add_zero, rnd_zero]
  generalize rnd (s + c) = t at *
  have big : t ≤ 10 ^ 6 := by norm_num at *; linarith
  have low : 1 / 10 ^ 27 ≤ a ∨ 1 / 10 ^ 27 ≤ b ∨ 1 / 10 ^ 27 ≤ c → 1 / 10 ^ 28 ≤ t := by
    rintro (h | h | h) <;> norm_num at * <;> linarith
  have q0 := Real.sqrt_nonneg t
  have q1 : Real.sqrt t ≤ 1000 := by rw [Real.sqrt_le_left (by norm_num)]; exact big.trans (by norm_num)
  have q2 : 1 / 10 ^ 28 ≤ t → 1 / 10 ^ 14 ≤ Real.sqrt t := fun h => by
    rw [Real.le_sqrt (by norm_num) t3]; exact le_trans (by norm_num) h
  have q3 : t = 0 → Real.sqrt t = 0 := by rintro rfl; exact Real.sqrt_zero
  have i3 := i2.sqrt t3 (rnd_huge (by rw [abs_of_nonneg q0]; exact q1.trans (by norm_num)))
  generalize Real.sqrt t = q at *
  obtain ⟨u1, u2, u3⟩ := rnd_pos_range q0
  have z3 : q = 0 → rnd q = 0 := by rintro rfl; exact rnd_zero
  generalize rnd q = u at *
  have ubig : u ≤ 1001 := by norm_num at *; linarith
  have ulow : 1 / 10 ^ 14 ≤ q → 1 / 10 ^ 20 ≤ u := fun h => by norm_num at *; linarith
  obtain ⟨p, ip, hp⟩ : Ap (0.63 : 𝔻) 0.63 (1 / 10 ^ 15) := ap_lit_small (by norm_num)
  have hp := abs_le.1 hp
  have p1 : 0.1 ≤ p := by norm_num at *; linarith
  have p2 : p ≤ 1 := by norm_num at *; linarith
  obtain ⟨w, iw, w0, w1, wp, wz⟩ : ∃ w, Is (Fl.powf (Fl.sqrt (x + y + z)) (0.63 : 𝔻)) w ∧ 0 ≤ w ∧ w ≤ 2000 ∧ (1 / 10 ^ 20 ≤ u → 0 < w) ∧ (u = 0 → w = 0) := by
    have fz : u = 0 → (L.powf (Fl.sqrt (x + y + z) : 𝔻) (0.63 : 𝔻)).val = 0 := fun h =>
      (hC.zero _ _ i3.1 ip.1 (i3.2.trans h) (by rw [ip.2]; linarith)).2
    by_cases h : u ≤ 1 / 10 ^ 6
    · obtain ⟨f, f0, f1⟩ := hS.dark _ _ i3.1 ip.1 (by rw [i3.2]; exact u3) (by rw [i3.2]; exact h) (by rw [ip.2]; exact p1) (by rw [ip.2]; linarith)
      refine ⟨_, ⟨f, rfl⟩, f0, f1.trans (by norm_num), fun h' => ?_, fz⟩
      exact hP _ _ i3.1 ip.1 (by rw [i3.2]; exact h') (by rw [i3.2]; exact h) (by rw [ip.2]; exact p1) (by rw [ip.2]; exact p2)
    · push Not at h
      obtain ⟨f, e⟩ := hS.pow _ _ i3.1 ip.1 (by rw [i3.2]; exact h.le) (by rw [i3.2]; exact ubig.trans (by norm_num)) (by rw [ip.2]; linarith) (by rw [ip.2]; linarith)
      rw [i3.2, ip.2] at e
      have up : 0 < u := lt_trans (by norm_num) h
      have P := rpow_pos_of_pos up p
      have P1 : u ^ p ≤ 1001 := by
        refine (rpow_le_rpow u3 ubig (by linarith)).trans ?_
        exact (rpow_le_rpow_of_exponent_le (by norm_num) p2).trans (by rw [rpow_one])
      have e := abs_le.1 e
      have ep : 0 < (L.powf (Fl.sqrt (x + y + z) : 𝔻) (0.63 : 𝔻)).val := by norm_num at e ⊢; linarith [e.1]
      have eb : (L.powf (Fl.sqrt (x + y + z) : 𝔻) (0.63 : 𝔻)).val ≤ 2000 := by norm_num at e ⊢; linarith [e.2]
      exact ⟨_, ⟨f, rfl⟩, ep.le, eb, fun _ => ep, fz⟩
  obtain ⟨k, ik, hk⟩ : Ap (1.41 : 𝔻) 1.41 (1 / 10 ^ 15) := ap_lit_small (by norm_num)
  have hk := abs_le.1 hk
  have k1 : 1 ≤ k := by norm_num at *; linarith
  have k2 : k ≤ 2 := by norm_num at *; linarith
  have kw : w ≤ k * w := by nlinarith
  have kb : k * w ≤ 4000 := by nlinarith
  have m := rnd_mono kw
  rw [iw.rep.rnd_eq] at m
  refine ⟨_, ik.mul iw (rnd_huge (by rw [abs_of_nonneg (w0.trans kw)]; exact kb.trans (by norm_num))), w0.trans m, fun h => (wp (ulow (q2 (low h)))).trans_le m, fun h1 h2 h3 => ?_⟩
  rw [wz (z3 (q3 (z2 (z1 h1 h2) h3))), MulZeroClass.mul_zero, rnd_zero]

end Mcu.Lemmas
