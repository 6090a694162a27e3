import Verif.Lemmas.F64SharpLin
import Verif.Lemmas.LogNewton

/-! The rounds of the search from above in IEEE-754 binary64. -/

namespace Mcu.Lemmas

open Mcu.Ieee Props Props.Binary64 MathUtils ColorUtils HctSolver Real Set

/-- Above the colour every component is larger than its rounding error. -/
theorem Setup.room {R : Ray} {y v1 v0 plo phi : ℝ} (S : Setup R y v1 v0 plo phi) {v : ℝ} (hv : v ∈ Icc v1 v0) (hs : v1 + 1.3e-8 ≤ v) :
    1.2e-10 * R.Y v ≤ R.ch0 v ∧ 1.2e-10 * R.Y v ≤ R.ch1 v ∧ 1.2e-10 * R.Y v ≤ R.ch2 v := by
  have sub (w) (hw : w ∈ Icc v1 v) : w ∈ Icc v1 v0 := ⟨hw.1, hw.2.trans hv.2⟩
  have dY (w) (hw : w ∈ Icc v1 v) : HasDerivAt (fun w => R.Y w / 22) (R.dY w / 22) w := (S.here (sub w hw)).hasDerivAt_Y.div_const 22
  have sl (w) (hw : w ∈ Icc v1 v) : R.dY w / 22 ≤ 0.1 * R.Y w := by
    have := (S.here (sub w hw)).slow
    norm_num at *; linarith
  have a0 := Ray.diff_le hv.1 dY (fun w hw => (S.here (sub w hw)).hasDerivAt_ch0) (fun w hw => (sl w hw).trans (S.here (sub w hw)).rise0)
  have a1 := Ray.diff_le hv.1 dY (fun w hw => (S.here (sub w hw)).hasDerivAt_ch1) (fun w hw => (sl w hw).trans (S.here (sub w hw)).rise1)
  have a2 := Ray.diff_le hv.1 dY (fun w hw => (S.here (sub w hw)).hasDerivAt_ch2) (fun w hw => (sl w hw).trans (S.here (sub w hw)).rise2)
  obtain ⟨b0, b1, b2⟩ := S.nonneg hv hs
  have c0 := S.c0; have c1 := S.c1; have c2 := S.c2
  have hy := S.y_pos
  have e := S.Y1
  generalize R.Y v = Y at *
  generalize R.Y v1 = Y1 at *
  rcases le_total Y (1.5 * y) with h | h <;> refine ⟨?_, ?_, ?_⟩ <;> norm_num at * <;> linarith

variable {L : Libm}

local notation "𝔻" => F64 L

/-- What is computed in one round of the search. -/
structure Seen (R : Ray) (p : Vec3 𝔻) (v : ℝ) (X0 X1 X2 f : ℝ) : Prop where
  i0 : Is p.x0 X0
  i1 : Is p.x1 X1
  i2 : Is p.x2 X2
  e0 : |X0 - R.ch0 v| ≤ 1e-10 * R.Y v
  e1 : |X1 - R.ch1 v| ≤ 1e-10 * R.Y v
  e2 : |X2 - R.ch2 v| ≤ 1e-10 * R.Y v
  p0 : 0 ≤ X0
  p1 : 0 ≤ X1
  p2 : 0 ≤ X2
  lum : Is (fnjOf p) f
  near : |f - R.Y v| ≤ 1.01e-10 * R.Y v

theorem Setup.see (hL : L.PowOk) (hE : L.ExpOk) {hr C j : 𝔻} (h : Fine hr C) {y v1 v0 plo phi : ℝ} (S : Setup (ray64 hr C) y v1 v0 plo phi) {v : ℝ}
    (hj : Is j (exp v)) (h0 : 0.002 ≤ exp v) (h1 : exp v ≤ 148.4) (hv : v ∈ Icc v1 v0) (hs : v1 + 1.3e-8 ≤ v) :
    ∃ X0 X1 X2 f, Seen (ray64 hr C) (linrgbOfJ hr C j) v X0 X1 X2 f := by
  have hi := S.here hv
  obtain ⟨a0, a1, a2⟩ := h.lin hL hE hj h0 h1 (by rw [log_exp]; exact hi)
  rw [log_exp] at a0 a1 a2
  obtain ⟨X0, i0, e0⟩ := a0
  obtain ⟨X1, i1, e1⟩ := a1
  obtain ⟨X2, i2, e2⟩ := a2
  obtain ⟨r0, r1, r2⟩ := S.room hv hs
  have lo := hi.lo
  have hi' := hi.hi
  have eY : (ray64 hr C).Y v = 0.2126 * (ray64 hr C).ch0 v + 0.7152 * (ray64 hr C).ch1 v + 0.0722 * (ray64 hr C).ch2 v := Ray.Y_eq ..
  have E0 := abs_le.1 e0
  have E1 := abs_le.1 e1
  have E2 := abs_le.1 e2
  have p0 : 0 ≤ X0 := by norm_num at *; linarith
  have p1 : 0 ≤ X1 := by norm_num at *; linarith
  have p2 : 0 ≤ X2 := by norm_num at *; linarith
  have hd : |X0 * 0.2126 + X1 * 0.7152 + X2 * 0.0722 - (ray64 hr C).Y v| ≤ 1e-10 * (ray64 hr C).Y v := by
    rw [abs_le]
    generalize (ray64 hr C).Y v = Y at *
    generalize (ray64 hr C).ch0 v = c0 at *
    generalize (ray64 hr C).ch1 v = c1 at *
    generalize (ray64 hr C).ch2 v = c2 at *
    constructor <;> norm_num at * <;> linarith
  have hd' := abs_le.1 hd
  obtain ⟨f, jf, hf⟩ := fnj_sharp i0 i1 i2 p0 p1 p2 (by norm_num at *; linarith) (by norm_num at *; linarith)
  refine ⟨X0, X1, X2, f, i0, i1, i2, e0, e1, e2, p0, p1, p2, jf, ?_⟩
  have := (abs_add_le _ _).trans (add_le_add hf hd)
  rw [sub_add_sub_cancel] at this
  refine this.trans ?_
  generalize X0 * 0.2126 + X1 * 0.7152 + X2 * 0.0722 = W at *
  norm_num at *; linarith

/-- One round, as computed. -/
theorem round_float {j y f : 𝔻} {a η φ : ℝ} (hj : Is j a) (hy : Is y η) (hf : Is f φ) (a0 : 0.002 ≤ a) (a1 : a ≤ 148.4) (η0 : 0.001 ≤ η) (η1 : η ≤ 101)
    (φ1 : φ ≤ 166) (h : 0.001 ≤ φ - η) : Rl (j - (f - y) * j / (2.0 * f)) (a * ((1 + 1 / (φ / η)) / 2)) (2 / 10 ^ 14) := by
  norm_num at a0 a1 η0 η1 φ1 h
  have φ0 : 0 < φ := by linarith
  have η0' : 0 < η := by linarith
  have i2 : Is (2.0 : 𝔻) 2 := by simpa using lit (L := L) 20 1 true 2 (by norm_num) (by norm_num)
  have d : Rl (f - y) (φ - η) (1 / 10 ^ 15) := by
    refine rl_rnd (w := φ - η) (ε := 0) (fun hh => hf.sub hy hh) (by simp) ?_ ?_ le_rfl (by norm_num) (by norm_num) <;> norm_num <;> linarith
  have ma : 0.001 * 0.002 ≤ (φ - η) * a := mul_le_mul (by norm_num; linarith) (by norm_num; linarith) (by norm_num) (by linarith)
  have mb : (φ - η) * a ≤ 166 * 149 := mul_le_mul (by linarith) (by linarith) (by linarith) (by norm_num)
  have m := d.mul hj.rl (by linarith) (by linarith) (by norm_num) le_rfl (le_trans (by norm_num) ma) (mb.trans (by norm_num)) (by norm_num) (2 / 10 ^ 15) (by norm_num)
  have t := i2.rl.mul hf.rl (by norm_num) φ0 le_rfl le_rfl (by norm_num; linarith) (by norm_num; linarith) (by norm_num) (1 / 10 ^ 15) (by norm_num)
  have q0 : 1 / 10 ^ 48 ≤ (φ - η) * a / (2 * φ) := by
    rw [le_div_iff₀ (by positivity)]
    refine le_trans ?_ ma
    norm_num; linarith
  have q1 : (φ - η) * a / (2 * φ) ≤ a / 2 := by
    rw [div_le_div_iff₀ (by positivity) (by norm_num)]
    nlinarith
  have q := m.div t (by nlinarith) (by positivity) (by norm_num) (by norm_num) q0 (q1.trans (by norm_num; linarith)) (by norm_num) (5 / 10 ^ 15) (by norm_num)
  obtain ⟨w, iw, hw⟩ := q
  have e : a * ((1 + 1 / (φ / η)) / 2) = a - (φ - η) * a / (2 * φ) := by field_simp; ring
  rw [e]
  refine rl_rnd (w := a - w) (ε := 5 / 10 ^ 15) (fun hh => hj.sub iw hh) ?_ (le_trans (b := a / 2) (by norm_num; linarith) (by linarith)) (le_trans (b := a) (by have := le_trans (show (0 : ℝ) ≤ 1 / 10 ^ 48 by norm_num) q0; linarith) (by norm_num; linarith)) (by norm_num) (by norm_num) (by norm_num)
  rw [show a - w - (a - (φ - η) * a / (2 * φ)) = -(w - (φ - η) * a / (2 * φ)) by ring, abs_neg]
  refine hw.trans (mul_le_mul_of_nonneg_left ?_ (by norm_num))
  linarith

theorem log_near {x t ε : ℝ} (ht : 0 < t) (h : |x - t| ≤ ε * t) (hε : ε ≤ 1 / 2000) : |log x - log t| ≤ 1.001 * ε := by
  have h' := abs_le.1 h
  have hx : 0 < x := by
    have : ε * t ≤ 1 / 2000 * t := mul_le_mul_of_nonneg_right hε ht.le
    linarith
  rw [← log_div hx.ne' ht.ne']
  refine log_tiny ?_ hε
  rw [show x / t - 1 = (x - t) / t by field_simp, abs_div, abs_of_pos ht, div_le_iff₀ ht]
  exact h

/-- The next point, as computed. -/
theorem after_float {R : Ray} {v f η a : ℝ} (hY : 0 < R.Y v) (hη : 0 < η) (hf : |f - R.Y v| ≤ 1.01e-10 * R.Y v)
    (ha : |a - exp v * ((1 + 1 / (f / η)) / 2)| ≤ 2 / 10 ^ 14 * (exp v * ((1 + 1 / (f / η)) / 2))) : 0 < a ∧ |log a - R.after η v| ≤ 1e-9 := by
  have hf' := abs_le.1 hf
  have f0 : 0 < f := by norm_num at *; linarith
  have ep := exp_pos v
  have t0 : 0 < exp v * ((1 + 1 / (f / η)) / 2) := by positivity
  have l1 := log_near t0 ha (by norm_num)
  refine ⟨?_, ?_⟩
  · have := (abs_le.1 ha).1
    generalize exp v * ((1 + 1 / (f / η)) / 2) = T at *
    norm_num at this; linarith
  rw [log_mul ep.ne' (by positivity), log_exp] at l1
  unfold Ray.after
  have l2 : |log ((1 + 1 / (f / η)) / 2) - log ((1 + 1 / (R.Y v / η)) / 2)| ≤ 1.001 * 1.1e-10 := by
    refine log_near (by positivity) ?_ (by norm_num)
    rw [show (1 + 1 / (f / η)) / 2 - (1 + 1 / (R.Y v / η)) / 2 = (R.Y v - f) * (η / (f * R.Y v) / 2) by field_simp; ring, abs_mul, abs_sub_comm,
      abs_of_pos (show 0 < η / (f * R.Y v) / 2 by positivity)]
    have h1 : |f - R.Y v| * (η / (f * R.Y v) / 2) ≤ 1.01e-10 * R.Y v * (η / (f * R.Y v) / 2) := mul_le_mul_of_nonneg_right hf (by positivity)
    refine h1.trans ?_
    rw [show 1.01e-10 * R.Y v * (η / (f * R.Y v) / 2) = 1.01e-10 * (η / f) / 2 by field_simp]
    have h2 : η / f ≤ 1.001 * (η / R.Y v) := by
      rw [div_le_iff₀ f0, mul_assoc, div_mul_eq_mul_div, ← mul_div_assoc, le_div_iff₀ hY]
      have : R.Y v ≤ 1.001 * f := by norm_num at *; linarith
      nlinarith
    rw [show 1 / (R.Y v / η) = η / R.Y v by rw [one_div_div]]
    have : 0 < η / R.Y v := by positivity
    generalize η / R.Y v = u at *
    generalize η / f = u' at *
    norm_num at *; linarith
  have := (abs_add_le _ _).trans (add_le_add l1 l2)
  rw [show log a - (v + log ((1 + 1 / (f / η)) / 2)) + (log ((1 + 1 / (f / η)) / 2) - log ((1 + 1 / (R.Y v / η)) / 2)) = log a - (v + log ((1 + 1 / (R.Y v / η)) / 2)) by ring] at this
  exact this.trans (by norm_num)

/-- The test whether the search may stop, as computed. -/
theorem stop_float {f y : 𝔻} {φ η Y : ℝ} (hf : Is f φ) (hy : Is y η) (n : |φ - Y| ≤ 1.01e-10 * Y) (Y0 : 0 ≤ Y) (Y1 : Y ≤ 165) (η0 : 0 ≤ η) (η1 : η ≤ 101) :
    (Fl.abs (f - y) < 0.002 → |Y - η| < 0.0020001) ∧ (¬ Fl.abs (f - y) < 0.002 → 0.0019999 ≤ |Y - η|) := by
  obtain ⟨w, iw, hw⟩ := rl_lit (L := L) (m := 2) (s := true) (e := 3) 0.002 (by norm_num) (by norm_num) (by norm_num)
  change Is (0.002 : 𝔻) w at iw
  have hw := abs_le.1 hw
  have n' := abs_le.1 n
  have b : |φ - η| ≤ 300 := by rw [abs_le]; norm_num at *; constructor <;> linarith
  obtain ⟨r1, r2⟩ := rnd_ok (v := φ - η) (b.trans (by norm_num))
  have id := (hf.sub hy r1).abs
  rw [id.lt_iff iw]
  unfold ρ at r2
  have k1 := abs_abs_sub_abs_le (rnd (φ - η)) (φ - η)
  have k2 : |(|φ - η|) - (|Y - η|)| ≤ 1.01e-10 * Y := by
    refine (abs_abs_sub_abs_le (φ - η) (Y - η)).trans ?_
    rw [sub_sub_sub_cancel_right]; exact n
  have k1 := abs_le.1 (k1.trans r2)
  have k2 := abs_le.1 k2
  generalize |rnd (φ - η)| = A at *
  generalize |φ - η| = B at *
  generalize |Y - η| = D at *
  rw [not_lt]
  norm_num at *
  constructor <;> intro hh <;> linarith

/-- The search in binary64 follows the rounds of the exact search up to small errors. -/
theorem Setup.loop64 (hL : L.PowOk) (hE : L.ExpOk) {hr C y : 𝔻} (h : Fine hr C) {η v1 v0 plo phi : ℝ} (hy : Is y η) (S : Setup (ray64 hr C) η v1 v0 plo phi)
    (b1 : log 0.002 ≤ v1) (b0 : v0 ≤ log 148.4) (n : ℕ) : ∀ (v : ℝ) (j : 𝔻), Is j (exp v) → v ∈ Icc v1 v0 → v1 + 1.3e-8 ≤ v →
    ∃ (v' : ℝ) (p : Vec3 𝔻) (X0 X1 X2 f : ℝ), Steps (ray64 hr C) η n v v' ∧ v' ∈ Icc v1 v0 ∧ Seen (ray64 hr C) p v' X0 X1 X2 f ∧
      findLoop hr C y (n + 1) j = (if p.x0 > 100.01 ∨ p.x1 > 100.01 ∨ p.x2 > 100.01 then 0 else argbFromLinrgb p) := by
  have rng {v : ℝ} (hv : v ∈ Icc v1 v0) : 0.002 ≤ exp v ∧ exp v ≤ 148.4 :=
    ⟨(log_le_iff_le_exp (by norm_num)).1 (b1.trans hv.1), (le_log_iff_exp_le (by norm_num)).1 (hv.2.trans b0)⟩
  have tests {v : ℝ} (hv : v ∈ Icc v1 v0) {p : Vec3 𝔻} {X0 X1 X2 f : ℝ} (s : Seen (ray64 hr C) p v X0 X1 X2 f) :
      ¬ (p.x0 < 0.0 ∨ p.x1 < 0.0 ∨ p.x2 < 0.0) ∧ ¬ fnjOf p ≤ 0.0 := by
    rw [s.i0.lt_iff l0', s.i1.lt_iff l0', s.i2.lt_iff l0', s.lum.le_iff l0']
    push Not
    refine ⟨⟨s.p0, s.p1, s.p2⟩, ?_⟩
    have := (abs_le.1 s.near).1
    have := S.Y_pos hv
    norm_num at *; linarith
  induction n with
  | zero =>
    intro v j hj hv hs
    obtain ⟨X0, X1, X2, f, s⟩ := S.see hL hE h hj (rng hv).1 (rng hv).2 hv hs
    refine ⟨v, _, X0, X1, X2, f, .last v, hv, s, ?_⟩
    obtain ⟨t1, t2⟩ := tests hv s
    have e : findLoop hr C y (0 + 1) j = if (linrgbOfJ hr C j).x0 < 0.0 ∨ (linrgbOfJ hr C j).x1 < 0.0 ∨ (linrgbOfJ hr C j).x2 < 0.0 then 0
      else if fnjOf (linrgbOfJ hr C j) ≤ 0.0 then 0
      else if 0 = 0 ∨ Fl.abs (fnjOf (linrgbOfJ hr C j) - y) < 0.002 then
        if (linrgbOfJ hr C j).x0 > 100.01 ∨ (linrgbOfJ hr C j).x1 > 100.01 ∨ (linrgbOfJ hr C j).x2 > 100.01 then 0
        else argbFromLinrgb (linrgbOfJ hr C j)
      else findLoop hr C y 0 (j - (fnjOf (linrgbOfJ hr C j) - y) * j / (2.0 * fnjOf (linrgbOfJ hr C j))) := rfl
    rw [e, if_neg t1, if_neg t2, if_pos (.inl rfl)]
  | succ n ih =>
    intro v j hj hv hs
    obtain ⟨X0, X1, X2, f, s⟩ := S.see hL hE h hj (rng hv).1 (rng hv).2 hv hs
    obtain ⟨t1, t2⟩ := tests hv s
    have hYp := S.Y_pos hv
    have hY1 := (S.here hv).hi
    have hη0 := S.y0
    have hη1 := S.y1
    obtain ⟨st1, st2⟩ := stop_float s.lum hy s.near hYp.le hY1 S.y_pos.le (by linarith)
    have e : findLoop hr C y (n + 1 + 1) j = if (linrgbOfJ hr C j).x0 < 0.0 ∨ (linrgbOfJ hr C j).x1 < 0.0 ∨ (linrgbOfJ hr C j).x2 < 0.0 then 0
      else if fnjOf (linrgbOfJ hr C j) ≤ 0.0 then 0
      else if n + 1 = 0 ∨ Fl.abs (fnjOf (linrgbOfJ hr C j) - y) < 0.002 then
        if (linrgbOfJ hr C j).x0 > 100.01 ∨ (linrgbOfJ hr C j).x1 > 100.01 ∨ (linrgbOfJ hr C j).x2 > 100.01 then 0
        else argbFromLinrgb (linrgbOfJ hr C j)
      else findLoop hr C y (n + 1) (j - (fnjOf (linrgbOfJ hr C j) - y) * j / (2.0 * fnjOf (linrgbOfJ hr C j))) := rfl
    rw [e, if_neg t1, if_neg t2]
    by_cases ht : Fl.abs (fnjOf (linrgbOfJ hr C j) - y) < 0.002
    · refine ⟨v, _, X0, X1, X2, f, .stop _ v (st1 ht), hv, s, ?_⟩
      rw [if_pos (.inr ht)]
    · have hn := st2 ht
      have hup : 0.0019999 ≤ (ray64 hr C).Y v - η := by
        rcases le_abs.1 hn with hn | hn
        · exact hn
        · exfalso
          have h1 := (S.beg.path v hv).1.lo
          have h2 := S.Y1.1
          have h3 := S.y1
          have h4 := S.y_pos
          norm_num at *; linarith
      have hnear := abs_le.1 s.near
      obtain ⟨a, ia, ha⟩ := round_float hj hy s.lum (rng hv).1 (rng hv).2 (by norm_num at *; linarith) (by linarith) (by norm_num at *; linarith) (by norm_num at *; linarith)
      obtain ⟨a0, ha'⟩ := after_float hYp S.y_pos s.near ha
      obtain ⟨m1, m2, -⟩ := S.move (w := log a) hv hn ha'
      obtain ⟨v', p, Z0, Z1, Z2, g, q1, q2, q3, q4⟩ := ih (log a) _ (by rw [exp_log a0]; exact ia) m1 m2
      refine ⟨v', p, Z0, Z1, Z2, g, .next n v _ v' hn ha' q1, q2, q3, ?_⟩
      rw [if_neg (by push Not; exact ⟨by omega, ht⟩), q4]

end Mcu.Lemmas
