import Verif.Lemmas.FirstGuess

/-! The search for a colour that exists comes close to it. -/

namespace Mcu.Lemmas

open Real Set Mcu.HctSolver Mcu.ColorUtils Mcu.MathUtils Mcu.Spec

/-- Numbers that go with a range of luminances: the first ratio of luminances is at most `R2`, the first distance at most `U0`. -/
structure Bin (R2 U0 K yh : ℝ) : Prop where
  pos : 0 < R2
  dist : R2 ≤ exp (2 * U0)
  small : U0 ≤ 0.75
  one : 1 ≤ K
  pow11 : R2 ^ 11 ≤ K ^ 10
  pow5 : R2 ^ 5 * (yh * 1.000001) ^ 4 ≤ 165 ^ 4
  top : yh * 1.000001 * K ≤ 155
  span : yh * 1.000001 * (K - 1) ≤ 53
  yh0 : 0 < yh

namespace Aim

variable {R : Ray} {w v0 j y r g b : ℝ} (A : Aim R w v0 j y r g b)
include A

theorem begin {R2 U0 K yh : ℝ} (B : Bin R2 U0 K yh) (hR : exp (2 * (v0 - log j)) ≤ R2) (hy : y ≤ yh) :
    R.Begin (log j) (v0) := by
  have hi := A.inside (lo := 0.002) (by have := A.lo; norm_num at *; linarith) (by norm_num)
  have eY := abs_le.1 A.Y1
  have hY : 0 < R.Y (log j) := lt_of_lt_of_le (by norm_num) hi.lo
  have y0 := A.y0
  have hs : 0 < sqrt y := sqrt_pos.2 y0
  refine ⟨A.here, by have := A.above; norm_num at *; linarith, ?_, hi.g0, hi.g1, hi.g2, hi.lo, ?_⟩
  · rw [← log_exp v0]
    refine A.white.small A.here.ok (exp_pos _) ?_
    have h1 : sqrt y ≤ 10 := by rw [sqrt_le_left (by norm_num)]; have := A.y100; norm_num at *; linarith
    have h2 : v0 ≤ log (sqrt y * 11) + 1e-12 := by linarith [(abs_le.1 A.first).2]
    have h3 := exp_le_exp.2 h2
    rw [exp_add, exp_log (by positivity)] at h3
    have h4 := Real.exp_bound' (x := 1e-12) (n := 1) (by norm_num) (by norm_num) (by norm_num)
    norm_num [Finset.sum_range_succ, Nat.factorial] at h4
    refine h3.trans ?_
    calc sqrt y * 11 * exp 1e-12 ≤ 10 * 11 * 1.01 := by
          gcongr
          norm_num at *; linarith
      _ ≤ _ := by norm_num
  · refine le_of_pow_le_pow_left₀ (n := 4) (by norm_num) (by norm_num) ?_
    refine le_trans ?_ B.pow5
    rw [mul_pow, ← exp_nat_mul, show ((4 : ℕ) : ℝ) * (5 / 2 * (v0 - log j)) = ((5 : ℕ) : ℝ) * (2 * (v0 - log j)) by
      push_cast; ring, exp_nat_mul, mul_comm]
    refine mul_le_mul (pow_le_pow_left₀ (exp_pos _).le hR 5) (pow_le_pow_left₀ hY.le ?_ 4) (by positivity) (by have := B.pos; positivity)
    norm_num at *; linarith [eY.2]

theorem dist {R2 U0 K yh : ℝ} (B : Bin R2 U0 K yh) (hR : exp (2 * (v0 - log j)) ≤ R2) :
    v0 - log j ≤ U0 := by
  have := exp_le_exp.1 (hR.trans B.dist)
  linarith

/-- Bounds along the path. -/
theorem caps {R2 U0 K yh : ℝ} (B : Bin R2 U0 K yh) (hR : exp (2 * (v0 - log j)) ≤ R2) (hy : y ≤ yh) {v : ℝ}
    (hv : v ∈ Icc (log j) (v0)) : R.Y v ≤ 155 ∧ R.ch2 v ≤ 360 := by
  have P := A.begin B hR hy
  have eY := abs_le.1 A.Y1
  have y0 := A.y0
  have sub (w) (hw : w ∈ Icc (log j) v) : w ∈ Icc (log j) (v0) := ⟨hw.1, hw.2.trans hv.2⟩
  have ins (w) (hw : w ∈ Icc (log j) v) : R.Inside w 0.002 := (P.path w (sub w hw)).1.mono P.lo
  have g1 := Ray.exp_shrink hv.1 (fun w hw => (ins w hw).hasDerivAt_Y) (fun w hw => (ins w hw).slow)
  have hY : 0 < R.Y (log j) := lt_of_lt_of_le (by norm_num) P.lo
  have hK : exp (2.2 * (v - log j)) ≤ K := by
    refine le_of_pow_le_pow_left₀ (n := 10) (by norm_num) (by have := B.one; linarith) (le_trans ?_ B.pow11)
    rw [← exp_nat_mul]
    refine le_trans (exp_le_exp.2 (?_ : _ ≤ ((11 : ℕ) : ℝ) * (2 * (v0 - log j)))) ?_
    · push_cast; have := hv.2; norm_num; linarith
    · rw [exp_nat_mul]; exact pow_le_pow_left₀ (exp_pos _).le hR 11
  have g2 : R.Y v ≤ R.Y (log j) * K := g1.trans (mul_le_mul_of_nonneg_left hK hY.le)
  have g3 : R.Y (log j) ≤ yh * 1.000001 := by norm_num at *; linarith [eY.2]
  have g4 := mul_le_mul_of_nonneg_right g3 (by have := B.one; linarith : 0 ≤ K)
  have g5 := mul_le_mul_of_nonneg_right g3 (by have := B.one; linarith : 0 ≤ K - 1)
  constructor
  · exact (g2.trans g4).trans B.top
  · have d := Ray.diff_le hv.1 (fun w hw => (ins w hw).hasDerivAt_ch2) (fun w hw => (ins w hw).hasDerivAt_Y.const_mul 4.9) (fun w hw => (ins w hw).blue)
    have e2 := (abs_le.1 A.e2).2
    have := A.b1
    have := A.y100
    have := B.span
    norm_num at *
    linarith

theorem setup {R2 U0 K yh plo lo : ℝ} (B : Bin R2 U0 K yh) (hR : exp (2 * (v0 - log j)) ≤ R2) (hy : y ≤ yh)
    (hlo : lo * (1 + 2e-9) ≤ y) (hlo0 : 0.002 ≤ lo) (rate : ∀ v, R.Inside v lo → plo * R.Y v ≤ R.dY v)
    (hp : 1.7 ≤ plo ∧ plo ≤ 2) : ∃ phi, Setup R y (log j) (v0) plo phi := by
  have P := A.begin B hR hy
  have eY := abs_le.1 A.Y1
  have e0 := (abs_le.1 A.e0).1; have e1 := (abs_le.1 A.e1).1; have e2 := (abs_le.1 A.e2).1
  have r0 := A.r0; have g0 := A.g0; have b0 := A.b0
  have y0 := A.y0
  have path (v) (hv : v ∈ Icc (log j) (v0)) {l : ℝ} (hl : l * (1 + 2e-9) ≤ y) (hl0 : 0 ≤ l) : R.Inside v l :=
    (P.path v hv).1.mono (A.inside hl hl0).lo
  have make (phi : ℝ) (hphi : ∀ v ∈ Icc (log j) v0, R.dY v ≤ phi * R.Y v)
      (reg : (phi = 1.98 ∧ 0.1 ≤ y) ∨ (phi = 1.998 ∧ 0.1 ≤ y ∧ y ≤ 60.01) ∨ (phi = 1.9995 ∧ 0.1 ≤ y ∧ y ≤ 8.01) ∨ (phi = 2.003 ∧ y ≤ 0.101) ∨ (phi = 2.03 ∧ y ≤ 0.030001)) :
      Setup R y (log j) v0 plo phi :=
    ⟨P, by have := A.lo; norm_num at *; linarith, A.y100, (A.dist B hR).trans B.small, by
      rw [abs_le]; constructor <;> norm_num at * <;> linarith [eY.1, eY.2], by norm_num at *; linarith, by norm_num at *; linarith,
      by norm_num at *; linarith, fun v hv => rate v (path v hv hlo (by norm_num at *; linarith)), hphi, hp, reg⟩
  rcases le_total 60.005 y with h1 | h1
  · exact ⟨1.98, make _ (fun v hv => (path v hv (by norm_num at *; linarith) (by norm_num)).power60 (A.caps B hR hy hv).1 (A.caps B hR hy hv).2)
      (.inl ⟨rfl, by norm_num at *; linarith⟩)⟩
  rcases le_total 8.005 y with h2 | h2
  · exact ⟨1.998, make _ (fun v hv => (path v hv (by norm_num at *; linarith) (by norm_num)).power8 (A.caps B hR hy hv).1 (A.caps B hR hy hv).2)
      (.inr (.inl ⟨rfl, by norm_num at *; linarith, by norm_num at *; linarith⟩))⟩
  rcases le_total 0.1005 y with h3 | h3
  · exact ⟨1.9995, make _ (fun v hv => (path v hv (by norm_num at *; linarith) (by norm_num)).power01 (A.caps B hR hy hv).1 (A.caps B hR hy hv).2)
      (.inr (.inr (.inl ⟨rfl, by norm_num at *; linarith, by norm_num at *; linarith⟩)))⟩
  rcases le_total 0.0300005 y with h4 | h4
  · exact ⟨2.003, make _ (fun v hv => (path v hv (by norm_num at *; linarith) (by norm_num)).power003 (A.caps B hR hy hv).1 (A.caps B hR hy hv).2)
      (.inr (.inr (.inr (.inl ⟨rfl, by norm_num at *; linarith⟩))))⟩
  · exact ⟨2.03, make _ (fun v hv => (path v hv (by have := A.lo; norm_num at *; linarith) (by norm_num)).power0 (A.caps B hR hy hv).1 (A.caps B hR hy hv).2)
      (.inr (.inr (.inr (.inr ⟨rfl, by norm_num at *; linarith⟩))))⟩

/-- Where the search ends. -/
structure Ends (R : Ray) (v0 j y v U4 : ℝ) : Prop where
  mem : v ∈ Icc (log j) v0
  beg : R.Begin (log j) v0
  y0 : 0 < y
  c0 : 1.9e-10 * y ≤ R.ch0 v
  c1 : 1.9e-10 * y ≤ R.ch1 v
  c2 : 1.9e-10 * y ≤ R.ch2 v
  cap : ∀ w ∈ Icc (log j) v, R.Y w ≤ 155
  close : R.Y v - R.Y (log j) ≤ 0.00201 ∨ v - log j ≤ U4

theorem ends {R2 U0 K yh plo lo w1 w2 w3 U4 : ℝ} (B : Bin R2 U0 K yh) (hR : exp (2 * (v0 - log j)) ≤ R2) (hy : y ≤ yh)
    (hlo : lo * (1 + 2e-9) ≤ y) (hlo0 : 0.002 ≤ lo) (rate : ∀ v, R.Inside v lo → plo * R.Y v ≤ R.dY v)
    (hp : 1.7 ≤ plo ∧ plo ≤ 2) (hU : 0 ≤ U0) (k1 : contract plo U0 ≤ w1) (k2 : contract plo w1 ≤ w2) (k3 : contract plo w2 ≤ w3)
    (k4 : contract plo w3 ≤ U4) : ∃ phi, Setup R y (log j) v0 plo phi ∧ ∀ v, Steps R y 4 v0 v → Ends R v0 j y v U4 := by
  obtain ⟨phi, S⟩ := A.setup B hR hy hlo hlo0 rate hp
  refine ⟨phi, S, fun v st => ?_⟩
  obtain ⟨hv, ab, cl⟩ := S.steps st U0 (right_mem_Icc.2 S.beg.le) A.above (A.dist B hR)
  obtain ⟨c0, c1, c2⟩ := S.nonneg hv ab
  refine ⟨hv, S.beg, A.y0, c0, c1, c2, fun w hw => (A.caps B hR hy ⟨hw.1, hw.2.trans hv.2⟩).1, ?_⟩
  · rcases cl with cl | cl
    · left
      have := (abs_lt.1 cl).2
      have := (abs_le.1 A.Y1).1
      have := A.y100
      norm_num at *; linarith
    · right
      have pos (u : ℝ) (hu : 0 ≤ u) : 0 ≤ contract plo u := by
        unfold contract
        have : 0 ≤ 1 - plo / 2 := by linarith [hp.2]
        positivity
      have q1 := pos _ hU
      have q2 := pos _ q1
      have q3 := pos _ q2
      have m2 := (contract_mono hp.2 q1 k1).trans k2
      have m3 := (contract_mono hp.2 q2 m2).trans k3
      have m4 := (contract_mono hp.2 q3 m3).trans k4
      exact cl.trans m4

end Aim

end Mcu.Lemmas
