import Verif.Lemmas.F64Near
import Verif.Lemmas.F64Core
import Verif.Lemmas.RayCell

/-! The colours the exact search looks at in IEEE-754 binary64: the responses, with sharp bounds on the rounding errors. -/

namespace Mcu.Lemmas

open Mcu.Ieee Props Props.Binary64 MathUtils ColorUtils HctSolver Real

variable {L : Libm}

local notation "𝔻" => F64 L

theorem exp_tiny {x δ : ℝ} (h : |x| ≤ δ) (hδ : δ ≤ 1 / 2000) : |exp x - 1| ≤ 1.001 * δ := by
  have h1 := Real.abs_exp_sub_one_sub_id_le (x := x) (by refine h.trans (hδ.trans (by norm_num)))
  have d0 : 0 ≤ δ := (abs_nonneg x).trans h
  have h2 : x ^ 2 ≤ 1 / 2000 * δ := by
    rw [← sq_abs]
    have := mul_le_mul h (h.trans hδ) (abs_nonneg x) d0
    rw [pow_two]; linarith
  rw [abs_le] at *
  norm_num at *
  constructor <;> linarith

theorem log_tiny {r ε : ℝ} (h : |r - 1| ≤ ε) (hε : ε ≤ 1 / 2000) : |log r| ≤ 1.001 * ε := by
  have e0 : 0 ≤ ε := (abs_nonneg _).trans h
  obtain ⟨h1, h2⟩ := abs_le.1 h
  have rp : 0 < r := by norm_num at hε; linarith
  rw [abs_le]
  constructor
  · have := Real.one_sub_inv_le_log_of_pos rp
    refine le_trans ?_ this
    have : r⁻¹ ≤ 1 + 1.001 * ε := by
      rw [inv_le_iff_one_le_mul₀ rp, mul_comm]
      have h5 : (1 - ε) * (1 + 1.001 * ε) ≤ r * (1 + 1.001 * ε) := mul_le_mul_of_nonneg_right (by linarith) (by positivity)
      refine le_trans ?_ h5
      norm_num at hε ⊢
      nlinarith
    linarith
  · have := Real.log_le_sub_one_of_pos rp
    norm_num at this ⊢
    linarith

/-- The power of a number close to another one. -/
theorem rpow_tiny {v t w e ε δ M η : ℝ} (tp : 0 < t) (hv : |v - t| ≤ ε * t) (hw : |w - e| ≤ δ) (e0 : 0 ≤ e) (ε1 : ε ≤ 1 / 2000) (hM : |Real.log t| ≤ M)
    (hη : (e + δ) * (1.001 * ε) + δ * M ≤ η) (h1 : η ≤ 1 / 2000) : |v ^ w - t ^ e| ≤ 1.001 * η * t ^ e := by
  have hr : |v / t - 1| ≤ ε := by
    rw [show v / t - 1 = (v - t) / t by field_simp, abs_div, abs_of_pos tp, div_le_iff₀ tp]; exact hv
  have ε0 : 0 ≤ ε := (abs_nonneg _).trans hr
  have δ0 : 0 ≤ δ := (abs_nonneg _).trans hw
  have vp : 0 < v := by
    have := abs_le.1 hv
    have : ε * t ≤ 1 / 2000 * t := mul_le_mul_of_nonneg_right ε1 tp.le
    linarith
  set X := w * Real.log (v / t) + (w - e) * Real.log t with hX
  have es : v ^ w = t ^ e * exp X := by
    rw [rpow_def_of_pos vp, rpow_def_of_pos tp, ← Real.exp_add]; congr 1
    rw [hX, Real.log_div vp.ne' tp.ne']; ring
  have hXs : |X| ≤ η := by
    refine le_trans ?_ hη
    rw [hX]
    refine (abs_add_le _ _).trans (add_le_add ?_ ?_)
    · rw [abs_mul]
      have hw3 : |w| ≤ e + δ := by have := abs_le.1 hw; rw [abs_le]; constructor <;> linarith
      exact mul_le_mul hw3 (log_tiny hr ε1) (abs_nonneg _) (by linarith)
    · rw [abs_mul]
      exact mul_le_mul hw hM (abs_nonneg _) δ0
  have hE := exp_tiny hXs h1
  have hP : 0 < t ^ e := rpow_pos_of_pos tp e
  rw [es, show t ^ e * exp X - t ^ e = (exp X - 1) * t ^ e by ring, abs_mul, abs_of_pos hP]
  exact mul_le_mul_of_nonneg_right hE hP.le

theorem Rl.powT (hL : L.PowOk) {x y : 𝔻} {t ε e M : ℝ} (hx : Rl x t ε) {δ : ℝ} (hy : Ap y e δ) (ε1 : ε ≤ 1 / 2000)
    (t0 : 1 / 10 ^ 6 * 1.01 ≤ t) (t1 : t ≤ 10 ^ 59) (e0 : δ ≤ e) (e1 : e + δ ≤ 3) (hM : |Real.log t| ≤ M) (η : ℝ)
    (h3 : (e + δ) * (1.001 * ε) + δ * M ≤ 1 / 2000) (hη : ((e + δ) * (1.001 * ε) + δ * M) * 1.001 + 1.002 / 10 ^ 13 ≤ η) : Rl (Fl.powf x y) (t ^ e) η := by
  have δ0 := hy.nonneg
  obtain ⟨v, iv, hv⟩ := hx
  obtain ⟨w, iw, hw⟩ := hy
  have tp : 0 < t := lt_of_lt_of_le (by norm_num) t0
  have hv' := abs_le.1 hv
  have hw' := abs_le.1 hw
  have hε : ε * t ≤ 1 / 2000 * t := mul_le_mul_of_nonneg_right ε1 tp.le
  have vp : 0 < v := by linarith
  obtain ⟨p, ip, hp⟩ := is_pow64 hL iv iw (by norm_num at t0 ⊢; linarith) (by
    have : (10 : ℝ) ^ 60 = 10 * 10 ^ 59 := by norm_num
    linarith) (by linarith) (by linarith)
  refine ⟨p, ip, ?_⟩
  have hq := rpow_tiny tp hv hw (δ0.trans e0) ε1 hM le_rfl h3
  generalize (e + δ) * (1.001 * ε) + δ * M = Z at *
  have hP : 0 < t ^ e := rpow_pos_of_pos tp e
  have hq' := abs_le.1 hq
  have up : v ^ w ≤ 1.001 * t ^ e := by
    have : 1.001 * Z * t ^ e ≤ 0.001 * t ^ e := mul_le_mul_of_nonneg_right (by norm_num at h3 ⊢; linarith) hP.le
    norm_num at *; linarith
  calc |p - t ^ e| ≤ |p - v ^ w| + |v ^ w - t ^ e| := by
        have := abs_add_le (p - v ^ w) (v ^ w - t ^ e); rwa [sub_add_sub_cancel] at this
    _ ≤ 1.002 / 10 ^ 13 * t ^ e + 1.001 * Z * t ^ e := by
        refine add_le_add (hp.trans ?_) hq
        norm_num at up ⊢; linarith
    _ = (Z * 1.001 + 1.002 / 10 ^ 13) * t ^ e := by ring
    _ ≤ η * t ^ e := mul_le_mul_of_nonneg_right hη hP.le

/-- A chroma of the usual size. -/
structure Fine (hr C : 𝔻) : Prop extends Setting hr C where
  lo : 1 / 10 ^ 4 ≤ Dbl.val C
  hi : Dbl.val C ≤ 1000

theorem ap_ninth' : Ap (1.0 / 0.9 : 𝔻) (1 / 0.9) (56 / 10 ^ 16) := by
  have h : Rl (1.0 / 0.9 : 𝔻) (1 / 0.9) (5 / 10 ^ 15) :=
    (rl_lit (L := L) (m := 10) (s := true) (e := 1) 1 (by norm_num) (by norm_num) (by norm_num)).div
      (rl_lit (L := L) (m := 9) (s := true) (e := 1) 0.9 (by norm_num) (by norm_num) (by norm_num))
      (by norm_num) (by norm_num) (by norm_num) (by norm_num) (by norm_num) (by norm_num) (by norm_num) _ (by norm_num)
  obtain ⟨v, iv, hv⟩ := h
  exact ⟨v, iv, hv.trans (by norm_num)⟩

theorem Fine.t (hL : L.PowOk) {hr C j : 𝔻} (h : Fine hr C) {a : ℝ} (hj : Is j a) (h0 : 0.002 ≤ a) (h1 : a ≤ 150) :
    Rl (tOf C j) ((ray64 hr C).T (log a)) (2.1 / 10 ^ 13) ∧ (1 / 10 ^ 5 ≤ (ray64 hr C).T (log a) ∧ (ray64 hr C).T (log a) ≤ 10 ^ 7) := by
  have ha : 0 < a := by norm_num at h0; linarith
  rw [ray64_T hL h.toSetting ha]
  obtain ⟨s0, s1⟩ := sqrt_range h0 h1
  obtain ⟨k, ik, k1, k2⟩ := in_k hL
  rw [ik.2] at *
  have hs : 0 < Real.sqrt (a / 100) := lt_of_lt_of_le (by norm_num) s0
  have ic : Is C (Dbl.val C) := ⟨h.fin, rfl⟩
  have c0 := h.lo
  have c1 := h.hi
  generalize Dbl.val C = x at *
  have x0 : 0 < x := lt_of_lt_of_le (by norm_num) c0
  have r1 := (rl_hundredth hj h0 h1).sqrt (by norm_num) (by norm_num) (le_trans (by norm_num) s0) (s1.trans (by norm_num)) (2 / 10 ^ 15) (by norm_num)
  have b1 : 1 / 10 ^ 4 / 1.25 ≤ x / Real.sqrt (a / 100) := div_le_div₀ x0.le c0 hs s1
  have b2 : x / Real.sqrt (a / 100) ≤ 1000 / 0.004 := div_le_div₀ (by norm_num) c1 (by norm_num) s0
  have l : 8 / 10 ^ 5 ≤ x / Real.sqrt (a / 100) * k := by
    have h3 : x / Real.sqrt (a / 100) * 1 ≤ x / Real.sqrt (a / 100) * k := mul_le_mul_of_nonneg_left k1 (by positivity)
    norm_num at *; linarith
  have u : x / Real.sqrt (a / 100) * k ≤ 300000 := by
    have h3 : x / Real.sqrt (a / 100) * k ≤ 1000 / 0.004 * 1.2 := mul_le_mul b2 k2 (by linarith) (by norm_num)
    refine h3.trans ?_
    norm_num
  have r2 := ic.rl.div r1 x0 hs le_rfl (by norm_num) (le_trans (by norm_num) b1) (b2.trans (by norm_num)) (by norm_num) (4 / 10 ^ 15) (by norm_num)
  have r3 := r2.mul ik.rl (by positivity) (by linarith) (by norm_num) le_rfl (le_trans (by norm_num) l) (u.trans (by norm_num)) (by norm_num) (6 / 10 ^ 15) (by norm_num)
  refine ⟨r3.powT hL ap_ninth' (by norm_num) (le_trans (by norm_num) l) (u.trans (by norm_num)) (by norm_num) (by norm_num)
    (log_within 6 (le_trans (by norm_num) l) (u.trans (by norm_num))) _ (by norm_num) (by norm_num), ?_, ?_⟩
  · rw [show (1 / 0.9 : ℝ) = ((10 : ℕ) : ℝ) / ((9 : ℕ) : ℝ) by norm_num]
    apply le_rpow_of_pow_le (by norm_num) (by norm_num) (by positivity)
    refine le_trans ?_ (pow_le_pow_left₀ (by norm_num) l 10)
    norm_num
  · rw [show (1 / 0.9 : ℝ) = ((10 : ℕ) : ℝ) / ((9 : ℕ) : ℝ) by norm_num]
    apply rpow_le_of_le_pow (by norm_num) (by norm_num) (by positivity)
    refine (pow_le_pow_left₀ (by positivity) u 10).trans ?_
    norm_num

theorem Setting.p (hL : L.PowOk) (hE : L.ExpOk) {hr C j : 𝔻} (h : Setting hr C) {a : ℝ} (hj : Is j a) (h0 : 0.002 ≤ a) (h1 : a ≤ 148.4) :
    Rl (p2Of j) ((ray64 hr C).P (log a)) (1.3 / 10 ^ 13) := by
  have ha : 0 < a := by norm_num at h0; linarith
  have h1' : a ≤ 150 := by norm_num at h1; linarith
  obtain ⟨p0, p1⟩ := P_range hL hE h h0 h1
  obtain ⟨A, iA, A1, A2⟩ := in_aw hL hE
  obtain ⟨B, iB, B1, B2⟩ := in_nbb hL
  have hq := (h.ok hL hE).q
  have iq : Is (qOf L) (ray64 hr C).q := ⟨(in_q (L := L)).choose_spec.1.1, rfl⟩
  rw [ray64_P hr C ha] at *
  unfold wRatio at *
  rw [iA.2, iB.2] at *
  generalize (ray64 hr C).q = q at *
  have ap : Ap (qOf L) q 0 := ⟨q, iq, by simp⟩
  have r1 := (rl_hundredth hj h0 h1').powT hL ap (by norm_num) (by norm_num at h0 ⊢; linarith) (by norm_num; linarith)
    (by norm_num at hq; linarith [hq.1]) (by norm_num at hq ⊢; linarith [hq.2])
    (log_within 6 (by norm_num at h0 ⊢; linarith) (by norm_num; linarith)) (1.02 / 10 ^ 13) (by norm_num at hq ⊢; linarith [hq.2]) (by norm_num at hq ⊢; linarith [hq.2])
  have A0 : 0 < A := by norm_num at A1; linarith
  have B0 : 0 < B := by norm_num at B1; linarith
  have z : 0 < (a / 100) ^ q := by positivity
  have eq : A / B * (a / 100) ^ q = A * (a / 100) ^ q / B := by ring
  rw [eq] at p0 p1 ⊢
  have e2 : A * (a / 100) ^ q = A * (a / 100) ^ q / B * B := by field_simp
  have l2 : 0.0078 * 1 ≤ A * (a / 100) ^ q := by rw [e2]; exact mul_le_mul p0 (by norm_num at B1; linarith) (by norm_num) (by positivity)
  have u2 : A * (a / 100) ^ q ≤ 40 * 2 := by rw [e2]; exact mul_le_mul p1 (by norm_num at B2; linarith) B0.le (by norm_num)
  have r2 := iA.rl.mul r1 A0 z le_rfl (by norm_num) (le_trans (by norm_num) l2) (u2.trans (by norm_num)) (by norm_num) (1.04 / 10 ^ 13) (by norm_num)
  exact r2.div iB.rl (by positivity) B0 (by norm_num) le_rfl (le_trans (by norm_num) p0) (p1.trans (by norm_num)) (by norm_num) _ (by norm_num)

theorem num_sharp {p t : 𝔻} {P T : ℝ} (hp : Rl p P (1.3 / 10 ^ 13)) (ht : Rl t T (2.1 / 10 ^ 13)) (p0 : 0.0078 ≤ P) (p1 : P ≤ 40)
    (t0 : 1 / 10 ^ 5 ≤ T) (t1 : T ≤ 10 ^ 7) : Rl (numOf p t) (23 * (P + 0.305) * T) (3.5 / 10 ^ 13) := by
  have i23 : Is (23.0 : 𝔻) 23 := by simpa using lit (L := L) 230 1 true 23 (by norm_num) (by norm_num)
  have P0 : 0 < P := by norm_num at p0; linarith
  have T0 : 0 < T := lt_of_lt_of_le (by norm_num) t0
  have r1 := hp.add (rl_lit (L := L) (m := 305) (s := true) (e := 3) 0.305 (by norm_num) (by norm_num) (by norm_num)) P0 (by norm_num) (by norm_num) (by norm_num)
    (by norm_num; linarith) (by norm_num; linarith) (by norm_num) (1.31 / 10 ^ 13) (by norm_num)
  have r2 := i23.rl.mul r1 (by norm_num) (by positivity) le_rfl (by norm_num) (by norm_num; linarith) (by norm_num; linarith) (by norm_num) (1.33 / 10 ^ 13) (by norm_num)
  refine r2.mul ht (by positivity) T0 (by norm_num) (by norm_num) ?_ ?_ (by norm_num) _ (by norm_num)
  · have : 1 * (1 / 10 ^ 5) ≤ 23 * (P + 0.305) * T := mul_le_mul (by norm_num; linarith) t0 (by norm_num) (by positivity)
    refine le_trans ?_ this
    norm_num
  · have : 23 * (P + 0.305) * T ≤ 1000 * 10 ^ 7 := mul_le_mul (by norm_num; linarith) t1 T0.le (by norm_num)
    refine this.trans ?_
    norm_num

/-! ### A point of the ray near the gamut -/

/-- The chromatic parts against the green response. -/
theorem Ray.Here.parts {R : Ray} {v : ℝ} (h : R.Here v) : 2.8435 * R.Ag v ≤ R.P v ∧ R.P v ≤ 3.84 * R.Ag v ∧ |R.gam v * R.c| ≤ 0.505 * R.Ag v ∧
    |R.gam v * R.s| ≤ 0.38 * R.Ag v ∧ 9 * (R.gam v * R.s) = R.Ar v + R.Ag v - 2 * R.Ab v := by
  obtain ⟨n0, n1, n2, n3, n4⟩ := h.near
  have ea : 11 * (R.gam v * R.c) = 11 * R.Ar v - 12 * R.Ag v + R.Ab v := by unfold Ray.Ar Ray.Ag Ray.Ab; ring
  have eb : 9 * (R.gam v * R.s) = R.Ar v + R.Ag v - 2 * R.Ab v := by unfold Ray.Ar Ray.Ag Ray.Ab; ring
  have ep := Ray.achromatic_eq (R := R) v
  unfold achromatic at ep
  generalize R.gam v * R.c = x at *
  generalize R.gam v * R.s = y at *
  refine ⟨?_, ?_, abs_le.2 ⟨?_, ?_⟩, abs_le.2 ⟨?_, ?_⟩, eb⟩ <;> norm_num at * <;> linarith

/-- The terms of the denominator. -/
theorem Ray.Here.terms {R : Ray} {v : ℝ} (h : R.Here v) : 23 * R.p1 ≤ 1.6 * R.den v ∧ |R.c| * (11 * R.T v) ≤ 0.086 * R.den v ∧ |R.s| * (108 * R.T v) ≤ 0.63 * R.den v := by
  obtain ⟨a, -, b, c, -⟩ := h.parts
  have hd := h.den
  have hP := Ray.P_pos h.ok v
  have hT := Ray.T_pos h.ok v
  have hn := h.near.pos
  have hg : 0 < R.gam v := by unfold Ray.gam; positivity
  have hp : 0 < R.P v + 0.305 := by positivity
  have e : 23 * (R.P v + 0.305) * R.T v = R.gam v * R.den v := by unfold Ray.gam; field_simp
  refine ⟨?_, ?_, ?_⟩
  · have := Ray.slow_le h.near hd.ne'
    rw [div_mul_eq_mul_div, div_le_iff₀ hd] at this
    have h1 : 0.305 * R.den v ≤ 1.6 * 0.305 * R.den v := by norm_num; linarith
    have h2 : 23 * R.p1 * (R.P v + 0.305) ≤ 1.6 * R.den v * (R.P v + 0.305) := by linarith
    exact le_of_mul_le_mul_right h2 hp
  · rw [abs_mul, abs_of_pos hg] at b
    have h1 : |R.c| * (11 * R.T v) * (23 * (R.P v + 0.305)) = 11 * (R.gam v * |R.c|) * R.den v := by
      rw [show |R.c| * (11 * R.T v) * (23 * (R.P v + 0.305)) = 11 * |R.c| * (23 * (R.P v + 0.305) * R.T v) by ring, e]; ring
    have h2 : 11 * (R.gam v * |R.c|) ≤ 0.086 * (23 * (R.P v + 0.305)) := by norm_num at *; linarith
    have h3 := mul_le_mul_of_nonneg_right h2 hd.le
    rw [← h1] at h3
    refine le_of_mul_le_mul_right (a := 23 * (R.P v + 0.305)) ?_ (by positivity)
    linarith
  · rw [abs_mul, abs_of_pos hg] at c
    have h1 : |R.s| * (108 * R.T v) * (23 * (R.P v + 0.305)) = 108 * (R.gam v * |R.s|) * R.den v := by
      rw [show |R.s| * (108 * R.T v) * (23 * (R.P v + 0.305)) = 108 * |R.s| * (23 * (R.P v + 0.305) * R.T v) by ring, e]; ring
    have h2 : 108 * (R.gam v * |R.s|) ≤ 0.63 * (23 * (R.P v + 0.305)) := by norm_num at *; linarith
    have h3 := mul_le_mul_of_nonneg_right h2 hd.le
    rw [← h1] at h3
    refine le_of_mul_le_mul_right (a := 23 * (R.P v + 0.305)) ?_ (by positivity)
    linarith

/-- The denominator, for a computed saturation term `t` close to the exact one. -/
theorem Fine.den_of {hr C t : 𝔻} (h : Fine hr C) {a : ℝ} (ht : Rl t ((ray64 hr C).T (log a)) (2.1 / 10 ^ 13)) (T0 : 1 / 10 ^ 5 ≤ (ray64 hr C).T (log a))
    (T1 : (ray64 hr C).T (log a) ≤ 10 ^ 7) (hh : (ray64 hr C).Here (log a)) :
    Rl (denOf (p1Of hr) t (Fl.cos hr) (Fl.sin hr)) ((ray64 hr C).den (log a)) (5.2 / 10 ^ 13) ∧
    1 ≤ (ray64 hr C).den (log a) ∧ (ray64 hr C).den (log a) ≤ 10 ^ 10 := by
  obtain ⟨t1, t2, t3⟩ := hh.terms
  obtain ⟨τ, iτ, hτ⟩ := ht
  have i23 : Is (23.0 : 𝔻) 23 := by simpa using lit (L := L) 230 1 true 23 (by norm_num) (by norm_num)
  have i11 : Is (11.0 : 𝔻) 11 := by simpa using lit (L := L) 110 1 true 11 (by norm_num) (by norm_num)
  have i108 : Is (108.0 : 𝔻) 108 := by simpa using lit (L := L) 1080 1 true 108 (by norm_num) (by norm_num)
  have p0 := h.p1_lo
  have p1 := h.p1_hi
  have ip := h.p1
  have ic := h.cos
  have is := h.sin
  have c1 := h.c_le
  have s1 := h.s_le
  have ed : (ray64 hr C).den (log a) = 23 * (ray64 hr C).p1 + (ray64 hr C).c * (11 * (ray64 hr C).T (log a)) + (ray64 hr C).s * (108 * (ray64 hr C).T (log a)) := by
    unfold Ray.den Ray.d; ring
  have hden := hh.den
  have cc := neg_abs_le (ray64 hr C).c
  have cc' := le_abs_self (ray64 hr C).c
  have ss := neg_abs_le (ray64 hr C).s
  have ss' := le_abs_self (ray64 hr C).s
  generalize (ray64 hr C).T (log a) = T at *
  generalize (ray64 hr C).p1 = p at *
  generalize (ray64 hr C).den (log a) = D at *
  generalize (ray64 hr C).c = c at *
  generalize (ray64 hr C).s = s at *
  have Tp : 0 < T := lt_of_lt_of_le (by norm_num) T0
  have mul (k : ℝ) (k0 : 1 ≤ k) (k1 : k ≤ 108) : |rnd (k * τ)| < 2 ^ 1024 ∧ |rnd (k * τ) - k * T| ≤ 2.13 / 10 ^ 13 * (k * T) := by
    have hτ' := abs_le.1 hτ
    have w : |k * τ| ≤ 1.1 * (k * T) := by
      rw [abs_mul, abs_of_pos (by linarith)]
      have : |τ| ≤ 1.1 * T := by rw [abs_le]; norm_num at *; constructor <;> linarith
      have := mul_le_mul_of_nonneg_left this (show 0 ≤ k by linarith)
      linarith
    have kT : k * T ≤ 108 * 10 ^ 7 := mul_le_mul k1 T1 Tp.le (by norm_num)
    have kT0 : 1 / 10 ^ 5 ≤ k * T := by nlinarith
    refine ⟨rnd_huge (w.trans ?_), ?_⟩
    · refine (mul_le_mul_of_nonneg_left kT (by norm_num)).trans ?_
      norm_num
    · have e1 := (rnd_any (k * τ)).trans (add_le_add (mul_le_mul_of_nonneg_right w (by norm_num)) le_rfl)
      have e2 : |k * τ - k * T| ≤ 2.1 / 10 ^ 13 * (k * T) := by
        rw [← mul_sub, abs_mul, abs_of_pos (by linarith)]
        have := mul_le_mul_of_nonneg_left hτ (show 0 ≤ k by linarith)
        linarith
      have := abs_add_le (rnd (k * τ) - k * τ) (k * τ - k * T)
      rw [sub_add_sub_cancel] at this
      refine this.trans ((add_le_add e1 e2).trans ?_)
      generalize k * T = z at *
      norm_num at *; linarith
  obtain ⟨o1, e1⟩ := mul 11 (by norm_num) (by norm_num)
  obtain ⟨o2, e2⟩ := mul 108 (by norm_num) (by norm_num)
  have j1 := i11.mul iτ o1
  have j2 := i108.mul iτ o2
  have a1 : |c| * (11 * T) ≤ 1.001 * (11 * 10 ^ 7) := mul_le_mul c1 (by linarith) (by positivity) (by norm_num)
  have a2 : |s| * (108 * T) ≤ 1.001 * (108 * 10 ^ 7) := mul_le_mul s1 (by linarith) (by positivity) (by norm_num)
  have b1 : c * (11 * T) ≤ |c| * (11 * T) := mul_le_mul_of_nonneg_right cc' (by positivity)
  have b2 : s * (108 * T) ≤ |s| * (108 * T) := mul_le_mul_of_nonneg_right ss' (by positivity)
  have z1 : 0 ≤ |c| * (11 * T) := by positivity
  have z2 : 0 ≤ |s| * (108 * T) := by positivity
  have c3 := comb3 (L := L) (m1 := 23.0 * p1Of hr) (m2 := 11.0 * t * Fl.cos hr) (m3 := 108.0 * t * Fl.sin hr) (p := 23.0 * p1Of hr + 11.0 * t * Fl.cos hr)
    (q := denOf (p1Of hr) (t) (Fl.cos hr) (Fl.sin hr)) (A := 23) (X := p) (B := c) (Y := 11 * T) (C := s) (Z := 108 * T) (ε := 2.13 / 10 ^ 13) 1 (by norm_num)
    (a' := 23) (x' := p) (b' := c) (y' := rnd (11 * τ)) (c' := s) (z' := rnd (108 * τ)) (fun h => i23.mul ip h)
    (fun h => by rw [mul_comm] at h ⊢; exact j1.mul ic h) (fun h => by rw [mul_comm] at h ⊢; exact j2.mul is h) (by rw [sub_self, abs_zero]; positivity) e1 e2
    (by rw [sub_self, abs_zero]; positivity) (by rw [sub_self, abs_zero]; positivity) (by rw [sub_self, abs_zero]; positivity) (by linarith) (by positivity) (by positivity) (by norm_num) (by norm_num)
    (by rw [abs_of_pos (by norm_num)]; norm_num at *; linarith) (by rw [abs_of_pos (by norm_num)]; norm_num at *; linarith) (fun a b ha hb h => ha.add hb h)
    (fun w s hw hs h => by rw [one_mul] at h ⊢; exact hs.add hw h)
  obtain ⟨v, iv, hv⟩ := c3
  rw [one_mul, ← ed, abs_of_pos (by norm_num : (0 : ℝ) < 23)] at hv
  refine ⟨⟨v, iv, hv.trans ?_⟩, ?_, ?_⟩
  · generalize |c| * (11 * T) = k1 at *
    generalize |s| * (108 * T) = k2 at *
    clear mul e1 e2 o1 o2 j1 j2 hv iv iτ hτ
    norm_num at *; linarith
  · norm_num at *; linarith
  · rw [ed]; norm_num at *; linarith

/-- The factor of the chromatic parts, for the saturation term `t`. -/
noncomputable def gammaWith (hr j t : 𝔻) : 𝔻 := numOf (p2Of j) t / denOf (p1Of hr) t (Fl.cos hr) (Fl.sin hr)

theorem Fine.gamma_of (hL : L.PowOk) (hE : L.ExpOk) {hr C j t : 𝔻} (h : Fine hr C) {a : ℝ} (hj : Is j a) (h0 : 0.002 ≤ a) (h1 : a ≤ 148.4) (ht : Rl t ((ray64 hr C).T (log a)) (2.1 / 10 ^ 13))
    (T0 : 1 / 10 ^ 5 ≤ (ray64 hr C).T (log a)) (T1 : (ray64 hr C).T (log a) ≤ 10 ^ 7) (hh : (ray64 hr C).Here (log a)) :
    Rl (gammaWith hr j t) ((ray64 hr C).gam (log a)) (9.6 / 10 ^ 13) := by
  obtain ⟨r1, d0, d1⟩ := h.den_of ht T0 T1 hh
  obtain ⟨p0, p1⟩ := P_range hL hE h.toSetting h0 h1
  have r2 := num_sharp (h.toSetting.p hL hE hj h0 h1) ht p0 p1 T0 T1
  have hd := hh.den
  have hP := Ray.P_pos hh.ok (log a)
  have hT := Ray.T_pos hh.ok (log a)
  have n0 : 1 / 10 ^ 5 ≤ 23 * ((ray64 hr C).P (log a) + 0.305) * (ray64 hr C).T (log a) := by
    have : 1 * (1 / 10 ^ 5) ≤ 23 * ((ray64 hr C).P (log a) + 0.305) * (ray64 hr C).T (log a) := mul_le_mul (by norm_num; linarith) T0 (by norm_num) (by positivity)
    linarith
  have n1 : 23 * ((ray64 hr C).P (log a) + 0.305) * (ray64 hr C).T (log a) ≤ 1000 * 10 ^ 7 := mul_le_mul (by norm_num; linarith) T1 hT.le (by norm_num)
  refine r2.div r1 (by positivity) hd (by norm_num) (by norm_num) ?_ ?_ (by norm_num) _ (by norm_num)
  · have : 1 / 10 ^ 5 / 10 ^ 10 ≤ 23 * ((ray64 hr C).P (log a) + 0.305) * (ray64 hr C).T (log a) / (ray64 hr C).den (log a) := div_le_div₀ (by positivity) n0 hd d1
    refine le_trans ?_ this; norm_num
  · have : 23 * ((ray64 hr C).P (log a) + 0.305) * (ray64 hr C).T (log a) / (ray64 hr C).den (log a) ≤ 1000 * 10 ^ 7 / 1 := div_le_div₀ (by norm_num) n1 (by norm_num) d0
    refine this.trans ?_; norm_num

/-- The sum of three doubles, divided by 1403. -/
theorem third {u v w : 𝔻} {a b c S : ℝ} (hu : Is u a) (hv : Is v b) (hw : Is w c) (S0 : 1 / 1000 ≤ S) (S1 : S ≤ 1000) (ba : |a| ≤ 2000 * S) (bb : |b| ≤ 3000 * S)
    (bc : |c| ≤ 3000 * S) : ∃ α, Is ((u + v + w) / 1403.0) α ∧ |1403 * α - (a + b + c)| ≤ 5 / 10 ^ 12 * S := by
  have i1403 : Is (1403.0 : 𝔻) 1403 := by simpa using lit (L := L) 14030 1 true 1403 (by norm_num) (by norm_num)
  have step : ∀ x K : ℝ, |x| ≤ K * S → 0 ≤ K → K ≤ 10000 → |rnd x| < 2 ^ 1024 ∧ |rnd x - x| ≤ (K * (2 / 10 ^ 16) + 1 / 10 ^ 60) * S := fun x K hv h0 hK => by
    refine ⟨rnd_huge (hv.trans ?_), rnd_next S0 hv h0⟩
    calc K * S ≤ 10000 * 1000 := mul_le_mul hK S1 (by linarith) (by norm_num)
      _ ≤ _ := by norm_num
  have Sp : 0 < S := by linarith
  obtain ⟨o1, e1⟩ := step (a + b) 5000 ((abs_add_le _ _).trans (by linarith)) (by norm_num) (by norm_num)
  have j1 := hu.add hv o1
  generalize rnd (a + b) = s1 at *
  have b1 : |s1 + c| ≤ 8001 * S := by
    rw [abs_le] at *; norm_num at *; constructor <;> linarith
  obtain ⟨o2, e2⟩ := step (s1 + c) 8001 b1 (by norm_num) (by norm_num)
  have j2 := j1.add hw o2
  generalize rnd (s1 + c) = s2 at *
  have b2 : |s2 / 1403| ≤ 6 * S := by
    rw [abs_le, le_div_iff₀ (by norm_num), div_le_iff₀ (by norm_num)]
    rw [abs_le] at *; norm_num at *; constructor <;> linarith
  obtain ⟨o3, e3⟩ := step (s2 / 1403) 6 b2 (by norm_num) (by norm_num)
  refine ⟨_, j2.div i1403 (by norm_num) o3, ?_⟩
  generalize rnd (s2 / 1403) = z at *
  clear j1 j2 step hu hv hw
  rw [abs_le] at *
  norm_num at *
  constructor <;> linarith

set_option maxHeartbeats 1600000 in
/-- The computed responses. -/
theorem Fine.resp_of (hL : L.PowOk) (hE : L.ExpOk) {hr C j t : 𝔻} (h : Fine hr C) {a : ℝ} (hj : Is j a) (h0 : 0.002 ≤ a) (h1 : a ≤ 148.4) (ht : Rl t ((ray64 hr C).T (log a)) (2.1 / 10 ^ 13))
    (T0 : 1 / 10 ^ 5 ≤ (ray64 hr C).T (log a)) (T1 : (ray64 hr C).T (log a) ≤ 10 ^ 7) (hh : (ray64 hr C).Here (log a)) :
    Rl (respR (p2Of j) (gammaWith hr j t * Fl.cos hr) (gammaWith hr j t * Fl.sin hr)) ((ray64 hr C).Ar (log a)) (6 / 10 ^ 13) ∧
    Rl (respG (p2Of j) (gammaWith hr j t * Fl.cos hr) (gammaWith hr j t * Fl.sin hr)) ((ray64 hr C).Ag (log a)) (7 / 10 ^ 13) ∧
    Rl (respB (p2Of j) (gammaWith hr j t * Fl.cos hr) (gammaWith hr j t * Fl.sin hr)) ((ray64 hr C).Ab (log a)) (2.2 / 10 ^ 12) := by
  obtain ⟨γ, iγ, hγ⟩ := h.gamma_of hL hE hj h0 h1 ht T0 T1 hh
  obtain ⟨ϖ, iϖ, hϖ⟩ := h.toSetting.p hL hE hj h0 h1
  obtain ⟨p0, p1⟩ := P_range hL hE h.toSetting h0 h1
  obtain ⟨q0, q1, q2, q3, q4⟩ := hh.parts
  obtain ⟨n0, n1, n2, n3, n4⟩ := hh.near
  have ic := h.cos
  have is := h.sin
  have i460 : Is (460.0 : 𝔻) 460 := by simpa using lit (L := L) 4600 1 true 460 (by norm_num) (by norm_num)
  have hg : 0 < (ray64 hr C).gam (log a) := by
    have hd := hh.den
    have hP := Ray.P_pos hh.ok (log a)
    have hT := Ray.T_pos hh.ok (log a)
    unfold Ray.gam; positivity
  have er : 1403 * (ray64 hr C).Ar (log a) = 460 * (ray64 hr C).P (log a) + 451 * ((ray64 hr C).gam (log a) * (ray64 hr C).c) + 288 * ((ray64 hr C).gam (log a) * (ray64 hr C).s) := by
    unfold Ray.Ar; ring
  have eg : 1403 * (ray64 hr C).Ag (log a) = 460 * (ray64 hr C).P (log a) - 891 * ((ray64 hr C).gam (log a) * (ray64 hr C).c) - 261 * ((ray64 hr C).gam (log a) * (ray64 hr C).s) := by
    unfold Ray.Ag; ring
  have eb : 1403 * (ray64 hr C).Ab (log a) = 460 * (ray64 hr C).P (log a) - 220 * ((ray64 hr C).gam (log a) * (ray64 hr C).c) - 6300 * ((ray64 hr C).gam (log a) * (ray64 hr C).s) := by
    unfold Ray.Ab; ring
  have part (k : ℝ) : |γ * k - (ray64 hr C).gam (log a) * k| ≤ 9.6 / 10 ^ 13 * |(ray64 hr C).gam (log a) * k| := by
    rw [← sub_mul, abs_mul, abs_mul, abs_of_pos hg, ← mul_assoc]
    exact mul_le_mul_of_nonneg_right hγ (abs_nonneg _)
  have pc := part (ray64 hr C).c
  have ps := part (ray64 hr C).s
  clear part
  have a0 : 0 < (ray64 hr C).Ag (log a) := n0
  generalize (ray64 hr C).Ag (log a) = g at *
  generalize (ray64 hr C).Ar (log a) = r at *
  generalize (ray64 hr C).Ab (log a) = b at *
  generalize (ray64 hr C).P (log a) = P at *
  generalize (ray64 hr C).gam (log a) * (ray64 hr C).c = x at *
  generalize (ray64 hr C).gam (log a) * (ray64 hr C).s = y at *
  have S0 : 1 / 1000 ≤ g := by norm_num at *; linarith
  have S1 : g ≤ 1000 := by norm_num at *; linarith
  have step : ∀ x K : ℝ, |x| ≤ K * g → 0 ≤ K → K ≤ 10000 → |rnd x| < 2 ^ 1024 ∧ |rnd x - x| ≤ (K * (2 / 10 ^ 16) + 1 / 10 ^ 60) * g := fun x K hv h0 hK => by
    refine ⟨rnd_huge (hv.trans ?_), rnd_next S0 hv h0⟩
    calc K * g ≤ 10000 * 1000 := mul_le_mul hK S1 (by linarith) (by norm_num)
      _ ≤ _ := by norm_num
  have pc' : |γ * (ray64 hr C).c| ≤ 0.51 * g := by
    have := abs_le.1 pc; rw [abs_le] at q2 ⊢
    have hx : |x| ≤ 0.505 * g := abs_le.2 q2
    norm_num at *; constructor <;> linarith
  have ps' : |γ * (ray64 hr C).s| ≤ 0.39 * g := by
    have := abs_le.1 ps; rw [abs_le] at q3 ⊢
    have hx : |y| ≤ 0.38 * g := abs_le.2 q3
    norm_num at *; constructor <;> linarith
  obtain ⟨oc, ec⟩ := step _ 0.51 pc' (by norm_num) (by norm_num)
  obtain ⟨os, es⟩ := step _ 0.39 ps' (by norm_num) (by norm_num)
  have jc := iγ.mul ic oc
  have js := iγ.mul is os
  have fc : |rnd (γ * (ray64 hr C).c) - x| ≤ 4.9 / 10 ^ 13 * g := by
    have hx : |x| ≤ 0.505 * g := q2
    rw [abs_le] at pc ec ⊢
    generalize rnd (γ * (ray64 hr C).c) = z at *
    generalize γ * (ray64 hr C).c = z' at *
    norm_num at *; constructor <;> linarith
  have fs : |rnd (γ * (ray64 hr C).s) - y| ≤ 9.6 / 10 ^ 13 * |y| + 1 / 10 ^ 16 * g := by
    rw [abs_le] at ps es ⊢
    generalize rnd (γ * (ray64 hr C).s) = z at *
    generalize γ * (ray64 hr C).s = z' at *
    norm_num at *; constructor <;> linarith
  generalize rnd (γ * (ray64 hr C).c) = α at *
  generalize rnd (γ * (ray64 hr C).s) = β at *
  have bα : |α| ≤ 0.52 * g := by
    rw [abs_le] at fc q2 ⊢; norm_num at *; constructor <;> linarith
  have bβ : |β| ≤ 0.4 * g := by
    have hy : |y| ≤ 0.38 * g := q3
    rw [abs_le] at fs q3 ⊢; norm_num at *; constructor <;> linarith
  have bϖ : |ϖ| ≤ 4 * g := by
    rw [abs_le] at hϖ ⊢; norm_num at *; constructor <;> linarith
  have term (k : ℝ) (z K : ℝ) (hz : |z| ≤ K * g) (k0 : 0 ≤ k) (k1 : k * K ≤ 10000) (K0 : 0 ≤ K) : |rnd (k * z)| < 2 ^ 1024 ∧ |rnd (k * z) - k * z| ≤ (k * K * (2 / 10 ^ 16) + 1 / 10 ^ 60) * g ∧ |k * z| ≤ k * K * g := by
    have : |k * z| ≤ k * K * g := by
      rw [abs_mul, abs_of_nonneg k0, mul_assoc]; exact mul_le_mul_of_nonneg_left hz k0
    obtain ⟨o, e⟩ := step _ _ this (by positivity) k1
    exact ⟨o, e, this⟩
  obtain ⟨m0, m0e, m0b⟩ := term 460 ϖ 4 bϖ (by norm_num) (by norm_num) (by norm_num)
  have k0 := i460.mul iϖ m0
  have m0' : |rnd (460 * ϖ) - 460 * P| ≤ 2.31 / 10 ^ 10 * g ∧ |rnd (460 * ϖ)| ≤ 2000 * g := by
    rw [abs_le] at m0e m0b hϖ
    rw [abs_le, abs_le]
    generalize rnd (460 * ϖ) = z at *
    norm_num at *; refine ⟨⟨?_, ?_⟩, ?_, ?_⟩ <;> linarith
  obtain ⟨m0', m0b'⟩ := m0'
  have hy3 : |y| ≤ 0.38 * g := q3
  have y0 := abs_nonneg y
  have fin {M : 𝔻} {k z K : ℝ} (hM : Is M k) {w : 𝔻} (hw : Is w z) (hz : |z| ≤ K * g) (k0 : 0 ≤ k) (k1 : k * K ≤ 2999) (K0 : 0 ≤ K) :
      ∃ t, Is (M * w) t ∧ |t - k * z| ≤ 6 / 10 ^ 13 * g ∧ |t| ≤ 3000 * g := by
    obtain ⟨o, e, b⟩ := term k z K hz k0 (by linarith) K0
    refine ⟨_, hM.mul hw o, ?_, ?_⟩
    · refine e.trans (mul_le_mul_of_nonneg_right ?_ a0.le)
      have := mul_le_mul_of_nonneg_right k1 (show (0 : ℝ) ≤ 2 / 10 ^ 16 by norm_num)
      refine (add_le_add this le_rfl).trans ?_
      norm_num
    · have h5 : |rnd (k * z) - k * z| ≤ 1 / 10 * g := by
        refine e.trans (mul_le_mul_of_nonneg_right ?_ a0.le)
        have := mul_le_mul_of_nonneg_right k1 (show (0 : ℝ) ≤ 2 / 10 ^ 16 by norm_num)
        refine (add_le_add this le_rfl).trans ?_
        norm_num
      have h6 : k * K * g ≤ 2999 * g := mul_le_mul_of_nonneg_right k1 a0.le
      have := abs_add_le (rnd (k * z) - k * z) (k * z)
      rw [sub_add_cancel] at this
      linarith
  obtain ⟨t1, it1, et1, bt1⟩ := fin i451 jc bα (by norm_num) (by norm_num) (by norm_num)
  obtain ⟨t2, it2, et2, bt2⟩ := fin i288 js bβ (by norm_num) (by norm_num) (by norm_num)
  obtain ⟨t3, it3, et3, bt3⟩ := fin i891 jc bα (by norm_num) (by norm_num) (by norm_num)
  obtain ⟨t4, it4, et4, bt4⟩ := fin i261 js bβ (by norm_num) (by norm_num) (by norm_num)
  obtain ⟨t5, it5, et5, bt5⟩ := fin i220 jc bα (by norm_num) (by norm_num) (by norm_num)
  obtain ⟨t6, it6, et6, bt6⟩ := fin i6300 js bβ (by norm_num) (by norm_num) (by norm_num)
  obtain ⟨A, iA, hA⟩ := third k0 it1 it2 S0 S1 m0b' bt1 bt2
  obtain ⟨B, iB, hB⟩ := third k0 it3.neg it4.neg S0 S1 m0b' (by rw [abs_neg]; exact bt3) (by rw [abs_neg]; exact bt4)
  obtain ⟨D, iD, hD⟩ := third k0 it5.neg it6.neg S0 S1 m0b' (by rw [abs_neg]; exact bt5) (by rw [abs_neg]; exact bt6)
  generalize rnd (460 * ϖ) = s0 at *
  have yb : 9 * |y| ≤ max (r + g - 2 * b) (2 * b - r - g) := by
    rcases abs_cases y with ⟨e, -⟩ | ⟨e, -⟩
    · rw [e]; exact le_max_of_le_left q4.le
    · rw [e]; refine le_max_of_le_right ?_; linarith
  clear term fin step jc js it1 it2 it3 it4 it5 it6 k0 iγ iϖ ic is i460 oc os m0 pc ps hγ hϖ m0e
  refine ⟨⟨A, iA, ?_⟩, ⟨B, iB, ?_⟩, ⟨D, iD, ?_⟩⟩
  · clear iA iB iD hB hD yb bt1 bt2 bt3 bt4 bt5 bt6 et3 et4 et5 et6
    rw [abs_le] at hA et1 et2 fc fs m0' ⊢
    norm_num at *; constructor <;> linarith
  · clear iA iB iD hA hD yb bt1 bt2 bt3 bt4 bt5 bt6 et1 et2 et5 et6
    rw [abs_le] at hB et3 et4 fc fs m0' ⊢
    norm_num at *; constructor <;> linarith
  · clear iA iB iD hA hB bt1 bt2 bt3 bt4 bt5 bt6 et1 et2 et3 et4
    rcases le_total (r + g - 2 * b) (2 * b - r - g) with hm | hm
    · rw [max_eq_right hm] at yb
      rw [abs_le] at hD et5 et6 fc fs m0' ⊢
      norm_num at *; constructor <;> linarith
    · rw [max_eq_left hm] at yb
      rw [abs_le] at hD et5 et6 fc fs m0' ⊢
      norm_num at *; constructor <;> linarith

theorem Fine.resp (hL : L.PowOk) (hE : L.ExpOk) {hr C j : 𝔻} (h : Fine hr C) {a : ℝ} (hj : Is j a) (h0 : 0.002 ≤ a) (h1 : a ≤ 148.4) (hh : (ray64 hr C).Here (log a)) :
    Rl (respR (p2Of j) (gammaOf hr C j * Fl.cos hr) (gammaOf hr C j * Fl.sin hr)) ((ray64 hr C).Ar (log a)) (6 / 10 ^ 13) ∧
    Rl (respG (p2Of j) (gammaOf hr C j * Fl.cos hr) (gammaOf hr C j * Fl.sin hr)) ((ray64 hr C).Ag (log a)) (7 / 10 ^ 13) ∧
    Rl (respB (p2Of j) (gammaOf hr C j * Fl.cos hr) (gammaOf hr C j * Fl.sin hr)) ((ray64 hr C).Ab (log a)) (2.2 / 10 ^ 12) := by
  obtain ⟨t, T0, T1⟩ := h.t hL hj h0 (by norm_num at h1; linarith)
  exact h.resp_of hL hE hj h0 h1 t T0 T1 hh

end Mcu.Lemmas
