import Verif.Lemmas.RayCell
import Verif.Lemmas.CoverA
import Verif.Lemmas.CoverB
import Verif.Lemmas.CoverC
import Verif.Lemmas.CoverD
import Verif.Lemmas.CoverE

/-! What the box checks say about the colours of one hue and chroma. -/

namespace Mcu.Lemmas

open Real Flow Itv

theorem Itv.mem_of {x a b : ℝ} {lo hi : Int} (h1 : a ≤ x) (h2 : x ≤ b) (ha : (lo : ℝ) ≤ a * 17592186044416)
    (hb : b * 17592186044416 ≤ (hi : ℝ)) : Mem x ⟨lo, hi⟩ := by
  unfold Mem
  constructor <;> simp only <;> nlinarith

namespace Ray

variable {R : Ray} {v : ℝ}

theorem Here.lin_val (h : R.Here v) (g : Lin) : g.val R.q (R.cx v) (R.cz v) (R.ct v) * R.ct v ^ 50 * 10 ^ 10 =
    (g.a0 : ℝ) * R.ch0 v + g.a1 * R.ch1 v + g.a2 * R.ch2 v + 0.42 * (g.b0 * R.d0 v + g.b1 * R.d1 v + g.b2 * R.d2 v) := by
  rw [h.ch0_eq, h.ch1_eq, h.ch2_eq]
  unfold Lin.val d0 d1 d2
  ring

theorem Here.cut_val (h : R.Here v) (g : Cut) : g.val (R.cx v) (R.cz v) (R.ct v) * 10 ^ 10 =
    (g.a0 : ℝ) * R.ch0 v + g.a1 * R.ch1 v + g.a2 * R.ch2 v + g.k := by
  rw [h.ch0_eq, h.ch1_eq, h.ch2_eq]
  unfold Cut.val
  ring

/-- A condition, in terms of the components. -/
def Sat (R : Ray) (v : ℝ) (g : Cut) : Prop := 0 ≤ (g.a0 : ℝ) * R.ch0 v + g.a1 * R.ch1 v + g.a2 * R.ch2 v + g.k

theorem Here.cut (h : R.Here v) {g : Cut} (hs : R.Sat v g) : 0 ≤ g.val (R.cx v) (R.cz v) (R.ct v) := by
  have := h.cut_val g
  unfold Sat at hs
  rw [← this] at hs
  exact nonneg_of_mul_nonneg_left hs (by norm_num)

theorem Here.use (h : R.Here v) {kx kz kt : Int} {n : Nat} {cuts : List Cut} {g : Lin} {X Z T : Itv}
    (hc : cover kx kz kt (linTest cuts g) n X Z T = true) (hx : Mem (R.cx v) X) (hz : Mem (R.cz v) Z) (ht : Mem (R.ct v) T)
    (hs : ∀ k ∈ cuts, R.Sat v k) :
    0 ≤ (g.a0 : ℝ) * R.ch0 v + g.a1 * R.ch1 v + g.a2 * R.ch2 v + 0.42 * (g.b0 * R.d0 v + g.b1 * R.d1 v + g.b2 * R.d2 v) := by
  have := lin_sound n hc h.ok.q hx hz ht fun k hk => h.cut (hs k hk)
  rw [← h.lin_val g]
  have := h.ct_pos
  positivity

/-- A colour in the gamut, up to a little, of a luminance in the given range. -/
structure Inside (R : Ray) (v lo : ℝ) : Prop extends R.Here v where
  g0 : 0 ≤ R.ch0 v + 0.000001 * R.Y v
  g1 : 0 ≤ R.ch1 v + 0.000001 * R.Y v
  g2 : 0 ≤ R.ch2 v + 0.000001 * R.Y v
  lo : lo ≤ R.Y v
  hi : R.Y v ≤ 165

namespace Inside

variable {lo : ℝ}

theorem mono (h : R.Inside v lo) {lo' : ℝ} (hl : lo' ≤ lo) : R.Inside v lo' := { h with lo := hl.trans h.lo }

theorem stimuli (h : R.Inside v lo) (hl : 0 < lo) : 0.8022 * unadapt (R.Ag v) ≤ unadapt (R.Ar v) ∧ unadapt (R.Ar v) ≤ 2.0386 * unadapt (R.Ag v)
    ∧ 0.1721 * unadapt (R.Ag v) ≤ unadapt (R.Ab v) ∧ unadapt (R.Ab v) ≤ 10.085 * unadapt (R.Ag v) := by
  have h0 := h.g0; have h1 := h.g1; have h2 := h.g2; have h3 := h.lo; have h4 := h.sg
  rw [Y_eq] at *
  unfold ch0 ch1 ch2 lum at *
  generalize unadapt (R.Ar v) = x at *
  generalize unadapt (R.Ag v) = y at *
  generalize unadapt (R.Ab v) = z at *
  norm_num at *
  refine ⟨?_, ?_, ?_, ?_⟩ <;> linarith

theorem green (h : R.Inside v lo) (hl : 0 < lo) : lo / 362 ≤ unadapt (R.Ag v) ∧ unadapt (R.Ag v) ≤ 1 := by
  obtain ⟨a, b, c, d⟩ := h.stimuli hl
  have h3 := h.lo; have h4 := h.hi; have h5 := h.sg
  unfold Y lum at *
  have w := weights
  obtain ⟨w1, w2, w3, w4, w5, w6⟩ := w
  generalize unadapt (R.Ar v) = x at *
  generalize unadapt (R.Ag v) = y at *
  generalize unadapt (R.Ab v) = z at *
  norm_num at *
  have hx : 0 ≤ x := by linarith
  have hz : 0 ≤ z := by linarith
  constructor
  · have e1 : wR * x ≤ 977 / 10 * x := mul_le_mul_of_nonneg_right w2 hx
    have e2 : wG * y ≤ 811 / 5 * y := mul_le_mul_of_nonneg_right w4 h5.le
    have e3 : 247 / 100 * z ≤ wB * z := mul_le_mul_of_nonneg_right w5 hz
    rw [div_le_iff₀ (by norm_num)]
    linarith
  · have e1 : 488 / 5 * x ≤ wR * x := mul_le_mul_of_nonneg_right w1 hx
    have e2 : 1621 / 10 * y ≤ wG * y := mul_le_mul_of_nonneg_right w3 h5.le
    have e3 : wB * z ≤ 62 / 25 * z := mul_le_mul_of_nonneg_right w6 hz
    linarith

theorem cx_mem (h : R.Inside v lo) (hl : 0 < lo) : Mem (R.cx v) ⟨17504225114193, 17849031960665⟩ := by
  obtain ⟨a, b, -, -⟩ := h.stimuli hl
  rw [← h.cx50, ← h.ct50] at a b
  have ht := h.ct_pos
  have hp : 0 < R.ct v ^ 50 := by positivity
  have a' := le_of_mul_le_mul_right a hp
  have b' := le_of_mul_le_mul_right b hp
  have hx := h.cx_pos
  refine mem_of (a := 0.995) (b := 1.0146) ?_ ?_ (by norm_num) (by norm_num)
  · exact le_of_pow_le_pow_left₀ (n := 50) (by norm_num) hx.le (le_trans (by norm_num) a')
  · exact le_of_pow_le_pow_left₀ (n := 50) (by norm_num) (by norm_num) (le_trans b' (by norm_num))

theorem cz_mem (h : R.Inside v lo) (hl : 0 < lo) : Mem (R.cz v) ⟨16976459532861, 18427814881526⟩ := by
  obtain ⟨-, -, a, b⟩ := h.stimuli hl
  rw [← h.cz50, ← h.ct50] at a b
  have ht := h.ct_pos
  have hp : 0 < R.ct v ^ 50 := by positivity
  have a' := le_of_mul_le_mul_right a hp
  have b' := le_of_mul_le_mul_right b hp
  have hx := h.cz_pos
  refine mem_of (a := 0.965) (b := 1.0475) ?_ ?_ (by norm_num) (by norm_num)
  · exact le_of_pow_le_pow_left₀ (n := 50) (by norm_num) hx.le (le_trans (by norm_num) a')
  · exact le_of_pow_le_pow_left₀ (n := 50) (by norm_num) (by norm_num) (le_trans b' (by norm_num))

theorem ct_mem (h : R.Inside v lo) (hl : 0 < lo) {t : ℝ} {m : Int} (h0 : 0 ≤ t) (ht : t ^ 50 * 362 ≤ lo) (hm : (m : ℝ) ≤ t * 17592186044416) :
    Mem (R.ct v) ⟨m, 17592186044416⟩ := by
  obtain ⟨a, b⟩ := h.green hl
  rw [← h.ct50] at a b
  have hp := h.ct_pos
  refine mem_of (a := t) (b := 1) ?_ ?_ hm (by norm_num)
  · refine le_of_pow_le_pow_left₀ (n := 50) (by norm_num) hp.le (le_trans ?_ a)
    rw [le_div_iff₀ (by norm_num)]; exact ht
  · exact le_of_pow_le_pow_left₀ (n := 50) (by norm_num) (by norm_num) (le_trans b (by norm_num))

/-! ### The checks -/

local macro "sat" h:term:max : tactic => `(tactic| (
  have s0 := Inside.g0 $h; have s1 := Inside.g1 $h; have s2 := Inside.g2 $h; have s3 := Inside.lo $h; have s4 := Inside.hi $h
  simp only [List.mem_cons, List.not_mem_nil, or_false, forall_eq_or_imp, forall_eq]
  unfold Sat
  rw [Y_eq] at *
  push_cast
  norm_num at *
  refine ⟨?_, ?_, ?_, ?_, ?_⟩ <;> linarith))

local macro "sat6" h:term:max : tactic => `(tactic| (
  have s0 := Inside.g0 $h; have s1 := Inside.g1 $h; have s2 := Inside.g2 $h; have s3 := Inside.lo $h; have s4 := Inside.hi $h
  simp only [List.mem_cons, List.not_mem_nil, or_false, forall_eq_or_imp, forall_eq]
  unfold Sat
  rw [Y_eq] at *
  push_cast
  norm_num at *
  refine ⟨?_, ?_, ?_, ?_, ?_, ?_⟩ <;> linarith))

local macro "sat8" h:term:max : tactic => `(tactic| (
  have s0 := Inside.g0 $h; have s1 := Inside.g1 $h; have s2 := Inside.g2 $h; have s3 := Inside.lo $h; have s4 := Inside.hi $h
  simp only [List.mem_cons, List.not_mem_nil, or_false, forall_eq_or_imp, forall_eq]
  unfold Sat
  rw [Y_eq] at *
  push_cast
  norm_num at *
  refine ⟨?_, ?_, ?_, ?_, ?_, ?_, ?_, ?_⟩ <;> linarith))

local macro "sat9" h:term:max : tactic => `(tactic| (
  have s0 := Inside.g0 $h; have s1 := Inside.g1 $h; have s2 := Inside.g2 $h; have s3 := Inside.lo $h; have s4 := Inside.hi $h
  simp only [List.mem_cons, List.not_mem_nil, or_false, forall_eq_or_imp, forall_eq]
  unfold Sat
  rw [Y_eq] at *
  push_cast
  norm_num at *
  refine ⟨?_, ?_, ?_, ?_, ?_, ?_, ?_, ?_, ?_⟩ <;> linarith))

local macro "fin" : tactic => `(tactic| (
  rename_i this
  unfold dY at *
  try rw [Y_eq] at *
  push_cast at this
  norm_num at *
  linarith))

theorem t78 (h : R.Inside v 0.002) : Mem (R.ct v) ⟨13721905114644, 17592186044416⟩ :=
  h.ct_mem (t := 0.78) (by norm_num) (by norm_num) (by norm_num) (by norm_num)
theorem t82 (h : R.Inside v 0.03) : Mem (R.ct v) ⟨14425592556421, 17592186044416⟩ :=
  h.ct_mem (t := 0.82) (by norm_num) (by norm_num) (by norm_num) (by norm_num)
theorem t84 (h : R.Inside v 0.1) : Mem (R.ct v) ⟨14777436277309, 17592186044416⟩ :=
  h.ct_mem (t := 0.84) (by norm_num) (by norm_num) (by norm_num) (by norm_num)
theorem t88 (h : R.Inside v 1) : Mem (R.ct v) ⟨15481123719086, 17592186044416⟩ :=
  h.ct_mem (t := 0.88) (by norm_num) (by norm_num) (by norm_num) (by norm_num)
theorem t91 (h : R.Inside v 4) : Mem (R.ct v) ⟨16008889300418, 17592186044416⟩ :=
  h.ct_mem (t := 0.91) (by norm_num) (by norm_num) (by norm_num) (by norm_num)
theorem t92 (h : R.Inside v 7) : Mem (R.ct v) ⟨16184811160862, 17592186044416⟩ :=
  h.ct_mem (t := 0.92) (by norm_num) (by norm_num) (by norm_num) (by norm_num)
theorem t95 (h : R.Inside v 60) : Mem (R.ct v) ⟨16712576742195, 17592186044416⟩ :=
  h.ct_mem (t := 0.95) (by norm_num) (by norm_num) (by norm_num) (by norm_num)
theorem t93 (h : R.Inside v 16) : Mem (R.ct v) ⟨16360733021306, 17592186044416⟩ :=
  h.ct_mem (t := 0.93) (by norm_num) (by norm_num) (by norm_num) (by norm_num)
theorem t96 (h : R.Inside v 64) : Mem (R.ct v) ⟨16888498602639, 17592186044416⟩ :=
  h.ct_mem (t := 0.96) (by norm_num) (by norm_num) (by norm_num) (by norm_num)

/-- The components rise. -/
theorem rise0 (h : R.Inside v 0.002) : 0.1 * R.Y v ≤ R.d0 v := by
  have := h.use check_rise0 (h.cx_mem (by norm_num)) (h.cz_mem (by norm_num)) h.t78 (by sat h)
  fin
theorem rise1 (h : R.Inside v 0.002) : 0.1 * R.Y v ≤ R.d1 v := by
  have := h.use check_rise1 (h.cx_mem (by norm_num)) (h.cz_mem (by norm_num)) h.t78 (by sat h)
  fin
theorem rise2 (h : R.Inside v 0.002) : 0.1 * R.Y v ≤ R.d2 v := by
  have := h.use check_rise2 (h.cx_mem (by norm_num)) (h.cz_mem (by norm_num)) h.t78 (by sat h)
  fin

/-- The luminance grows fast. -/
theorem fast0 (h : R.Inside v 0.002) : 1.72 * R.Y v ≤ R.dY v := by
  have := h.use check_fast0 (h.cx_mem (by norm_num)) (h.cz_mem (by norm_num)) h.t78 (by sat h)
  fin
theorem fast7 (h : R.Inside v 7) : 1.765 * R.Y v ≤ R.dY v := by
  have := h.use check_fast7 (h.cx_mem (by norm_num)) (h.cz_mem (by norm_num)) h.t92 (by sat h)
  fin
theorem fast16 (h : R.Inside v 16) : 1.78 * R.Y v ≤ R.dY v := by
  have := h.use check_fast16 (h.cx_mem (by norm_num)) (h.cz_mem (by norm_num)) h.t93 (by sat h)
  fin
theorem fast64 (h : R.Inside v 64) : 1.795 * R.Y v ≤ R.dY v := by
  have := h.use check_fast64 (h.cx_mem (by norm_num)) (h.cz_mem (by norm_num)) h.t96 (by sat h)
  fin

/-- The luminance does not grow too fast. -/
theorem slow (h : R.Inside v 0.002) : R.dY v ≤ 2.2 * R.Y v := by
  have := h.use check_slow (h.cx_mem (by norm_num)) (h.cz_mem (by norm_num)) h.t78 (by sat h)
  fin
theorem power0 (h : R.Inside v 0.002) (hy : R.Y v ≤ 155) (hb : R.ch2 v ≤ 360) : R.dY v ≤ 2.03 * R.Y v := by
  have := h.use check_power0 (h.cx_mem (by norm_num)) (h.cz_mem (by norm_num)) h.t78 (by sat6 h)
  fin
theorem power003 (h : R.Inside v 0.03) (hy : R.Y v ≤ 155) (hb : R.ch2 v ≤ 360) : R.dY v ≤ 2.003 * R.Y v := by
  have := h.use check_power003 (h.cx_mem (by norm_num)) (h.cz_mem (by norm_num)) h.t82 (by sat6 h)
  fin
theorem power01 (h : R.Inside v 0.1) (hy : R.Y v ≤ 155) (hb : R.ch2 v ≤ 360) : R.dY v ≤ 1.9995 * R.Y v := by
  have := h.use check_power01 (h.cx_mem (by norm_num)) (h.cz_mem (by norm_num)) h.t84 (by sat6 h)
  fin
theorem power8 (h : R.Inside v 8) (hy : R.Y v ≤ 155) (hb : R.ch2 v ≤ 360) : R.dY v ≤ 1.998 * R.Y v := by
  have := h.use check_power8 (h.cx_mem (by norm_num)) (h.cz_mem (by norm_num)) (h.mono (by norm_num : (7 : ℝ) ≤ 8)).t92 (by sat6 h)
  fin
theorem power60 (h : R.Inside v 60) (hy : R.Y v ≤ 155) (hb : R.ch2 v ≤ 360) : R.dY v ≤ 1.98 * R.Y v := by
  have := h.use check_power60 (h.cx_mem (by norm_num)) (h.cz_mem (by norm_num)) h.t95 (by sat6 h)
  fin

/-- The components do not rise too fast. -/
theorem steep0 (h : R.Inside v 0.002) : R.d0 v ≤ 2.2 * R.ch0 v + 1.7 * R.Y v := by
  have := h.use check_steep0 (h.cx_mem (by norm_num)) (h.cz_mem (by norm_num)) h.t78 (by sat h)
  fin
theorem steep1 (h : R.Inside v 0.002) : R.d1 v ≤ 2.2 * R.ch1 v + 2.4 * R.Y v := by
  have := h.use check_steep1 (h.cx_mem (by norm_num)) (h.cz_mem (by norm_num)) h.t78 (by sat h)
  fin
theorem steep2 (h : R.Inside v 0.002) : R.d2 v ≤ 2.2 * R.ch2 v + 0.8 * R.Y v := by
  have := h.use check_steep2 (h.cx_mem (by norm_num)) (h.cz_mem (by norm_num)) h.t78 (by sat h)
  fin
theorem blue (h : R.Inside v 0.002) : R.d2 v ≤ 4.9 * R.dY v := by
  have := h.use check_blue (h.cx_mem (by norm_num)) (h.cz_mem (by norm_num)) h.t78 (by sat h)
  fin

/-- Large components. -/
theorem full_r (h : R.Inside v 16) (hy : R.Y v ≤ 155) (hr : 0.97 * R.Y v ≤ R.ch0 v) : R.d0 v ≤ 2.2 * R.ch0 v := by
  have := h.use check_full_r (h.cx_mem (by norm_num)) (h.cz_mem (by norm_num)) h.t93 (by sat6 h)
  fin
theorem full_g (h : R.Inside v 64) (hy : R.Y v ≤ 155) (hr : 0.97 * R.Y v ≤ R.ch1 v) : R.d1 v ≤ 2.2 * R.ch1 v := by
  have := h.use check_full_g (h.cx_mem (by norm_num)) (h.cz_mem (by norm_num)) h.t96 (by sat6 h)
  fin
theorem full_b (h : R.Inside v 7) (hy : R.Y v ≤ 155) (hr : 0.97 * R.Y v ≤ R.ch2 v) : R.d2 v ≤ 2 * R.ch2 v := by
  have := h.use check_full_b (h.cx_mem (by norm_num)) (h.cz_mem (by norm_num)) h.t92 (by sat6 h)
  fin
theorem most_b (h : R.Inside v 7) (hy : R.Y v ≤ 155) (hr : 4.5 * R.Y v ≤ R.ch2 v) : R.d2 v ≤ 1.5 * R.ch2 v := by
  have := h.use check_most_b (h.cx_mem (by norm_num)) (h.cz_mem (by norm_num)) h.t92 (by sat6 h)
  fin

/-! ### The first guess -/

theorem lo_use (h : R.Here v) {kx kz kt c k : Int} {n : Nat} {cuts : List Cut} {X Z T : Itv}
    (hc : cover kx kz kt (loTest cuts c k) n X Z T = true) (hx : Mem (R.cx v) X) (hz : Mem (R.cz v) Z) (ht : Mem (R.ct v) T)
    (hs : ∀ k ∈ cuts, R.Sat v k) {a b : ℝ} (ha : 0 < a) (hk : 400 / 27.13 / a ≤ (k : ℝ) / 10 ^ 26) (hcb : (c : ℝ) / 10 ^ 26 ≤ b)
    (hc0 : 0 < (c : ℝ) / 10 ^ 26) (hY : 0 < R.Y v) : (R.P v / a) ^ 50 ≤ (b * R.Y v) ^ 19 := by
  have := lo_sound n hc h.ok.q hx hz ht fun k hk => h.cut (hs k hk)
  have ht := h.ct_pos
  have hP := P_pos h.ok v
  have e := h.ach_eq
  have ey := h.Y_eq'
  generalize ach (R.cx v) (R.cz v) (R.ct v) = A at *
  generalize linY (R.cx v) (R.cz v) = L at *
  generalize R.ct v = t at *
  generalize (k : ℝ) / 10 ^ 26 = K at *
  generalize (c : ℝ) / 10 ^ 26 = C at *
  have hA : 0 < A := by
    by_contra hn
    push Not at hn
    have : A * (400 / 27.13 * t ^ 21) ≤ 0 := mul_nonpos_of_nonpos_of_nonneg hn (by positivity)
    linarith
  have h1 : R.P v / a ≤ K * A * t ^ 21 := by
    rw [← e]
    calc _ = 400 / 27.13 / a * (A * t ^ 21) := by ring
      _ ≤ K * (A * t ^ 21) := mul_le_mul_of_nonneg_right hk (by positivity)
      _ = _ := by ring
  have h2 : (R.P v / a) ^ 50 ≤ (K * A * t ^ 21) ^ 50 := pow_le_pow_left₀ (by positivity) h1 50
  have h3 : (K * A * t ^ 21) ^ 50 ≤ (C * R.Y v) ^ 19 := by
    rw [ey]
    calc (K * A * t ^ 21) ^ 50 = (t ^ 2 * (K * A)) ^ 50 * t ^ 950 := by ring
      _ ≤ (C * L) ^ 19 * t ^ 950 := mul_le_mul_of_nonneg_right this (by positivity)
      _ = _ := by ring
  exact h2.trans (h3.trans (pow_le_pow_left₀ (by positivity) (mul_le_mul_of_nonneg_right hcb hY.le) 19))

theorem hi_use (h : R.Here v) {kx kz kt c k : Int} {n : Nat} {cuts : List Cut} {X Z T : Itv}
    (hc : cover kx kz kt (hiTest cuts c k) n X Z T = true) (hx : Mem (R.cx v) X) (hz : Mem (R.cz v) Z) (ht : Mem (R.ct v) T)
    (hs : ∀ k ∈ cuts, R.Sat v k) {a b : ℝ} (ha : 0 < a) (hk : (k : ℝ) / 10 ^ 26 ≤ 400 / 27.13 / a) (hcb : b ≤ (c : ℝ) / 10 ^ 26)
    (hb : 0 < b) (hk0 : 0 < (k : ℝ) / 10 ^ 26) (hY : 0 < R.Y v) : (b * R.Y v) ^ 11 ≤ (R.P v / a) ^ 29 := by
  have := hi_sound n hc h.ok.q hx hz ht fun k hk => h.cut (hs k hk)
  have ht := h.ct_pos
  have hP := P_pos h.ok v
  have e := h.ach_eq
  have ey := h.Y_eq'
  generalize ach (R.cx v) (R.cz v) (R.ct v) = A at *
  generalize linY (R.cx v) (R.cz v) = L at *
  generalize R.ct v = t at *
  generalize (k : ℝ) / 10 ^ 26 = K at *
  generalize (c : ℝ) / 10 ^ 26 = C at *
  have hA : 0 < A := by
    by_contra hn
    push Not at hn
    have : A * (400 / 27.13 * t ^ 21) ≤ 0 := mul_nonpos_of_nonpos_of_nonneg hn (by positivity)
    linarith
  have h1 : K * A * t ^ 21 ≤ R.P v / a := by
    rw [← e]
    calc K * A * t ^ 21 = K * (A * t ^ 21) := by ring
      _ ≤ 400 / 27.13 / a * (A * t ^ 21) := mul_le_mul_of_nonneg_right hk (by positivity)
      _ = _ := by ring
  have h2 : (K * A * t ^ 21) ^ 29 ≤ (R.P v / a) ^ 29 := pow_le_pow_left₀ (by positivity) h1 29
  have h3 : (C * R.Y v) ^ 11 ≤ (K * A * t ^ 21) ^ 29 := by
    rw [ey]
    calc (C * (L * t ^ 50)) ^ 11 = (C * L) ^ 11 * t ^ 550 := by ring
      _ ≤ t ^ 59 * (K * A) ^ 29 * t ^ 550 := mul_le_mul_of_nonneg_right this (by positivity)
      _ = _ := by ring
  exact (pow_le_pow_left₀ (by positivity) (mul_le_mul_of_nonneg_right hcb hY.le) 11).trans (h3.trans h2)

theorem start (h : R.Inside v 0.002) (hy : R.Y v ≤ 101) (h0 : R.ch0 v ≤ 101) (h1 : R.ch1 v ≤ 101) (h2 : R.ch2 v ≤ 101) :
    (R.P v / 29.4) ^ 50 ≤ (0.0121 / 1.0404 * R.Y v) ^ 19 :=
  lo_use h.toHere check_start (h.cx_mem (by norm_num)) (h.cz_mem (by norm_num)) h.t78 (by sat8 h) (by norm_num) (by norm_num)
    (by norm_num) (by norm_num) (lt_of_lt_of_le (by norm_num) h.lo)
theorem guess0 (h : R.Inside v 0.002) (hy : R.Y v ≤ 101) : (0.0121 / 4.39 * R.Y v) ^ 11 ≤ (R.P v / 29.5) ^ 29 :=
  hi_use h.toHere check_guess0 (h.cx_mem (by norm_num)) (h.cz_mem (by norm_num)) h.t78 (by sat h) (by norm_num) (by norm_num)
    (by norm_num) (by norm_num) (by norm_num) (lt_of_lt_of_le (by norm_num) h.lo)
theorem guess01 (h : R.Inside v 0.1) (hy : R.Y v ≤ 101) : (0.0121 / 2.82 * R.Y v) ^ 11 ≤ (R.P v / 29.5) ^ 29 :=
  hi_use h.toHere check_guess01 (h.cx_mem (by norm_num)) (h.cz_mem (by norm_num)) h.t84 (by sat h) (by norm_num) (by norm_num)
    (by norm_num) (by norm_num) (by norm_num) (lt_of_lt_of_le (by norm_num) h.lo)
theorem guess1 (h : R.Inside v 1) (hy : R.Y v ≤ 101) : (0.0121 / 2.225 * R.Y v) ^ 11 ≤ (R.P v / 29.5) ^ 29 :=
  hi_use h.toHere check_guess1 (h.cx_mem (by norm_num)) (h.cz_mem (by norm_num)) h.t88 (by sat h) (by norm_num) (by norm_num)
    (by norm_num) (by norm_num) (by norm_num) (lt_of_lt_of_le (by norm_num) h.lo)
theorem guess4 (h : R.Inside v 4) (hy : R.Y v ≤ 101) : (0.0121 / 1.934 * R.Y v) ^ 11 ≤ (R.P v / 29.5) ^ 29 :=
  hi_use h.toHere check_guess4 (h.cx_mem (by norm_num)) (h.cz_mem (by norm_num)) h.t91 (by sat h) (by norm_num) (by norm_num)
    (by norm_num) (by norm_num) (by norm_num) (lt_of_lt_of_le (by norm_num) h.lo)
theorem guess16 (h : R.Inside v 16) (hy : R.Y v ≤ 101) : (0.0121 / 1.648 * R.Y v) ^ 11 ≤ (R.P v / 29.5) ^ 29 :=
  hi_use h.toHere check_guess16 (h.cx_mem (by norm_num)) (h.cz_mem (by norm_num)) h.t93 (by sat h) (by norm_num) (by norm_num)
    (by norm_num) (by norm_num) (by norm_num) (lt_of_lt_of_le (by norm_num) h.lo)
theorem guess64 (h : R.Inside v 64) (hy : R.Y v ≤ 101) : (0.0121 / 1.462 * R.Y v) ^ 11 ≤ (R.P v / 29.5) ^ 29 :=
  hi_use h.toHere check_guess64 (h.cx_mem (by norm_num)) (h.cz_mem (by norm_num)) h.t96 (by sat h) (by norm_num) (by norm_num)
    (by norm_num) (by norm_num) (by norm_num) (lt_of_lt_of_le (by norm_num) h.lo)
theorem guess_r (h : R.Inside v 16) (hy : R.Y v ≤ 101) (h0 : R.ch0 v ≤ 100.1) (h1 : R.ch1 v ≤ 100.1) (h2 : R.ch2 v ≤ 100.1)
    (hr : 95 ≤ R.ch0 v) : (0.0121 / 1.349 * R.Y v) ^ 11 ≤ (R.P v / 29.5) ^ 29 :=
  hi_use h.toHere check_guess_r (h.cx_mem (by norm_num)) (h.cz_mem (by norm_num)) h.t93 (by sat9 h) (by norm_num) (by norm_num)
    (by norm_num) (by norm_num) (by norm_num) (lt_of_lt_of_le (by norm_num) h.lo)
theorem guess_b (h : R.Inside v 7) (hy : R.Y v ≤ 101) (h0 : R.ch0 v ≤ 100.1) (h1 : R.ch1 v ≤ 100.1) (h2 : R.ch2 v ≤ 100.1)
    (hr : 95 ≤ R.ch2 v) : (0.0121 / 1.419 * R.Y v) ^ 11 ≤ (R.P v / 29.5) ^ 29 :=
  hi_use h.toHere check_guess_b (h.cx_mem (by norm_num)) (h.cz_mem (by norm_num)) h.t92 (by sat9 h) (by norm_num) (by norm_num)
    (by norm_num) (by norm_num) (by norm_num) (lt_of_lt_of_le (by norm_num) h.lo)

end Inside

end Ray

end Mcu.Lemmas
