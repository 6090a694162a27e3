import Verif.FlReal
import Mathlib.Tactic.NormNum.OfScientific
import Mathlib.Tactic.Linarith
import Mathlib.Tactic.Ring
import Mathlib.Tactic.FieldSimp

/-! Lemmas about the exact-arithmetic instance `Fl ℝ`. -/

namespace Mcu

theorem fl_abs (x : ℝ) : Fl.abs x = |x| := rfl
theorem fl_sqrt (x : ℝ) : Fl.sqrt x = Real.sqrt x := rfl
theorem fl_exp (x : ℝ) : Fl.exp x = Real.exp x := rfl
theorem fl_ln (x : ℝ) : Fl.ln x = Real.log x := rfl
theorem fl_sin (x : ℝ) : Fl.sin x = Real.sin x := rfl
theorem fl_cos (x : ℝ) : Fl.cos x = Real.cos x := rfl
theorem fl_floor (x : ℝ) : Fl.floor x = ((⌊x⌋ : ℤ) : ℝ) := rfl
theorem fl_ceil (x : ℝ) : Fl.ceil x = ((⌈x⌉ : ℤ) : ℝ) := rfl
theorem fl_round (x : ℝ) : Fl.round x = realRound x := rfl
theorem fl_powf (x y : ℝ) : Fl.powf x y = x ^ y := rfl
theorem fl_atan2 (y x : ℝ) : Fl.atan2 y x = Complex.arg ⟨x, y⟩ := rfl
theorem fl_fmod (x y : ℝ) : Fl.fmod x y = x - y * (realTrunc (x / y) : ℤ) := rfl
theorem fl_fmax (x y : ℝ) : Fl.fmax x y = max x y := rfl
theorem fl_fmin (x y : ℝ) : Fl.fmin x y = min x y := rfl
theorem fl_ofInt (n : ℤ) : (Fl.ofInt n : ℝ) = (n : ℝ) := rfl
theorem fl_toI64 (x : ℝ) : Fl.toI64 x = satI64 (realTrunc x) := rfl
theorem fl_pi : (Fl.pi : ℝ) = Real.pi := rfl
theorem fl_beq (x y : ℝ) : ((x == y : Bool) = true) ↔ x = y := by
  show (@decide (x = y) (Classical.propDecidable _)) = true ↔ _
  exact @decide_eq_true_iff _ (Classical.propDecidable _)

theorem realTrunc_of_nonneg {x : ℝ} (h : 0 ≤ x) : realTrunc x = ⌊x⌋ := if_pos h
theorem realTrunc_of_neg {x : ℝ} (h : x < 0) : realTrunc x = ⌈x⌉ := if_neg (not_le.2 h)

theorem realTrunc_intCast (n : ℤ) : realTrunc (n : ℝ) = n := by
  unfold realTrunc; split <;> simp

/-- `%` for a positive divisor: sign of the dividend, absolute value below the divisor. -/
theorem fmod_bounds (x : ℝ) {y : ℝ} (hy : 0 < y) :
    (0 ≤ x → 0 ≤ Fl.fmod x y ∧ Fl.fmod x y < y) ∧ (x < 0 → -y < Fl.fmod x y ∧ Fl.fmod x y ≤ 0) := by
  rw [fl_fmod]
  have e : x = y * (x / y) := by field_simp
  constructor
  · intro hx
    have h0 : 0 ≤ x / y := by positivity
    rw [realTrunc_of_nonneg h0]
    have h1 := Int.floor_le (x / y)
    have h2 := Int.lt_floor_add_one (x / y)
    constructor <;> nlinarith
  · intro hx
    have h0 : x / y < 0 := div_neg_of_neg_of_pos hx hy
    rw [realTrunc_of_neg h0]
    have h1 := Int.le_ceil (x / y)
    have h2 := Int.ceil_lt_add_one (x / y)
    constructor <;> nlinarith

theorem realRound_int (x : ℝ) : ∃ n : ℤ, realRound x = n := by
  unfold realRound; split
  · exact ⟨_, rfl⟩
  · exact ⟨_, rfl⟩

theorem abs_realRound_sub (x : ℝ) : |realRound x - x| ≤ 1 / 2 := by
  unfold realRound; split
  · have h1 := Int.floor_le (x + 1/2); have h2 := Int.lt_floor_add_one (x + 1/2)
    rw [abs_le]; constructor <;> linarith
  · have h1 := Int.le_ceil (x - 1/2); have h2 := Int.ceil_lt_add_one (x - 1/2)
    rw [abs_le]; constructor <;> linarith

theorem realRound_eq_of_abs_lt {x : ℝ} {n : ℤ} (h : |x - n| < 1 / 2) : realRound x = n := by
  obtain ⟨m, hm⟩ := realRound_int x
  have h1 := abs_realRound_sub x
  rw [hm] at h1 ⊢
  rw [abs_lt] at h
  rw [abs_le] at h1
  have a : (m : ℝ) - n < 1 := by linarith
  have b : (n : ℝ) - m < 1 := by linarith
  have a' : m - n < 1 := by exact_mod_cast a
  have b' : n - m < 1 := by exact_mod_cast b
  have : m = n := by omega
  rw [this]

theorem realRound_intCast (n : ℤ) : realRound (n : ℝ) = n :=
  realRound_eq_of_abs_lt (by simp)

theorem satI64_of_mem {n : ℤ} (h : -9223372036854775808 ≤ n ∧ n ≤ 9223372036854775807) :
    satI64 n = n := by unfold satI64; omega

theorem realRound_nonneg {x : ℝ} (h : 0 ≤ x) : 0 ≤ realRound x := by
  unfold realRound; rw [if_pos h]
  have : 0 ≤ ⌊x + 1/2⌋ := Int.floor_nonneg.2 (by linarith)
  exact_mod_cast this

theorem realRound_mono {x y : ℝ} (h : x ≤ y) : realRound x ≤ realRound y := by
  unfold realRound
  split <;> split
  · exact_mod_cast Int.floor_le_floor (by linarith)
  · linarith
  · have a : ⌈x - 1/2⌉ ≤ 0 := Int.ceil_le.2 (by push_cast; linarith)
    have b : 0 ≤ ⌊y + 1/2⌋ := Int.floor_nonneg.2 (by linarith)
    exact_mod_cast a.trans b
  · exact_mod_cast Int.ceil_le_ceil (by linarith)

end Mcu
