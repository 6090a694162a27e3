import Mathlib.Data.Int.Log
import Mathlib.Algebra.Order.Archimedean.Real.Basic
import Mathlib.Algebra.Order.Floor.Ring
import Mathlib.Algebra.Ring.Parity
import Mathlib.Tactic.Linarith
import Mathlib.Tactic.NormNum
import Mathlib.Tactic.Positivity
import Mathlib.Tactic.GCongr
import Mathlib.Tactic.FieldSimp
import Mathlib.Tactic.Ring

/-! Rounding of a real number to IEEE-754 binary64, round to nearest, ties to even, with gradual underflow and an
unbounded exponent (overflow is decided afterwards, in `Verif/F64.lean`). -/

namespace Mcu.Ieee

/-- Nearest integer, ties to even. -/
noncomputable def rne (x : ℝ) : ℤ :=
  if x - ⌊x⌋ < 1 / 2 then ⌊x⌋ else if 1 / 2 < x - ⌊x⌋ then ⌊x⌋ + 1 else if Even ⌊x⌋ then ⌊x⌋ else ⌊x⌋ + 1

/-- Exponent of the last place: 53 significant bits, but not below 2^-1074. -/
noncomputable def place (v : ℝ) : ℤ := max (-1074) (Int.log 2 |v| - 52)

/-- The nearest number with 53 significant bits and last place at least 2^-1074; ties go to the even significand. -/
noncomputable def rnd (v : ℝ) : ℝ := rne (v / 2 ^ place v) * 2 ^ place v

/-- The numbers with 53 significant bits and last place at least 2^-1074. -/
def Rep (v : ℝ) : Prop := ∃ m e : ℤ, |m| < 2 ^ 53 ∧ -1074 ≤ e ∧ v = m * (2 : ℝ) ^ e

theorem rne_near (x : ℝ) : |(rne x : ℝ) - x| ≤ 1 / 2 := by
  have h1 := Int.floor_le x
  have h2 := Int.lt_floor_add_one x
  unfold rne
  rw [abs_le]
  split_ifs <;> push_cast <;> constructor <;> linarith

theorem rne_int (n : ℤ) : rne (n : ℝ) = n := by
  unfold rne
  rw [Int.floor_intCast, if_pos (by norm_num)]

theorem rne_mono {x y : ℝ} (h : x ≤ y) : rne x ≤ rne y := by
  have hf := Int.floor_le_floor h
  rcases hf.lt_or_eq with h1 | h1
  · have a : rne x ≤ ⌊x⌋ + 1 := by unfold rne; split_ifs <;> omega
    have b : ⌊y⌋ ≤ rne y := by unfold rne; split_ifs <;> omega
    omega
  · unfold rne
    rw [← h1]
    split_ifs <;> first | omega | (exfalso; linarith)

theorem rne_neg (x : ℝ) : rne (-x) = -rne x := by
  by_cases hi : (⌊x⌋ : ℝ) = x
  · rw [← hi, ← Int.cast_neg, rne_int, rne_int]
  · have h1 := Int.floor_le x
    have h2 := Int.lt_floor_add_one x
    have h3 : (⌊x⌋ : ℝ) < x := lt_of_le_of_ne h1 hi
    have hn : ⌊-x⌋ = -⌊x⌋ - 1 := by rw [Int.floor_eq_iff]; push_cast; constructor <;> linarith
    have he : Even (-⌊x⌋ - 1) ↔ ¬ Even ⌊x⌋ := by
      constructor
      · rintro ⟨a, ha⟩ ⟨b, hb⟩; omega
      · intro h
        rw [Int.not_even_iff_odd] at h
        obtain ⟨b, hb⟩ := h
        exact ⟨-b - 1, by omega⟩
    unfold rne
    rw [hn]
    simp only [he]
    push_cast
    split_ifs <;> first | omega | (exfalso; linarith)

theorem two_zpow_pos (n : ℤ) : (0 : ℝ) < 2 ^ n := zpow_pos (by norm_num) n

theorem place_neg (v : ℝ) : place (-v) = place v := by unfold place; rw [abs_neg]

theorem rnd_neg (v : ℝ) : rnd (-v) = -rnd v := by
  unfold rnd
  rw [place_neg, neg_div, rne_neg]
  push_cast; ring

theorem rnd_zero : rnd 0 = 0 := by
  unfold rnd
  rw [zero_div, show (0 : ℝ) = ((0 : ℤ) : ℝ) by norm_num, rne_int]
  norm_num

/-- The scaled number has at most 53 bits. -/
theorem scaled_lt (v : ℝ) : |v / 2 ^ place v| < 2 ^ 53 := by
  rw [abs_div, abs_of_pos (two_zpow_pos _), div_lt_iff₀ (two_zpow_pos _)]
  have h := Int.lt_zpow_succ_log_self (b := 2) (by norm_num) |v|
  refine h.trans_le ?_
  push_cast
  rw [← zpow_natCast, ← zpow_add₀ (by norm_num)]
  apply zpow_le_zpow_right₀ (by norm_num)
  unfold place
  push_cast
  have := le_max_right (-1074 : ℤ) (Int.log 2 |v| - 52)
  omega

theorem rne_le (v : ℝ) : |rne (v / 2 ^ place v)| ≤ 2 ^ 53 := by
  have h := (abs_lt.1 (scaled_lt v))
  have a := rne_mono h.1.le
  have b := rne_mono h.2.le
  rw [show (-2 ^ 53 : ℝ) = ((-2 ^ 53 : ℤ) : ℝ) by norm_num, rne_int] at a
  rw [show (2 ^ 53 : ℝ) = ((2 ^ 53 : ℤ) : ℝ) by norm_num, rne_int] at b
  rw [abs_le]
  exact ⟨a, b⟩

theorem rep_rnd (v : ℝ) : Rep (rnd v) := by
  have h := rne_le v
  have hp : -1074 ≤ place v := le_max_left _ _
  rcases h.lt_or_eq with h | h
  · exact ⟨_, _, h, hp, rfl⟩
  · rcases (abs_eq (by norm_num)).1 h with h | h
    · refine ⟨2 ^ 52, place v + 1, by norm_num, by omega, ?_⟩
      unfold rnd; rw [h, zpow_add₀ (by norm_num)]; push_cast; ring
    · refine ⟨-2 ^ 52, place v + 1, by norm_num, by omega, ?_⟩
      unfold rnd; rw [h, zpow_add₀ (by norm_num)]; push_cast; ring

theorem Rep.neg {v : ℝ} (h : Rep v) : Rep (-v) := by
  obtain ⟨m, e, h1, h2, rfl⟩ := h
  exact ⟨-m, e, by rwa [abs_neg], h2, by push_cast; ring⟩

/-- A representable number is a multiple of the unit in its last place. -/
theorem Rep.multiple {v : ℝ} (h : Rep v) : ∃ n : ℤ, v = n * (2 : ℝ) ^ place v := by
  obtain ⟨m, e, h1, h2, rfl⟩ := h
  by_cases hm : m = 0
  · exact ⟨0, by rw [hm]; norm_num⟩
  have hle : place (m * (2 : ℝ) ^ e) ≤ e := by
    unfold place
    apply max_le h2
    have hpos : (0 : ℝ) < |(m : ℝ) * 2 ^ e| := abs_pos.2 (mul_ne_zero (by exact_mod_cast hm) (two_zpow_pos e).ne')
    have hlt : |(m : ℝ) * 2 ^ e| < (2 : ℕ) ^ (53 + e) := by
      rw [abs_mul, abs_of_pos (two_zpow_pos e), zpow_add₀ (by norm_num)]
      push_cast
      apply mul_lt_mul_of_pos_right _ (two_zpow_pos e)
      have : |(m : ℝ)| < 2 ^ 53 := by exact_mod_cast h1
      exact_mod_cast this
    have := (Int.lt_zpow_iff_log_lt (b := 2) (by norm_num) hpos).1 hlt
    omega
  obtain ⟨k, hk⟩ := Int.eq_ofNat_of_zero_le (by omega : 0 ≤ e - place (m * (2 : ℝ) ^ e))
  refine ⟨m * 2 ^ k, ?_⟩
  have e1 : e = place (m * (2 : ℝ) ^ e) + k := by omega
  generalize place (m * (2 : ℝ) ^ e) = p at *
  rw [e1, zpow_add₀ (by norm_num)]
  push_cast
  rw [zpow_natCast]; ring

/-- Representable numbers are not changed by rounding. -/
theorem Rep.rnd_eq {v : ℝ} (h : Rep v) : rnd v = v := by
  obtain ⟨n, hn⟩ := h.multiple
  unfold rnd
  have : v / 2 ^ place v = n := by
    rw [div_eq_iff (two_zpow_pos _).ne']; exact hn
  rw [this, rne_int]; exact hn.symm

theorem rep_iff {v : ℝ} : Rep v ↔ rnd v = v := ⟨Rep.rnd_eq, fun h => h ▸ rep_rnd v⟩

theorem rnd_rnd (v : ℝ) : rnd (rnd v) = rnd v := (rep_rnd v).rnd_eq

theorem rep_zpow {e : ℤ} (h : -1074 ≤ e) : Rep ((2 : ℝ) ^ e) := ⟨1, e, by norm_num, h, by norm_num⟩

theorem rep_int {n : ℤ} (h : |n| ≤ 2 ^ 53) : Rep (n : ℝ) := by
  rcases h.lt_or_eq with h | h
  · exact ⟨n, 0, h, by norm_num, by norm_num⟩
  · rcases (abs_eq (by norm_num)).1 h with h | h
    · exact ⟨2 ^ 52, 1, by norm_num, by norm_num, by rw [h]; norm_num⟩
    · exact ⟨-2 ^ 52, 1, by norm_num, by norm_num, by rw [h]; norm_num⟩

theorem rnd_nonneg {v : ℝ} (h : 0 ≤ v) : 0 ≤ rnd v := by
  unfold rnd
  have : (0 : ℤ) ≤ rne (v / 2 ^ place v) := by
    have := rne_mono (div_nonneg h (two_zpow_pos (place v)).le)
    rwa [show (0 : ℝ) = ((0 : ℤ) : ℝ) by norm_num, rne_int] at this
  have := two_zpow_pos (place v)
  positivity

theorem place_mono {v w : ℝ} (h0 : 0 < v) (h : v ≤ w) : place v ≤ place w := by
  unfold place
  have := Int.log_mono_right (b := 2) (abs_pos.2 h0.ne') (abs_le_abs_of_nonneg h0.le h)
  omega

theorem rnd_mono_pos {v w : ℝ} (h0 : 0 < v) (h : v ≤ w) : rnd v ≤ rnd w := by
  rcases (place_mono h0 h).lt_or_eq with hp | hp
  · -- a smaller exponent: compare with the power of two between
    have hw : 0 < w := h0.trans_le h
    have hlog : place w = Int.log 2 |w| - 52 := by
      unfold place at hp ⊢; omega
    have h1 : rnd v ≤ (2 : ℝ) ^ (place v + 53) := by
      unfold rnd
      have := (abs_le.1 (rne_le v)).2
      have h2 : (rne (v / 2 ^ place v) : ℝ) ≤ 2 ^ 53 := by exact_mod_cast this
      rw [zpow_add₀ (by norm_num), mul_comm]
      exact mul_le_mul_of_nonneg_left (by exact_mod_cast h2) (two_zpow_pos _).le
    have h2 : (2 : ℝ) ^ (place w + 52) ≤ rnd w := by
      unfold rnd
      have h3 : (2 : ℝ) ^ (52 : ℤ) ≤ w / 2 ^ place w := by
        rw [le_div_iff₀ (two_zpow_pos _), ← zpow_add₀ (by norm_num), hlog]
        have := Int.zpow_log_le_self (b := 2) (by norm_num) (abs_pos.2 hw.ne')
        rw [abs_of_pos hw] at this ⊢
        push_cast at this
        convert this using 2; ring
      have h4 := rne_mono h3
      rw [show (2 : ℝ) ^ (52 : ℤ) = ((2 ^ 52 : ℤ) : ℝ) by norm_num, rne_int] at h4
      have h5 : (2 : ℝ) ^ (52 : ℤ) ≤ (rne (w / 2 ^ place w) : ℝ) := by
        have : ((2 ^ 52 : ℤ) : ℝ) ≤ (rne (w / 2 ^ place w) : ℝ) := by exact_mod_cast h4
        refine le_trans (le_of_eq ?_) this
        norm_num
      rw [zpow_add₀ (by norm_num), mul_comm]
      exact mul_le_mul_of_nonneg_right h5 (two_zpow_pos _).le
    refine h1.trans (le_trans ?_ h2)
    apply zpow_le_zpow_right₀ (by norm_num)
    omega
  · unfold rnd
    rw [hp]
    apply mul_le_mul_of_nonneg_right _ (two_zpow_pos _).le
    have : rne (v / 2 ^ place w) ≤ rne (w / 2 ^ place w) := rne_mono (div_le_div_of_nonneg_right h (two_zpow_pos _).le)
    exact_mod_cast this

/-- Rounding is monotone. -/
theorem rnd_mono {v w : ℝ} (h : v ≤ w) : rnd v ≤ rnd w := by
  rcases lt_or_ge 0 v with h0 | h0
  · exact rnd_mono_pos h0 h
  · rcases le_or_gt 0 w with h1 | h1
    · have a := rnd_nonneg h1
      have b := rnd_nonneg (neg_nonneg.2 h0)
      rw [rnd_neg] at b
      linarith
    · have := rnd_mono_pos (neg_pos.2 h1) (neg_le_neg h)
      rw [rnd_neg, rnd_neg] at this
      linarith

theorem Rep.le_rnd {a v : ℝ} (ha : Rep a) (h : a ≤ v) : a ≤ rnd v := ha.rnd_eq ▸ rnd_mono h
theorem Rep.rnd_le {a v : ℝ} (ha : Rep a) (h : v ≤ a) : rnd v ≤ a := ha.rnd_eq ▸ rnd_mono h

theorem rnd_abs (v : ℝ) : rnd |v| = |rnd v| := by
  rcases le_total 0 v with h | h
  · rw [abs_of_nonneg h, abs_of_nonneg (rnd_nonneg h)]
  · have := rnd_nonneg (neg_nonneg.2 h)
    rw [abs_of_nonpos h, rnd_neg, abs_of_nonpos (by rw [rnd_neg] at this; linarith)]

/-- The rounding error is at most half a unit in the last place. -/
theorem rnd_near (v : ℝ) : |rnd v - v| ≤ 2 ^ place v / 2 := by
  have h := rne_near (v / 2 ^ place v)
  have hp := two_zpow_pos (place v)
  have e : rnd v - v = ((rne (v / 2 ^ place v) : ℝ) - v / 2 ^ place v) * 2 ^ place v := by
    unfold rnd; field_simp
  rw [e, abs_mul, abs_of_pos hp]
  calc _ ≤ 1 / 2 * (2 : ℝ) ^ place v := mul_le_mul_of_nonneg_right h hp.le
    _ = _ := by ring

/-- The rounding error is relatively at most 2^-53, or absolutely at most 2^-1075. -/
theorem rnd_error (v : ℝ) : |rnd v - v| ≤ |v| * 2 ^ (-53 : ℤ) + 2 ^ (-1075 : ℤ) := by
  rcases eq_or_ne v 0 with rfl | hv
  · rw [rnd_zero, sub_zero, abs_zero, zero_mul, zero_add]
    exact (two_zpow_pos _).le
  refine (rnd_near v).trans ?_
  unfold place
  rcases le_total (-1074) (Int.log 2 |v| - 52) with h | h
  · rw [max_eq_right h]
    have := Int.zpow_log_le_self (b := 2) (by norm_num) (abs_pos.2 hv)
    push_cast at this
    have e : (2 : ℝ) ^ (Int.log 2 |v| - 52) / 2 = 2 ^ Int.log 2 |v| * 2 ^ (-53 : ℤ) := by
      rw [zpow_sub₀ (by norm_num)]; norm_num; ring
    rw [e]
    have h2 := mul_le_mul_of_nonneg_right this (two_zpow_pos (-53)).le
    have := two_zpow_pos (-1075)
    linarith
  · rw [max_eq_left h]
    have e : (2 : ℝ) ^ (-1074 : ℤ) / 2 = 2 ^ (-1075 : ℤ) := by
      rw [show (-1075 : ℤ) = -1074 - 1 by norm_num, zpow_sub_one₀ (by norm_num)]; ring
    rw [e]
    have := mul_nonneg (abs_nonneg v) (two_zpow_pos (-53)).le
    linarith

/-- An even integer at distance at most one half is the rounded value. -/
theorem rne_eq_even {x : ℝ} {n : ℤ} (hn : Even n) (h : |x - n| ≤ 1 / 2) : rne x = n := by
  obtain ⟨h1, h2⟩ := abs_le.1 h
  have f1 := Int.floor_le x
  have f2 := Int.lt_floor_add_one x
  have g1 : ⌊x⌋ < n + 1 := by
    have : (⌊x⌋ : ℝ) < ((n + 1 : ℤ) : ℝ) := by push_cast; linarith
    exact_mod_cast this
  have g2 : n < ⌊x⌋ + 2 := by
    have : (n : ℝ) < ((⌊x⌋ + 2 : ℤ) : ℝ) := by push_cast; linarith
    exact_mod_cast this
  rcases (show ⌊x⌋ = n ∨ ⌊x⌋ = n - 1 by omega) with e | e
  · unfold rne
    rw [e] at f1 f2 ⊢
    rw [if_neg (show ¬ 1 / 2 < x - n by linarith), if_pos hn, ite_self]
  · unfold rne
    have ho : ¬ Even (n - 1) := by
      rw [Int.even_sub]; simp [hn]
    rw [e]
    push_cast
    rw [if_neg (show ¬ x - ((n : ℝ) - 1) < 1 / 2 by linarith), if_neg ho, ite_self]
    ring

/-- An integer at distance less than one half is the rounded value. -/
theorem rne_eq {x : ℝ} {n : ℤ} (h : |x - n| < 1 / 2) : rne x = n := by
  have h1 := abs_lt.1 h
  have h2 := abs_le.1 (rne_near x)
  have g1 : rne x < n + 1 := by
    have : (rne x : ℝ) < ((n + 1 : ℤ) : ℝ) := by push_cast; linarith [h1.2, h2.2]
    exact_mod_cast this
  have g2 : n < rne x + 1 := by
    have : (n : ℝ) < ((rne x + 1 : ℤ) : ℝ) := by push_cast; linarith [h1.1, h2.1]
    exact_mod_cast this
  omega

theorem place_eq {v : ℝ} {p : ℤ} (hp : -1074 ≤ p) (h0 : 2 ^ (p + 52) ≤ v) (h1 : v < 2 ^ (p + 53)) : place v = p := by
  have hv : 0 < v := (two_zpow_pos _).trans_le h0
  have : Int.log 2 |v| = p + 52 := by
    rw [abs_of_pos hv]
    apply le_antisymm
    · have := (Int.lt_zpow_iff_log_lt (b := 2) (by norm_num) hv (x := p + 53)).1 (by push_cast; exact h1)
      omega
    · exact (Int.zpow_le_iff_le_log (b := 2) (by norm_num) hv).1 (by push_cast; exact h0)
  unfold place
  rw [this]; omega

/-- The rounded value of a number in a known binade. -/
theorem rnd_eq_of_near {v : ℝ} {p n : ℤ} (hp : -1074 ≤ p) (h0 : 2 ^ (p + 52) ≤ v) (h1 : v < 2 ^ (p + 53))
    (hn : |v / 2 ^ p - n| < 1 / 2) : rnd v = n * 2 ^ p := by
  unfold rnd
  rw [place_eq hp h0 h1, rne_eq hn]

theorem rnd_eq_of_near_even {v : ℝ} {p n : ℤ} (hp : -1074 ≤ p) (h0 : 2 ^ (p + 52) ≤ v) (h1 : v < 2 ^ (p + 53))
    (he : Even n) (hn : |v / 2 ^ p - n| ≤ 1 / 2) : rnd v = n * 2 ^ p := by
  unfold rnd
  rw [place_eq hp h0 h1, rne_eq_even he hn]

end Mcu.Ieee
