import Verif.Lemmas.F64
import Verif.Model.MathUtils
import Verif.Model.ContrastCurve
import Verif.Model.Contrast

/-! Properties in IEEE-754 binary64 (rounding, signed zeros, infinities and NaN included), for every math library `L`.

`Dbl.Fin x` says that the double `x` is neither NaN nor infinite, `Dbl.val x` is the real number it stands for. -/

namespace Mcu.Props.Binary64

open Mcu.Ieee Mcu.Lemmas MathUtils Contrast ColorUtils

variable {L : Libm}

local notation "𝔻" => F64 L

/-- The real number a double stands for. -/
noncomputable abbrev val (x : 𝔻) : ℝ := Dbl.val x

/-- Neither NaN nor infinite. -/
abbrev Fin (x : 𝔻) : Prop := Dbl.Fin x

/-- Not NaN (infinities allowed). -/
abbrev IsNum (x : 𝔻) : Prop := Dbl.isNan x = false

theorem is_of (x : 𝔻) (h : Fin x) : Is x (val x) := ⟨h, rfl⟩

/-- Numbers of moderate size do not overflow when rounded. -/
theorem small {v : ℝ} (n : ℕ) (hn : n ≤ 53) (h : |v| ≤ 2 ^ n) : |rnd v| < 2 ^ 1024 := by
  have h2 : Rep (2 ^ n : ℝ) := by
    have := rep_zpow (e := n) (by omega)
    rwa [zpow_natCast] at this
  rw [← rnd_abs]
  exact (h2.rnd_le h).trans_lt (pow_lt_pow_right₀ (by norm_num) (by omega))

theorem lit (m e : ℕ) (s : Bool) (n : ℤ) (hv : (OfScientific.ofScientific m s e : ℝ) = n) (h : |n| ≤ 2 ^ 53) :
    Is (OfScientific.ofScientific m s e : 𝔻) n := is_lit_int hv h

theorem l0 : Is (0.0 : 𝔻) 0 := by simpa using lit (L := L) 0 1 true 0 (by norm_num) (by norm_num)
theorem l1 : Is (1.0 : 𝔻) 1 := by simpa using lit (L := L) 10 1 true 1 (by norm_num) (by norm_num)
theorem l5 : Is (5.0 : 𝔻) 5 := by simpa using lit (L := L) 50 1 true 5 (by norm_num) (by norm_num)
theorem l16 : Is (16.0 : 𝔻) 16 := by simpa using lit (L := L) 160 1 true 16 (by norm_num) (by norm_num)
theorem l27 : Is (27.0 : 𝔻) 27 := by simpa using lit (L := L) 270 1 true 27 (by norm_num) (by norm_num)
theorem l100 : Is (100.0 : 𝔻) 100 := by simpa using lit (L := L) 1000 1 true 100 (by norm_num) (by norm_num)
theorem l116 : Is (116.0 : 𝔻) 116 := by simpa using lit (L := L) 1160 1 true 116 (by norm_num) (by norm_num)
theorem l180 : Is (180.0 : 𝔻) 180 := by simpa using lit (L := L) 1800 1 true 180 (by norm_num) (by norm_num)
theorem l216 : Is (216.0 : 𝔻) 216 := by simpa using lit (L := L) 2160 1 true 216 (by norm_num) (by norm_num)
theorem l360 : Is (360.0 : 𝔻) 360 := by simpa using lit (L := L) 3600 1 true 360 (by norm_num) (by norm_num)
theorem l24389 : Is (24389.0 : 𝔻) 24389 := by
  simpa using lit (L := L) 243890 1 true 24389 (by norm_num) (by norm_num)

/-! ### C06 -/

/-- The remainder left by truncated division by 360. -/
theorem rem360 (a : ℝ) : |a - 360 * (realTrunc (a / 360) : ℤ)| < 360 ∧
    (0 ≤ a → 0 ≤ a - 360 * (realTrunc (a / 360) : ℤ)) ∧ (a < 0 → a - 360 * (realTrunc (a / 360) : ℤ) ≤ 0) := by
  unfold realTrunc
  split_ifs with h
  · have h1 := Int.floor_le (a / 360)
    have h2 := Int.lt_floor_add_one (a / 360)
    refine ⟨by rw [abs_lt]; constructor <;> linarith, fun _ => by linarith, fun h' => by linarith⟩
  · have h1 := Int.le_ceil (a / 360)
    have h2 := Int.ceil_lt_add_one (a / 360)
    refine ⟨by rw [abs_lt]; constructor <;> linarith, fun h' => by linarith, fun _ => by linarith⟩

theorem rep360 : Rep 360 := by simpa using rep_int (n := 360) (by norm_num)

/-- Adding a turn to a negative remainder. -/
theorem rnd_turn {r : ℝ} (h0 : -360 < r) (h1 : r < 0) :
    0 ≤ rnd (r + 360) ∧ rnd (r + 360) ≤ 360 ∧ |rnd (r + 360) - (r + 360)| ≤ 2 ^ (-45 : ℤ) ∧
      (r < -2 ^ (-45 : ℤ) → rnd (r + 360) < 360) := by
  have hp : place (r + 360) ≤ -44 := by
    have hh : place 360 = -44 := by
      unfold place
      have : Int.log 2 |(360 : ℝ)| = 8 := by
        rw [abs_of_pos (by norm_num)]
        have := Int.log_natCast (R := ℝ) 2 360
        rw [show ((360 : ℕ) : ℝ) = 360 by norm_num] at this
        rw [this]
        have : Nat.log 2 360 = 8 := by
          rw [Nat.log_eq_iff (by norm_num)]; norm_num
        rw [this]; rfl
      rw [this]; norm_num
    rw [← hh]
    exact place_mono (by linarith) (by linarith)
  have hn : |rnd (r + 360) - (r + 360)| ≤ 2 ^ (-45 : ℤ) := by
    refine (rnd_near _).trans ?_
    have : (2 : ℝ) ^ place (r + 360) ≤ 2 ^ (-44 : ℤ) := zpow_le_zpow_right₀ (by norm_num) hp
    have e : (2 : ℝ) ^ (-45 : ℤ) = 2 ^ (-44 : ℤ) / 2 := by norm_num
    rw [e]; exact div_le_div_of_nonneg_right this (by norm_num)
  refine ⟨rnd_nonneg (by linarith), rep360.rnd_le (by linarith), hn, fun h => ?_⟩
  have := abs_le.1 hn
  linarith [this.2]

/-- C06 (binary64).  For every finite double the sanitised angle is finite, lies in [0, 360] and differs from a whole-turn
shift of the input by at most 2^-45; for inputs that are not negative the reduction is exact and the upper bound strict.
Missing from the property: the upper bound is not strict for every negative input, see `c06_violated`. -/
theorem c06_binary64_partial (x : 𝔻) (hx : Fin x) :
    Fin (sanitizeDegreesDouble x) ∧
    0 ≤ val (sanitizeDegreesDouble x) ∧ val (sanitizeDegreesDouble x) ≤ 360 ∧
    (∃ k : ℤ, |val (sanitizeDegreesDouble x) - (val x + 360 * k)| ≤ 2 ^ (-45 : ℤ)) ∧
    (0 ≤ val x → val (sanitizeDegreesDouble x) < 360 ∧ ∃ k : ℤ, val (sanitizeDegreesDouble x) = val x + 360 * k) := by
  have hr := (is_of x hx).fmod l360 (by norm_num)
  obtain ⟨r1, r2, r3⟩ := rem360 (val x)
  have hp : (0 : ℝ) < 2 ^ (-45 : ℤ) := two_zpow_pos _
  set k := realTrunc (val x / 360)
  unfold sanitizeDegreesDouble
  simp only
  split
  · next h =>
    rw [hr.lt_iff l0] at h
    obtain ⟨t0, t1, t2, -⟩ := rnd_turn (abs_lt.1 r1).1 h
    have ha := hr.add l360 (by
      rw [abs_of_nonneg t0]; exact t1.trans_lt (lt_of_lt_of_le (by norm_num) (pow_le_pow_right₀ (by norm_num : (1 : ℝ) ≤ 2) (show 9 ≤ 1024 by norm_num))))
    have hv : val _ = _ := ha.2
    refine ⟨ha.1, ?_, ?_, ⟨1 - k, ?_⟩, fun h' => absurd (r2 h') (not_le.2 h)⟩
    · rw [hv]; exact t0
    · rw [hv]; exact t1
    · rw [hv]; refine le_trans (le_of_eq ?_) t2
      push_cast; congr 1; ring
  · next h =>
    rw [hr.lt_iff l0] at h
    push Not at h
    have hv : val _ = _ := hr.2
    have hlt := (abs_lt.1 r1).2
    refine ⟨hr.1, ?_, ?_, ⟨-k, ?_⟩, fun _ => ⟨?_, ⟨-k, ?_⟩⟩⟩
    · rw [hv]; exact h
    · rw [hv]; exact hlt.le
    · rw [hv, show val x - 360 * (k : ℝ) - (val x + 360 * ((-k : ℤ) : ℝ)) = 0 by push_cast; ring, abs_zero]
      exact hp.le
    · rw [hv]; exact hlt
    · rw [hv]; push_cast; ring

/-- C06 (binary64): exactly which inputs are sent to the excluded bound 360: the negative ones that are at most 2^-45
below a whole turn. -/
theorem c06_violating_inputs (x : 𝔻) (hx : Fin x) :
    val (sanitizeDegreesDouble x) = 360 ↔
      val x < 0 ∧ ∃ k : ℤ, -2 ^ (-45 : ℤ) ≤ val x + 360 * k ∧ val x + 360 * k < 0 := by
  have hr := (is_of x hx).fmod l360 (by norm_num)
  obtain ⟨r1, r2, r3⟩ := rem360 (val x)
  have hsmall : (2 : ℝ) ^ (-45 : ℤ) < 1 := by norm_num
  generalize hk : realTrunc (val x / 360) = k at *
  unfold sanitizeDegreesDouble
  simp only
  split
  · next h =>
    rw [hr.lt_iff l0] at h
    obtain ⟨t0, t1, t2, t3⟩ := rnd_turn (abs_lt.1 r1).1 h
    have ha := hr.add l360 (by
      rw [abs_of_nonneg t0]; exact t1.trans_lt (lt_of_lt_of_le (by norm_num) (pow_le_pow_right₀ (by norm_num : (1 : ℝ) ≤ 2) (show 9 ≤ 1024 by norm_num))))
    have hv : val _ = _ := ha.2
    rw [hv]
    constructor
    · intro h'
      refine ⟨not_le.1 fun h0 => absurd (r2 h0) (not_le.2 h), -k, ?_, ?_⟩
      · push_cast
        by_contra hc
        exact (t3 (by linarith)).ne h'
      · push_cast; linarith
    · rintro ⟨-, j, j1, j2⟩
      have e : -k = j := by
        have a1 := (abs_lt.1 r1).1
        have b1 : ((-k : ℤ) : ℝ) < ((j + 1 : ℤ) : ℝ) := by push_cast; linarith
        have b2 : ((j : ℤ) : ℝ) < ((-k + 1 : ℤ) : ℝ) := by push_cast; linarith
        have b1' : -k < j + 1 := by exact_mod_cast b1
        have b2' : j < -k + 1 := by exact_mod_cast b2
        omega
      subst e
      push_cast at j1 j2
      have := rnd_eq_of_near_even (v := val x - 360 * (k : ℝ) + 360) (p := -44) (n := 360 * 2 ^ 44) (by norm_num)
        (by norm_num at *; linarith) (by norm_num at *; linarith) ⟨180 * 2 ^ 44, by norm_num⟩ (by
          rw [abs_le]; norm_num at *; constructor <;> linarith)
      rw [this]; norm_num
  · next h =>
    rw [hr.lt_iff l0] at h
    push Not at h
    have hv : val _ = _ := hr.2
    rw [hv]
    refine ⟨fun h' => absurd h' (abs_lt.1 r1).2.ne, ?_⟩
    rintro ⟨hn, j, j1, j2⟩
    have h0 : val x - 360 * (k : ℝ) = 0 := le_antisymm (r3 hn) h
    exfalso
    have c1 : (((k + j : ℤ)) : ℝ) < ((0 : ℤ) : ℝ) := by push_cast; linarith
    have c2 : (((-1 : ℤ)) : ℝ) < ((k + j : ℤ) : ℝ) := by push_cast; linarith
    have c1' : k + j < 0 := by exact_mod_cast c1
    have c2' : -1 < k + j := by exact_mod_cast c2
    omega

/-- The double -2^-100. -/
noncomputable def tiny : 𝔻 :=
  Dbl.num (-2 ^ (-100 : ℤ)) ⟨(rep_zpow (by norm_num)).neg, by norm_num, by
    rw [abs_neg, abs_of_pos (two_zpow_pos _), ← zpow_natCast]
    exact zpow_lt_zpow_right₀ (by norm_num) (by norm_num)⟩

/-- C06 is violated in binary64: an angle just below 0 is sanitised to exactly 360, which the documentation excludes, and
sanitising that once more gives 0, so sanitising is not idempotent. -/
theorem c06_violated :
    Fin (tiny : 𝔻) ∧ val (sanitizeDegreesDouble (tiny : 𝔻)) = 360 ∧
      val (sanitizeDegreesDouble (sanitizeDegreesDouble (tiny : 𝔻))) = 0 := by
  have h1 : Fin (tiny : 𝔻) := trivial
  have h2 : val (sanitizeDegreesDouble (tiny : 𝔻)) = 360 := by
    rw [c06_violating_inputs _ h1]
    have : val (tiny : 𝔻) = -2 ^ (-100 : ℤ) := rfl
    rw [this]
    refine ⟨by norm_num, 0, by norm_num, by norm_num⟩
  obtain ⟨hf, -⟩ := c06_binary64_partial (tiny : 𝔻) h1
  obtain ⟨-, b, -, -, hk⟩ := c06_binary64_partial _ hf
  rw [h2] at hk
  obtain ⟨b1, k, hk⟩ := hk (by norm_num)
  refine ⟨h1, h2, ?_⟩
  rw [hk] at b b1 ⊢
  have c1 : ((k : ℤ) : ℝ) < ((0 : ℤ) : ℝ) := by push_cast; linarith
  have c2 : (((-2 : ℤ)) : ℝ) < ((k : ℤ) : ℝ) := by push_cast; linarith
  have c1' : k < 0 := by exact_mod_cast c1
  have c2' : -2 < k := by exact_mod_cast c2
  have : k = -1 := by omega
  rw [this]; norm_num

/-- C06 (binary64): angles in [0, 360) are unchanged. -/
theorem c06_binary64_fixed (x : 𝔻) (hx : Fin x) (h0 : 0 ≤ val x) (h1 : val x < 360) :
    val (sanitizeDegreesDouble x) = val x := by
  obtain ⟨-, b, -, -, hk⟩ := c06_binary64_partial x hx
  obtain ⟨b1, k, hk⟩ := hk h0
  rw [hk] at b b1 ⊢
  have c1 : ((k : ℤ) : ℝ) < ((1 : ℤ) : ℝ) := by push_cast; linarith
  have c2 : (((-1 : ℤ)) : ℝ) < ((k : ℤ) : ℝ) := by push_cast; linarith
  have c1' : k < 1 := by exact_mod_cast c1
  have c2' : -1 < k := by exact_mod_cast c2
  have : k = 0 := by omega
  rw [this]; norm_num

/-- C06 (binary64): NaN and the infinities give NaN. -/
theorem c06_binary64_nan (x : 𝔻) (hx : ¬ Fin x) : sanitizeDegreesDouble x = (Dbl.nan : 𝔻) := by
  have h1 : Fl.fmod x 360.0 = (Dbl.nan : 𝔻) := by
    rcases x with _ | s | s | ⟨v, hv⟩
    · rfl
    · have h360 : ∃ v h, (360.0 : 𝔻) = Dbl.num v h := by
        obtain ⟨h1, h2⟩ := l360 (L := L)
        revert h1 h2
        generalize (360.0 : 𝔻) = y
        rcases y with _ | s | s | ⟨v, hv⟩
        · intro h; exact h.elim
        · intro h; exact h.elim
        · intro _ h; exact absurd h (by norm_num [Dbl.val])
        · intro _ _; exact ⟨v, hv, rfl⟩
      obtain ⟨v, h, e⟩ := h360
      rw [e]; rfl
    · exact absurd trivial hx
    · exact absurd trivial hx
  have h2 (y : 𝔻) (hy : y = (Dbl.nan : 𝔻)) : ¬ y < 0.0 := fun h => by
    have : Dbl.isNan y = false := h.1
    rw [hy] at this
    exact absurd this (by decide)
  unfold sanitizeDegreesDouble
  simp only
  rw [if_neg (h2 _ h1)]
  exact h1

/-! ### C07 -/

theorem rnd_near_of_le {v : ℝ} (p : ℤ) (hp : -1074 ≤ p) (h : |v| < 2 ^ (p + 53)) : |rnd v - v| ≤ 2 ^ p / 2 := by
  rcases eq_or_ne v 0 with rfl | hv
  · rw [rnd_zero, sub_zero, abs_zero]; exact (half_pos (two_zpow_pos p)).le
  · refine (rnd_near v).trans (div_le_div_of_nonneg_right (zpow_le_zpow_right₀ (by norm_num) ?_) (by norm_num))
    have := (Int.lt_zpow_iff_log_lt (b := 2) (by norm_num) (abs_pos.2 hv) (x := p + 53)).1 (by push_cast; exact h)
    unfold place; omega

/-- The circular distance of two angles at most a turn apart. -/
noncomputable def circular (a b : ℝ) : ℝ := min |a - b| (360 - |a - b|)

/-- C07 (binary64): for angles in [0, 360] the degree difference is finite, lies in [0, 180], is within 2^-44 of the circular
distance, and does not depend on the order of the angles. -/
theorem c07_binary64 (a b : 𝔻) (ha : Fin a) (hb : Fin b) (ha0 : 0 ≤ val a ∧ val a ≤ 360) (hb0 : 0 ≤ val b ∧ val b ≤ 360) :
    Fin (differenceDegrees a b) ∧ 0 ≤ val (differenceDegrees a b) ∧ val (differenceDegrees a b) ≤ 180 ∧
    |val (differenceDegrees a b) - circular (val a) (val b)| ≤ 2 ^ (-44 : ℤ) ∧
    val (differenceDegrees a b) = val (differenceDegrees b a) := by
  have key (a b : 𝔻) (ha : Fin a) (hb : Fin b) (ha0 : 0 ≤ val a ∧ val a ≤ 360) (hb0 : 0 ≤ val b ∧ val b ≤ 360) :
      |rnd (val a - val b)| ≤ 360 ∧ |rnd (|rnd (val a - val b)| - 180)| ≤ 180 ∧
      Is (differenceDegrees a b) (rnd (180 - |rnd (|rnd (val a - val b)| - 180)|)) := by
    have h1 : |val a - val b| ≤ 360 := by rw [abs_le]; constructor <;> linarith [ha0.1, ha0.2, hb0.1, hb0.2]
    have r1 : |rnd (val a - val b)| ≤ 360 := by rw [← rnd_abs]; exact rep360.rnd_le h1
    have i1 := (is_of a ha).sub (is_of b hb) (small 9 (by norm_num) (by norm_num; linarith))
    have h2 : |(|rnd (val a - val b)| - 180)| ≤ 180 := by
      rw [abs_le]; constructor <;> linarith [abs_nonneg (rnd (val a - val b))]
    have rep180 : Rep 180 := by simpa using rep_int (n := 180) (by norm_num)
    have r2 : |rnd (|rnd (val a - val b)| - 180)| ≤ 180 := by rw [← rnd_abs]; exact rep180.rnd_le h2
    have i2 := i1.abs.sub l180 (small 9 (by norm_num) (by norm_num; linarith))
    have i3 := l180.sub i2.abs (small 9 (by norm_num) (by
      rw [abs_le]; norm_num; constructor <;> linarith [abs_nonneg (rnd (|rnd (val a - val b)| - 180))]))
    exact ⟨r1, r2, i3⟩
  obtain ⟨r1, r2, i⟩ := key a b ha hb ha0 hb0
  obtain ⟨-, -, i'⟩ := key b a hb ha hb0 ha0
  have rep180 : Rep 180 := by simpa using rep_int (n := 180) (by norm_num)
  have hv : val (differenceDegrees a b) = _ := i.2
  have hv' : val (differenceDegrees b a) = _ := i'.2
  have h1 : |val a - val b| ≤ 360 := by rw [abs_le]; constructor <;> linarith [ha0.1, ha0.2, hb0.1, hb0.2]
  refine ⟨i.1, ?_, ?_, ?_, ?_⟩
  · rw [hv]; exact rnd_nonneg (by linarith)
  · rw [hv]; exact rep180.rnd_le (by linarith [abs_nonneg (rnd (|rnd (val a - val b)| - 180))])
  · rw [hv]
    have ec : circular (val a) (val b) = 180 - |(|val a - val b| - 180)| := by
      unfold circular
      rcases le_total |val a - val b| 180 with h | h
      · rw [min_eq_left (by linarith), abs_of_nonpos (a := |val a - val b| - 180) (by linarith)]; ring
      · rw [min_eq_right (by linarith), abs_of_nonneg (a := |val a - val b| - 180) (by linarith)]; ring
    have e1 := rnd_near_of_le (v := val a - val b) (-44) (by norm_num) (by norm_num; linarith)
    have e2 := rnd_near_of_le (v := |rnd (val a - val b)| - 180) (-45) (by norm_num) (by
      rw [abs_lt]; norm_num; constructor <;> linarith [abs_nonneg (rnd (val a - val b))])
    have e3 := rnd_near_of_le (v := 180 - |rnd (|rnd (val a - val b)| - 180)|) (-45) (by norm_num) (by
      rw [abs_lt]; norm_num; constructor <;> linarith [abs_nonneg (rnd (|rnd (val a - val b)| - 180))])
    rw [ec]
    have d1 := abs_abs_sub_abs_le (rnd (val a - val b)) (val a - val b)
    have d2 := abs_abs_sub_abs_le (rnd (|rnd (val a - val b)| - 180)) (|val a - val b| - 180)
    have d3 : |rnd (|rnd (val a - val b)| - 180) - (|val a - val b| - 180)| ≤
        |rnd (|rnd (val a - val b)| - 180) - (|rnd (val a - val b)| - 180)| + |(|rnd (val a - val b)| - |val a - val b|)| := by
      refine le_trans (le_of_eq ?_) (abs_add_le _ _)
      congr 1; ring
    have d4 : |rnd (180 - |rnd (|rnd (val a - val b)| - 180)|) - (180 - |(|val a - val b| - 180)|)| ≤
        |rnd (180 - |rnd (|rnd (val a - val b)| - 180)|) - (180 - |rnd (|rnd (val a - val b)| - 180)|)| +
        |(|rnd (|rnd (val a - val b)| - 180)| - |(|val a - val b| - 180)|)| := by
      rw [abs_sub_comm |rnd (|rnd (val a - val b)| - 180)|]
      refine le_trans (le_of_eq ?_) (abs_add_le _ _)
      congr 1; ring
    have p : (2 : ℝ) ^ (-44 : ℤ) / 2 + 2 ^ (-45 : ℤ) / 2 + 2 ^ (-45 : ℤ) / 2 = 2 ^ (-44 : ℤ) := by norm_num
    generalize (2 : ℝ) ^ (-44 : ℤ) = A at *
    generalize (2 : ℝ) ^ (-45 : ℤ) = B at *
    linarith
  · rw [hv, hv', ← neg_sub (val b), rnd_neg, abs_neg]

/-- C07 (binary64): hues less than 2^-46 apart have difference 0 although they are different. -/
theorem c07_binary64_zero (a b : 𝔻) (ha : Fin a) (hb : Fin b) (h : |val a - val b| ≤ 2 ^ (-46 : ℤ)) :
    val (differenceDegrees a b) = 0 := by
  have r46 : Rep (2 ^ (-46 : ℤ)) := rep_zpow (by norm_num)
  have h1 : |rnd (val a - val b)| ≤ 2 ^ (-46 : ℤ) := by rw [← rnd_abs]; exact r46.rnd_le h
  have i1 := (is_of a ha).sub (is_of b hb) (small 9 (by norm_num) (h.trans (by norm_num)))
  have e2 : rnd (|rnd (val a - val b)| - 180) = -180 := by
    have h0 := abs_nonneg (rnd (val a - val b))
    generalize |rnd (val a - val b)| = u at h0 h1
    rw [← neg_sub, rnd_neg, rnd_eq_of_near_even (p := -45) (n := 180 * 2 ^ 45) (by norm_num)
      (by norm_num at *; linarith) (by norm_num at *; linarith) ⟨90 * 2 ^ 45, by norm_num⟩ (by
        rw [abs_le]; norm_num at *; constructor <;> linarith)]
    norm_num
  have i2 := i1.abs.sub l180 (by rw [e2, abs_neg]; rw [← (show rnd 180 = 180 from (by simpa using (rep_int (n := 180) (by norm_num)).rnd_eq))]; exact small 9 (by norm_num) (by norm_num))
  rw [e2] at i2
  have i3 := l180.sub i2.abs (by norm_num [rnd_zero])
  have : val (differenceDegrees a b) = _ := i3.2
  rw [this]; norm_num [rnd_zero]

/-! ### C09 -/

theorem notNan_lt {x y : 𝔻} (hx : IsNum x) (hy : IsNum y) : ¬ x < y ↔ y ≤ x := by
  show ¬ Dbl.lt x y ↔ Dbl.le y x
  simp only [Dbl.lt, Dbl.le, hx, hy, true_and, not_lt]

/-- C09 (binary64): for bounds and input that are not NaN (infinities allowed) and bounds in order, the clamped value is not
NaN, lies between the bounds, and is the input itself if that was between them; clamping again changes nothing. -/
theorem c09_binary64_clamp (lo hi x : 𝔻) (hl : IsNum lo) (hh : IsNum hi)
    (hx : IsNum x) (hle : lo ≤ hi) :
    IsNum (clampDouble lo hi x) ∧ lo ≤ clampDouble lo hi x ∧ clampDouble lo hi x ≤ hi ∧
    (lo ≤ x → x ≤ hi → clampDouble lo hi x = x) ∧
    clampDouble lo hi (clampDouble lo hi x) = clampDouble lo hi x := by
  have refl (y : 𝔻) (hy : IsNum y) : y ≤ y := by
    show Dbl.le y y
    exact ⟨hy, hy, le_rfl⟩
  have key (y : 𝔻) (hy : IsNum y) (h1 : lo ≤ y) (h2 : y ≤ hi) : clampDouble lo hi y = y := by
    unfold clampDouble
    rw [if_neg ((notNan_lt hy hl).2 h1), if_neg ((notNan_lt hh hy).2 h2)]
  have main : IsNum (clampDouble lo hi x) ∧ lo ≤ clampDouble lo hi x ∧ clampDouble lo hi x ≤ hi := by
    unfold clampDouble
    split
    · exact ⟨hl, refl _ hl, hle⟩
    · next h =>
      split
      · exact ⟨hh, hle, refl _ hh⟩
      · next h' => exact ⟨hx, (notNan_lt hx hl).1 h, (notNan_lt hh hx).1 h'⟩
  exact ⟨main.1, main.2.1, main.2.2, key x hx, key _ main.1 main.2.1 main.2.2⟩

/-- C09 (binary64): interpolation by 0 and by 1 gives exactly the endpoints, whatever finite doubles they are. -/
theorem c09_binary64_lerp (a b : 𝔻) (ha : Fin a) (hb : Fin b) :
    val (lerp a b 0.0) = val a ∧ val (lerp a b 1.0) = val b := by
  have z : |rnd 0| < (2 : ℝ) ^ 1024 := by rw [rnd_zero, abs_zero]; positivity
  have one : rnd 1 = 1 := by simpa using (rep_int (n := 1) (by norm_num)).rnd_eq
  have l01 : |rnd (1 : ℝ)| < (2 : ℝ) ^ 1024 := small 0 (by norm_num) (by norm_num)
  have fin {x : 𝔻} {v : ℝ} (h : Is x v) : |rnd v| < (2 : ℝ) ^ 1024 := by rw [h.rep.rnd_eq]; exact h.lt_max
  have ia := is_of a ha
  have ib := is_of b hb
  constructor
  · have h1 := (l1 (L := L)).sub l0 (by rw [sub_zero]; exact l01)
    rw [sub_zero, one] at h1
    have h2 := h1.mul ia (by rw [one_mul]; exact fin ia)
    rw [one_mul, ia.rep.rnd_eq] at h2
    have h3 := (l0 (L := L)).mul ib (by rw [zero_mul]; exact z)
    rw [zero_mul, rnd_zero] at h3
    have h4 := h2.add h3 (by rw [add_zero]; exact fin ia)
    rw [add_zero, ia.rep.rnd_eq] at h4
    exact h4.2
  · have h1 := (l1 (L := L)).sub l1 (by rw [sub_self]; exact z)
    rw [sub_self, rnd_zero] at h1
    have h2 := h1.mul ia (by rw [zero_mul]; exact z)
    rw [zero_mul, rnd_zero] at h2
    have h3 := (l1 (L := L)).mul ib (by rw [one_mul]; exact fin ib)
    rw [one_mul, ib.rep.rnd_eq] at h3
    have h4 := h2.add h3 (by rw [zero_add]; exact fin ib)
    rw [zero_add, ib.rep.rnd_eq] at h4
    exact h4.2

example : ∃ x y : 𝔻, Fin x ∧ Fin y ∧ val x = 5 ∧ val y = 100 := ⟨5.0, 100.0, l5.1, l100.1, l5.2, l100.2⟩

/-! ### C22 -/

theorem lhalf : Is (0.5 : 𝔻) (1 / 2) := by
  have h := is_lit (L := L) (m := 5) (s := true) (e := 1) (v := 1 / 2) (by norm_num) (by
    rw [abs_of_pos (by norm_num)]; exact le_trans (by norm_num) (one_le_pow₀ (by norm_num : (1 : ℝ) ≤ 2)))
  have r : rnd (1 / 2) = 1 / 2 := by
    have := (rep_zpow (e := -1) (by norm_num)).rnd_eq
    norm_num at this ⊢
    exact this
  rwa [r] at h

/-- C22 (binary64): at the contrast levels -1, 0, 0.5 and 1 a contrast curve of finite values gives exactly its four values. -/
theorem c22_binary64_control_values (k : ContrastCurve 𝔻) (hn : Fin k.normal) (hm : Fin k.medium)
    (hh : Fin k.high) :
    val (k.get (-1.0)) = val k.low ∧ val (k.get 0.0) = val k.normal ∧ val (k.get 0.5) = val k.medium ∧
      val (k.get 1.0) = val k.high := by
  have z : |rnd 0| < (2 : ℝ) ^ 1024 := by rw [rnd_zero, abs_zero]; positivity
  have m1 := (l1 (L := L)).neg
  have i0 := (l0 (L := L))
  have i1 := (l1 (L := L))
  have ih := lhalf (L := L)
  have fin {x : 𝔻} {v : ℝ} (h : Is x v) : |rnd v| < (2 : ℝ) ^ 1024 := by rw [h.rep.rnd_eq]; exact h.lt_max
  have lerp0 (a b t : 𝔻) (ha : Fin a) (hb : Fin b) (ht : Is t 0) : val (lerp a b t) = val a := by
    have one : rnd 1 = 1 := by simpa using (rep_int (n := 1) (by norm_num)).rnd_eq
    have l01 : |rnd (1 : ℝ)| < (2 : ℝ) ^ 1024 := small 0 (by norm_num) (by norm_num)
    have ia := is_of a ha
    have h1 := (l1 (L := L)).sub ht (by rw [sub_zero]; exact l01)
    rw [sub_zero, one] at h1
    have h2 := h1.mul ia (by rw [one_mul]; exact fin ia)
    rw [one_mul, ia.rep.rnd_eq] at h2
    have h3 := ht.mul (is_of b hb) (by rw [zero_mul]; exact z)
    rw [zero_mul, rnd_zero] at h3
    have h4 := h2.add h3 (by rw [add_zero]; exact fin ia)
    rw [add_zero, ia.rep.rnd_eq] at h4
    exact h4.2
  refine ⟨?_, ?_, ?_, ?_⟩
  · unfold ContrastCurve.get
    rw [if_pos ((m1.le_iff m1).2 le_rfl)]
  · unfold ContrastCurve.get
    rw [if_neg (by rw [i0.le_iff m1]; norm_num), if_neg (by rw [i0.lt_iff i0]; norm_num),
      if_pos (by rw [i0.lt_iff ih]; norm_num)]
    refine lerp0 _ _ _ hn hm ?_
    have h1 := i0.sub i0 (by rw [sub_self]; exact z)
    rw [sub_self, rnd_zero] at h1
    have h2 := h1.div ih (by norm_num) (by rw [zero_div]; exact z)
    rwa [zero_div, rnd_zero] at h2
  · unfold ContrastCurve.get
    rw [if_neg (by rw [ih.le_iff m1]; norm_num), if_neg (by rw [ih.lt_iff i0]; norm_num),
      if_neg (by rw [ih.lt_iff ih]; norm_num), if_pos (by rw [ih.lt_iff i1]; norm_num)]
    refine lerp0 _ _ _ hm hh ?_
    have h1 := ih.sub ih (by rw [sub_self]; exact z)
    rw [sub_self, rnd_zero] at h1
    have h2 := h1.div ih (by norm_num) (by rw [zero_div]; exact z)
    rwa [zero_div, rnd_zero] at h2
  · unfold ContrastCurve.get
    rw [if_neg (by rw [i1.le_iff m1]; norm_num), if_neg (by rw [i1.lt_iff i0]; norm_num),
      if_neg (by rw [i1.lt_iff ih]; norm_num), if_neg (by rw [i1.lt_iff i1]; norm_num)]

/-! ### C11 -/

/-- 216/24389 and 24389/27 as doubles. -/
theorem eps_val : rnd (216 / 24389) = 5105396797635798 * (2 : ℝ) ^ (-59 : ℤ) := by
  have := rnd_eq_of_near (v := 216 / 24389) (p := -59) (n := 5105396797635798) (by norm_num) (by norm_num) (by norm_num)
    (by rw [abs_lt]; norm_num)
  simpa using this

theorem kappa_val : rnd (24389 / 27) = 7945478248838182 * (2 : ℝ) ^ (-43 : ℤ) := by
  have := rnd_eq_of_near (v := 24389 / 27) (p := -43) (n := 7945478248838182) (by norm_num) (by norm_num) (by norm_num)
    (by rw [abs_lt]; norm_num)
  simpa using this

theorem rep100 : Rep 100 := by simpa using rep_int (n := 100) (by norm_num)
theorem rep16 : Rep 16 := by simpa using rep_int (n := 16) (by norm_num)
theorem rep1 : Rep 1 := by simpa using rep_int (n := 1) (by norm_num)
theorem rep0 : Rep 0 := by simpa using rep_int (n := 0) (by norm_num)
theorem rep116 : Rep 116 := by simpa using rep_int (n := 116) (by norm_num)

/-- What `lab_invf` computes. -/
noncomputable def invR (f : ℝ) : ℝ :=
  open Classical in
  if rnd (rnd (f * f) * f) > rnd (216 / 24389) then rnd (rnd (f * f) * f)
  else rnd (rnd (rnd (116 * f) - 16) / rnd (24389 / 27))

theorem invR_of_gt {f : ℝ} (h : rnd (rnd (f * f) * f) > rnd (216 / 24389)) : invR f = rnd (rnd (f * f) * f) := by
  unfold invR; rw [if_pos h]

theorem invR_of_le {f : ℝ} (h : rnd (rnd (f * f) * f) ≤ rnd (216 / 24389)) :
    invR f = rnd (rnd (rnd (116 * f) - 16) / rnd (24389 / 27)) := by
  unfold invR; rw [if_neg (not_lt.2 h)]

theorem kappa_pos : (0 : ℝ) < rnd (24389 / 27) := by rw [kappa_val]; positivity

theorem cube_mono {f g : ℝ} (h0 : 0 ≤ f) (h : f ≤ g) : rnd (rnd (f * f) * f) ≤ rnd (rnd (g * g) * g) :=
  rnd_mono (mul_le_mul (rnd_mono (mul_le_mul h h h0 (h0.trans h))) h h0 (rnd_nonneg (mul_self_nonneg g)))

theorem line_mono {f g : ℝ} (h : f ≤ g) :
    rnd (rnd (rnd (116 * f) - 16) / rnd (24389 / 27)) ≤ rnd (rnd (rnd (116 * g) - 16) / rnd (24389 / 27)) :=
  rnd_mono (div_le_div_of_nonneg_right (rnd_mono (sub_le_sub_right (rnd_mono (by linarith)) _)) kappa_pos.le)

/-- The double next to 6/29 is the last one on the linear branch. -/
theorem branch {f : ℝ} (hf : Rep f) (h : rnd (rnd (f * f) * f) ≤ rnd (216 / 24389)) :
    f ≤ 7454233865992545 * (2 : ℝ) ^ (-55 : ℤ) := by
  by_contra hc
  push Not at hc
  have hg : 7454233865992546 * (2 : ℝ) ^ (-55 : ℤ) ≤ f := by
    by_contra hc'
    push Not at hc'
    obtain ⟨n, hn⟩ := hf.multiple
    rw [place_eq (p := -55) (by norm_num) (by norm_num at *; linarith) (by norm_num at *; linarith)] at hn
    rw [hn] at hc hc'
    have a := lt_of_mul_lt_mul_right hc (two_zpow_pos _).le
    have b := lt_of_mul_lt_mul_right hc' (two_zpow_pos _).le
    have a' : (7454233865992545 : ℤ) < n := by exact_mod_cast a
    have b' : n < (7454233865992546 : ℤ) := by exact_mod_cast b
    omega
  have e1 : rnd ((7454233865992546 * (2 : ℝ) ^ (-55 : ℤ)) * (7454233865992546 * (2 : ℝ) ^ (-55 : ℤ))) =
      6169021130476591 * (2 : ℝ) ^ (-57 : ℤ) := by
    have := rnd_eq_of_near (v := (7454233865992546 * (2 : ℝ) ^ (-55 : ℤ)) * (7454233865992546 * (2 : ℝ) ^ (-55 : ℤ)))
      (p := -57) (n := 6169021130476591) (by norm_num) (by norm_num) (by norm_num) (by rw [abs_lt]; norm_num)
    simpa using this
  have e2 : rnd (6169021130476591 * (2 : ℝ) ^ (-57 : ℤ) * (7454233865992546 * (2 : ℝ) ^ (-55 : ℤ))) =
      5105396797635800 * (2 : ℝ) ^ (-59 : ℤ) := by
    have := rnd_eq_of_near (v := 6169021130476591 * (2 : ℝ) ^ (-57 : ℤ) * (7454233865992546 * (2 : ℝ) ^ (-55 : ℤ)))
      (p := -59) (n := 5105396797635800) (by norm_num) (by norm_num) (by norm_num) (by rw [abs_lt]; norm_num)
    simpa using this
  have := cube_mono (by positivity) hg
  rw [e1, e2] at this
  rw [eps_val] at h
  have h' := this.trans h
  norm_num at h'

theorem line_le {f : ℝ} (h : f ≤ 7454233865992545 * (2 : ℝ) ^ (-55 : ℤ)) :
    rnd (rnd (rnd (116 * f) - 16) / rnd (24389 / 27)) ≤ rnd (216 / 24389) := by
  refine (line_mono h).trans ?_
  have e1 : rnd (116 * (7454233865992545 * (2 : ℝ) ^ (-55 : ℤ))) = 24 := by
    have := rnd_eq_of_near (v := 116 * (7454233865992545 * (2 : ℝ) ^ (-55 : ℤ)))
      (p := -48) (n := 6755399441055744) (by norm_num) (by norm_num) (by norm_num) (by rw [abs_lt]; norm_num)
    rw [this]; norm_num
  have e2 : rnd ((24 : ℝ) - 16) = 8 := by
    rw [show (24 : ℝ) - 16 = 8 by norm_num]
    simpa using (rep_int (n := 8) (by norm_num)).rnd_eq
  have e3 : rnd (8 / (7945478248838182 * (2 : ℝ) ^ (-43 : ℤ))) = 5105396797635798 * (2 : ℝ) ^ (-59 : ℤ) := by
    have := rnd_eq_of_near (v := 8 / (7945478248838182 * (2 : ℝ) ^ (-43 : ℤ)))
      (p := -59) (n := 5105396797635798) (by norm_num) (by norm_num) (by norm_num) (by rw [abs_lt]; norm_num)
    simpa using this
  rw [e1, e2, kappa_val, e3, eps_val]

theorem invR_mono {f g : ℝ} (hf : Rep f) (h0 : 0 ≤ f) (h : f ≤ g) : invR f ≤ invR g := by
  rcases le_or_gt (rnd (rnd (f * f) * f)) (rnd (216 / 24389)) with a | a
  · rw [invR_of_le a]
    rcases le_or_gt (rnd (rnd (g * g) * g)) (rnd (216 / 24389)) with b | b
    · rw [invR_of_le b]; exact line_mono h
    · rw [invR_of_gt b]; exact (line_le (branch hf a)).trans b.le
  · have b := a.trans_le (cube_mono h0 h)
    rw [invR_of_gt a, invR_of_gt b]
    exact cube_mono h0 h

theorem invR_one : invR 1 = 1 := by
  have : rnd (rnd (1 * 1) * 1) = 1 := by rw [one_mul, rep1.rnd_eq, one_mul, rep1.rnd_eq]
  rw [invR_of_gt (by rw [this, eps_val]; norm_num), this]

theorem f0 : rnd (16 / 116) = 4969489243995030 * (2 : ℝ) ^ (-55 : ℤ) := by
  have := rnd_eq_of_near (v := 16 / 116) (p := -55) (n := 4969489243995030) (by norm_num) (by norm_num) (by norm_num)
    (by rw [abs_lt]; norm_num)
  simpa using this

theorem invR_zero : invR (rnd (16 / 116)) = 0 := by
  have e1 : rnd (116 * rnd (16 / 116)) = 16 := by
    rw [f0]
    have := rnd_eq_of_near (v := 116 * (4969489243995030 * (2 : ℝ) ^ (-55 : ℤ)))
      (p := -49) (n := 2 ^ 53) (by norm_num) (by norm_num) (by norm_num) (by rw [abs_lt]; norm_num)
    rw [this]; norm_num
  rw [invR_of_le, e1, sub_self, rnd_zero, zero_div, rnd_zero]
  by_contra hc
  push Not at hc
  have h1 : rnd (16 / 116) ≤ 7454233865992545 * (2 : ℝ) ^ (-55 : ℤ) := by rw [f0]; norm_num
  have h2 : rnd (rnd (16 / 116) * rnd (16 / 116)) ≤ 2 ^ (-5 : ℤ) :=
    (rep_zpow (by norm_num)).rnd_le (by rw [f0]; norm_num)
  have h3 : rnd (rnd (rnd (16 / 116) * rnd (16 / 116)) * rnd (16 / 116)) ≤ 2 ^ (-7 : ℤ) := by
    apply (rep_zpow (by norm_num)).rnd_le
    have h4 : rnd (16 / 116) ≤ 2 ^ (-2 : ℤ) := by rw [f0]; norm_num
    calc _ ≤ (2 : ℝ) ^ (-5 : ℤ) * 2 ^ (-2 : ℤ) :=
          mul_le_mul h2 h4 (rnd_nonneg (by norm_num)) (by norm_num)
      _ = 2 ^ (-7 : ℤ) := by norm_num
  have := hc.trans_le h3
  rw [eps_val] at this
  norm_num at this

/-- What `y_from_lstar` computes for a tone between 0 and 100. -/
noncomputable def yR (t : ℝ) : ℝ := rnd (100 * invR (rnd (rnd (t + 16) / 116)))

theorem ft_range {t : ℝ} (h0 : 0 ≤ t) (h1 : t ≤ 100) :
    16 ≤ rnd (t + 16) ∧ rnd (t + 16) ≤ 116 ∧ rnd (16 / 116) ≤ rnd (rnd (t + 16) / 116) ∧ rnd (rnd (t + 16) / 116) ≤ 1 := by
  have a : 16 ≤ rnd (t + 16) := rep16.le_rnd (by linarith)
  have b : rnd (t + 16) ≤ 116 := rep116.rnd_le (by linarith)
  exact ⟨a, b, rnd_mono (by linarith), rep1.rnd_le (by linarith)⟩

theorem invR_range {t : ℝ} (h0 : 0 ≤ t) (h1 : t ≤ 100) :
    0 ≤ invR (rnd (rnd (t + 16) / 116)) ∧ invR (rnd (rnd (t + 16) / 116)) ≤ 1 := by
  obtain ⟨-, -, c, d⟩ := ft_range h0 h1
  have hp : (0 : ℝ) ≤ rnd (16 / 116) := rnd_nonneg (by norm_num)
  constructor
  · rw [← invR_zero]; exact invR_mono (rep_rnd _) hp c
  · rw [← invR_one]; exact invR_mono (rep_rnd _) (hp.trans c) d

theorem yR_mono {s t : ℝ} (h0 : 0 ≤ s) (h : s ≤ t) (h1 : t ≤ 100) : yR s ≤ yR t := by
  obtain ⟨-, -, c, -⟩ := ft_range h0 (h.trans h1)
  have hp : (0 : ℝ) ≤ rnd (16 / 116) := rnd_nonneg (by norm_num)
  refine rnd_mono (mul_le_mul_of_nonneg_left (invR_mono (rep_rnd _) (hp.trans c) ?_) (by norm_num))
  exact rnd_mono (div_le_div_of_nonneg_right (rnd_mono (by linarith)) (by norm_num))

theorem yR_zero : yR 0 = 0 := by
  unfold yR; rw [zero_add, rep16.rnd_eq, invR_zero, mul_zero, rnd_zero]

theorem yR_hundred : yR 100 = 100 := by
  unfold yR
  rw [show (100 : ℝ) + 16 = 116 by norm_num, rep116.rnd_eq, div_self (by norm_num), rep1.rnd_eq, invR_one, mul_one,
    rep100.rnd_eq]

theorem yR_range {t : ℝ} (h0 : 0 ≤ t) (h1 : t ≤ 100) : 0 ≤ yR t ∧ yR t ≤ 100 := by
  constructor
  · rw [← yR_zero]; exact yR_mono le_rfl h0 h1
  · rw [← yR_hundred]; exact yR_mono h0 h1 le_rfl

theorem is_invf {f : 𝔻} {a : ℝ} (hf : Is f a) (h0 : 0 ≤ a) (h1 : a ≤ 1) : Is (labInvf f) (invR a) := by
  have he := (l216 (L := L)).div l24389 (by norm_num) (small 0 (by norm_num) (by norm_num))
  have hk := (l24389 (L := L)).div l27 (by norm_num) (small 10 (by norm_num) (by norm_num))
  have s1 : a * a ≤ 1 := by nlinarith
  have h2 := hf.mul hf (small 0 (by norm_num) (by rw [abs_of_nonneg (mul_self_nonneg a)]; norm_num; exact s1))
  have r2 : 0 ≤ rnd (a * a) := rnd_nonneg (mul_self_nonneg a)
  have r2' : rnd (a * a) ≤ 1 := rep1.rnd_le s1
  have h3 := h2.mul hf (small 0 (by norm_num) (by
    rw [abs_of_nonneg (mul_nonneg r2 h0)]; norm_num; nlinarith))
  have r4 : 0 ≤ rnd (116 * a) := rnd_nonneg (by linarith)
  have r4' : rnd (116 * a) ≤ 116 := rep116.rnd_le (by linarith)
  have h4 := (l116 (L := L)).mul hf (small 10 (by norm_num) (by
    rw [abs_of_nonneg (by linarith)]; norm_num; linarith))
  have h5 := h4.sub l16 (small 10 (by norm_num) (by rw [abs_le]; norm_num; constructor <;> linarith))
  have r5 : -16 ≤ rnd (rnd (116 * a) - 16) := rep16.neg.le_rnd (by linarith)
  have r5' : rnd (rnd (116 * a) - 16) ≤ 100 := rep100.rnd_le (by linarith)
  have kp := kappa_pos
  have k1 : (1 : ℝ) ≤ rnd (24389 / 27) := rep1.le_rnd (by norm_num)
  have h6 := h5.div hk kp.ne' (small 10 (by norm_num) (by
    rw [abs_le]
    constructor
    · rw [le_div_iff₀ kp]; nlinarith
    · rw [div_le_iff₀ kp]; nlinarith))
  unfold labInvf
  simp only
  split
  · next h =>
    rw [gt_iff_lt, he.lt_iff h3] at h
    rw [invR_of_gt h]; exact h3
  · next h =>
    rw [gt_iff_lt, he.lt_iff h3] at h
    rw [invR_of_le (not_lt.1 h)]; exact h6

theorem is_y {t : 𝔻} {a : ℝ} (ht : Is t a) (h0 : 0 ≤ a) (h1 : a ≤ 100) : Is (yFromLstar t) (yR a) := by
  obtain ⟨b0, b1, c, d⟩ := ft_range h0 h1
  have hp : (0 : ℝ) ≤ rnd (16 / 116) := rnd_nonneg (by norm_num)
  have i1 := ht.add l16 (small 10 (by norm_num) (by rw [abs_of_nonneg (by linarith)]; norm_num; linarith))
  have i2 := i1.div l116 (by norm_num) (small 10 (by norm_num) (by
    rw [abs_of_nonneg (by positivity)]; norm_num; linarith))
  obtain ⟨e0, e1⟩ := invR_range h0 h1
  exact (l100 (L := L)).mul (is_invf i2 (hp.trans c) d) (small 10 (by norm_num) (by
    rw [abs_of_nonneg (by positivity)]; norm_num; linarith))

/-- C11 (binary64): for tones in [0, 100] the luminance is finite, lies in [0, 100], and never decreases when the tone
increases, although the two branches of the formula are rounded separately; tones 0 and 100 give exactly 0 and 100. -/
theorem c11_binary64 (s t : 𝔻) (hs : Fin s) (ht : Fin t) (h0 : 0 ≤ val s) (h : val s ≤ val t) (h1 : val t ≤ 100) :
    Fin (yFromLstar s) ∧ 0 ≤ val (yFromLstar s) ∧ val (yFromLstar s) ≤ val (yFromLstar t) ∧
      val (yFromLstar t) ≤ 100 ∧ (val s = 0 → val (yFromLstar s) = 0) ∧ (val s = 100 → val (yFromLstar s) = 100) := by
  have is := is_y (is_of s hs) h0 (h.trans h1)
  have it := is_y (is_of t ht) (h0.trans h) h1
  have es : val (yFromLstar s) = _ := is.2
  have et : val (yFromLstar t) = _ := it.2
  rw [es, et]
  refine ⟨is.1, (yR_range h0 (h.trans h1)).1, yR_mono h0 h h1, (yR_range (h0.trans h) h1).2, fun e => ?_, fun e => ?_⟩
  · rw [e, yR_zero]
  · rw [e, yR_hundred]

/-! ### C17 -/

theorem clamp_is (x : 𝔻) (hx : IsNum x) : ∃ c : ℝ, 0 ≤ c ∧ c ≤ 100 ∧
    Is (clampDouble 0.0 100.0 x) c ∧ (Fin x → c = max 0 (min 100 (val x))) := by
  have i0 := l0 (L := L)
  have i100 := l100 (L := L)
  by_cases hf : Fin x
  · have ix := is_of x hf
    refine ⟨max 0 (min 100 (val x)), le_max_left _ _, max_le (by norm_num) (min_le_left _ _), ?_, fun _ => rfl⟩
    unfold clampDouble
    split
    · next h =>
      rw [ix.lt_iff i0] at h
      rw [min_eq_right (by linarith), max_eq_left h.le]; exact i0
    · next h =>
      rw [ix.lt_iff i0] at h
      push Not at h
      split
      · next h' =>
        rw [gt_iff_lt, i100.lt_iff ix] at h'
        rw [min_eq_left h'.le, max_eq_right (by norm_num)]; exact i100
      · next h' =>
        rw [gt_iff_lt, i100.lt_iff ix] at h'
        rw [min_eq_right (not_lt.1 h'), max_eq_right h]; exact ix
  · have ne : ∀ {y : 𝔻} {v : ℝ}, Is y v → IsNum y ∧ Dbl.ext y = v := by
      rintro y v ⟨h1, rfl⟩
      rcases y with _ | s | s | ⟨v, hv⟩
      · exact h1.elim
      · exact h1.elim
      · exact ⟨rfl, rfl⟩
      · exact ⟨rfl, rfl⟩
    have ltdef (y z : 𝔻) : y < z ↔ IsNum y ∧ IsNum z ∧ Dbl.ext y < Dbl.ext z := Iff.rfl
    have hx' : Dbl.ext x = ⊤ ∨ Dbl.ext x = ⊥ := by
      revert hx hf
      rcases x with _ | s | s | ⟨v, hv⟩
      · intro h; exact absurd (show true = false from h) (by decide)
      · intro _ _
        cases s
        · exact Or.inl rfl
        · exact Or.inr rfl
      · intro _ h; exact absurd trivial h
      · intro _ h; exact absurd trivial h
    rcases hx' with e | e
    · refine ⟨100, by norm_num, le_rfl, ?_, fun h => absurd h hf⟩
      unfold clampDouble
      rw [if_neg, if_pos]
      · exact i100
      · rw [gt_iff_lt, ltdef, e]
        exact ⟨(ne i100).1, hx, by rw [(ne i100).2]; exact EReal.coe_lt_top _⟩
      · rw [ltdef, (ne i0).2, e]
        exact fun h => absurd h.2.2 (not_lt.2 le_top)
    · refine ⟨0, le_rfl, by norm_num, ?_, fun h => absurd h hf⟩
      unfold clampDouble
      rw [if_pos]
      · exact i0
      · rw [ltdef, e]
        exact ⟨hx, (ne i0).1, by rw [(ne i0).2]; exact EReal.bot_lt_coe _⟩

/-- What the ratio of two luminances computes. -/
noncomputable def ratioR (a b : ℝ) : ℝ := rnd (rnd (max a b + 5) / rnd (min a b + 5))

theorem rep5 : Rep 5 := by simpa using rep_int (n := 5) (by norm_num)
theorem rep105 : Rep 105 := by simpa using rep_int (n := 105) (by norm_num)
theorem rep21 : Rep 21 := by simpa using rep_int (n := 21) (by norm_num)

theorem plus5 {a : ℝ} (h0 : 0 ≤ a) (h1 : a ≤ 100) : 5 ≤ rnd (a + 5) ∧ rnd (a + 5) ≤ 105 :=
  ⟨rep5.le_rnd (by linarith), rep105.rnd_le (by linarith)⟩

theorem ratioR_range {a b : ℝ} (ha : 0 ≤ a ∧ a ≤ 100) (hb : 0 ≤ b ∧ b ≤ 100) : 1 ≤ ratioR a b ∧ ratioR a b ≤ 21 := by
  have hM : 0 ≤ max a b ∧ max a b ≤ 100 := ⟨ha.1.trans (le_max_left _ _), max_le ha.2 hb.2⟩
  have hm : 0 ≤ min a b ∧ min a b ≤ 100 := ⟨le_min ha.1 hb.1, (min_le_left _ _).trans ha.2⟩
  have pM := plus5 hM.1 hM.2
  have pm := plus5 hm.1 hm.2
  have hle : rnd (min a b + 5) ≤ rnd (max a b + 5) := rnd_mono (by linarith [min_le_max (a := a) (b := b)])
  constructor
  · apply rep1.le_rnd
    rw [le_div_iff₀ (by linarith)]; linarith
  · apply rep21.rnd_le
    rw [div_le_iff₀ (by linarith)]; linarith

theorem is_ratio {x y : 𝔻} {a b : ℝ} (hx : Is x a) (hy : Is y b) (ha : 0 ≤ a ∧ a ≤ 100) (hb : 0 ≤ b ∧ b ≤ 100) :
    Is (ratioOfYs x y) (ratioR a b) := by
  have hq {u v : 𝔻} {c d : ℝ} (hu : Is u c) (hv : Is v d) (hc : 0 ≤ c ∧ c ≤ 100) (hd : 0 ≤ d ∧ d ≤ 100) :
      Is ((u + 5.0) / (v + 5.0)) (rnd (rnd (c + 5) / rnd (d + 5))) := by
    have pc := plus5 hc.1 hc.2
    have pd := plus5 hd.1 hd.2
    have i1 := hu.add l5 (small 10 (by norm_num) (by rw [abs_of_nonneg (by linarith)]; norm_num; linarith))
    have i2 := hv.add l5 (small 10 (by norm_num) (by rw [abs_of_nonneg (by linarith)]; norm_num; linarith))
    exact i1.div i2 (by linarith) (small 10 (by norm_num) (by
      rw [abs_of_nonneg (div_nonneg (by linarith) (by linarith)), div_le_iff₀ (by linarith)]; norm_num; linarith))
  unfold ratioOfYs
  simp only
  by_cases h : x > y
  · have h' := (hy.lt_iff hx).1 h
    rw [if_pos h, if_neg (by rw [hx.beq_iff hy]; exact h'.ne')]
    unfold ratioR
    rw [max_eq_left h'.le, min_eq_right h'.le]
    exact hq hx hy ha hb
  · have h' := not_lt.1 (fun c => h ((hy.lt_iff hx).2 c))
    rw [if_neg h, if_pos ((hy.beq_iff hy).2 rfl)]
    unfold ratioR
    rw [max_eq_right h', min_eq_left h']
    exact hq hy hx hb ha

/-- C17 (binary64): for all tones that are not NaN (infinite ones included) the contrast ratio is finite, between 1 and 21,
and does not depend on the order of the tones. -/
theorem c17_binary64 (a b : 𝔻) (ha : IsNum a) (hb : IsNum b) :
    Fin (ratioOfTones a b) ∧ 1 ≤ val (ratioOfTones a b) ∧ val (ratioOfTones a b) ≤ 21 ∧
      val (ratioOfTones a b) = val (ratioOfTones b a) := by
  obtain ⟨c, c0, c1, ic, -⟩ := clamp_is a ha
  obtain ⟨d, d0, d1, id, -⟩ := clamp_is b hb
  have i := is_ratio (is_y ic c0 c1) (is_y id d0 d1) (yR_range c0 c1) (yR_range d0 d1)
  have i' := is_ratio (is_y id d0 d1) (is_y ic c0 c1) (yR_range d0 d1) (yR_range c0 c1)
  have e : val (ratioOfTones a b) = _ := i.2
  have e' : val (ratioOfTones b a) = _ := i'.2
  obtain ⟨r0, r1⟩ := ratioR_range (yR_range c0 c1) (yR_range d0 d1)
  rw [e, e']
  refine ⟨i.1, r0, r1, ?_⟩
  unfold ratioR
  rw [max_comm, min_comm]

/-- C17 (binary64): white on black is exactly 21, and equal tones have ratio exactly 1. -/
theorem c17_binary64_extremes : val (ratioOfTones (100.0 : 𝔻) 0.0) = 21 ∧
    ∀ a : 𝔻, IsNum a → val (ratioOfTones a a) = 1 := by
  constructor
  · obtain ⟨c, c0, c1, ic, hc⟩ := clamp_is (100.0 : 𝔻) (by
      obtain ⟨h, -⟩ := l100 (L := L); revert h; generalize (100.0 : 𝔻) = y; rcases y with _ | _ | _ | _ <;> intro h
      exacts [h.elim, rfl, rfl, rfl])
    obtain ⟨d, d0, d1, id, hd⟩ := clamp_is (0.0 : 𝔻) (by
      obtain ⟨h, -⟩ := l0 (L := L); revert h; generalize (0.0 : 𝔻) = y; rcases y with _ | _ | _ | _ <;> intro h
      exacts [h.elim, rfl, rfl, rfl])
    have hc := hc l100.1
    have hd := hd l0.1
    rw [show val (100.0 : 𝔻) = 100 from l100.2] at hc
    rw [show val (0.0 : 𝔻) = 0 from l0.2] at hd
    have i := is_ratio (is_y ic c0 c1) (is_y id d0 d1) (yR_range c0 c1) (yR_range d0 d1)
    have e : val (ratioOfTones (100.0 : 𝔻) 0.0) = _ := i.2
    rw [e, hc, hd, min_self, max_eq_right (by norm_num), max_eq_left (min_le_of_right_le le_rfl), yR_zero, yR_hundred]
    unfold ratioR
    rw [max_eq_left (by norm_num), min_eq_right (by norm_num), zero_add, rep5.rnd_eq,
      show (100 : ℝ) + 5 = 105 by norm_num, rep105.rnd_eq, show (105 : ℝ) / 5 = 21 by norm_num, rep21.rnd_eq]
  · intro a ha
    obtain ⟨c, c0, c1, ic, -⟩ := clamp_is a ha
    have i := is_ratio (is_y ic c0 c1) (is_y ic c0 c1) (yR_range c0 c1) (yR_range c0 c1)
    have e : val (ratioOfTones a a) = _ := i.2
    rw [e]
    unfold ratioR
    have := (plus5 (yR_range c0 c1).1 (yR_range c0 c1).2).1
    rw [max_self, min_self, div_self (by linarith), rep1.rnd_eq]

/-- C17 (binary64): moving the lighter tone up or the darker tone down never lowers the computed ratio. -/
theorem c17_binary64_monotone (a a' b b' : 𝔻) (ha : Fin a) (ha' : Fin a') (hb : Fin b) (hb' : Fin b')
    (h : val b ≤ val a) (h1 : val a ≤ val a') (h2 : val b' ≤ val b) :
    val (ratioOfTones a b) ≤ val (ratioOfTones a' b') := by
  have nn (x : 𝔻) (hx : Fin x) : IsNum x := by
    revert hx; rcases x with _ | _ | _ | _ <;> intro h
    exacts [h.elim, rfl, rfl, rfl]
  have main (a b : 𝔻) (ha : Fin a) (hb : Fin b) (h : val b ≤ val a) : val (ratioOfTones a b) =
      rnd (rnd (yR (max 0 (min 100 (val a))) + 5) / rnd (yR (max 0 (min 100 (val b))) + 5)) := by
    obtain ⟨c, c0, c1, ic, hc⟩ := clamp_is a (nn a ha)
    obtain ⟨d, d0, d1, id, hd⟩ := clamp_is b (nn b hb)
    have hc := hc ha
    have hd := hd hb
    have i := is_ratio (is_y ic c0 c1) (is_y id d0 d1) (yR_range c0 c1) (yR_range d0 d1)
    have e : val (ratioOfTones a b) = _ := i.2
    have hy : yR d ≤ yR c := yR_mono d0 (by rw [hc, hd]; exact max_le_max le_rfl (min_le_min le_rfl h)) c1
    rw [e, ← hc, ← hd]
    unfold ratioR
    rw [max_eq_left hy, min_eq_right hy]
  have rng (v : ℝ) : 0 ≤ max 0 (min 100 v) ∧ max 0 (min 100 v) ≤ 100 :=
    ⟨le_max_left _ _, max_le (by norm_num) (min_le_left _ _)⟩
  have mono {u v : ℝ} (h : u ≤ v) : max 0 (min 100 u) ≤ max 0 (min 100 v) := max_le_max le_rfl (min_le_min le_rfl h)
  rw [main a b ha hb h, main a' b' ha' hb' (h2.trans (h.trans h1))]
  have y1 := yR_mono (rng _).1 (mono h1) (rng _).2
  have y2 := yR_mono (rng _).1 (mono h2) (rng _).2
  have p1 := plus5 (yR_range (rng (val a)).1 (rng _).2).1 (yR_range (rng (val a)).1 (rng _).2).2
  have p2 := plus5 (yR_range (rng (val b')).1 (rng _).2).1 (yR_range (rng (val b')).1 (rng _).2).2
  apply rnd_mono
  apply div_le_div₀ (by linarith [plus5 (yR_range (rng (val a')).1 (rng _).2).1 (yR_range (rng (val a')).1 (rng _).2).2])
    (rnd_mono (by linarith)) (by linarith) (rnd_mono (by linarith))

/-- The doubles 0, 5 and 100 meet the hypotheses of the theorems above; so do the infinities where only NaN is excluded. -/
example : Fin (100.0 : 𝔻) ∧ val (100.0 : 𝔻) = 100 ∧ Fin (5.0 : 𝔻) ∧ val (5.0 : 𝔻) = 5 ∧ Fin (0.0 : 𝔻) ∧
    val (0.0 : 𝔻) = 0 ∧ IsNum (L := L) (Dbl.inf true) ∧ ¬ Fin (L := L) Dbl.nan :=
  ⟨l100.1, l100.2, l5.1, l5.2, l0.1, l0.2, rfl, fun h => h⟩

end Mcu.Props.Binary64
