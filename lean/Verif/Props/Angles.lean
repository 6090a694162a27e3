import Verif.Model.MathUtils
import Verif.Lemmas.Real
import Mathlib.Order.Bounds.Basic

/-! C05 - C09: angle and interpolation helpers. -/

namespace Mcu.Props

open Mcu.MathUtils

/-! ### C05 -/

/-- C05: the sanitised integer angle is the unique integer in [0, 360) congruent to the input. -/
theorem c05_sanitize_int (d : Int) :
    (0 ≤ sanitizeDegreesInt d ∧ sanitizeDegreesInt d < 360) ∧
    (∃ k : Int, sanitizeDegreesInt d = d + 360 * k) ∧
    (∀ e : Int, 0 ≤ e → e < 360 → (∃ k : Int, e = d + 360 * k) → e = sanitizeDegreesInt d) := by
  have h : sanitizeDegreesInt d = d % 360 := by
    have h1 := Int.emod_add_mul_ediv d 360
    have h2 := Int.tmod_add_mul_tdiv d 360
    have h3 := Int.tmod_lt_of_pos d (show (0 : Int) < 360 by decide)
    simp only [sanitizeDegreesInt, Int.tmod_eq_emod]
    split <;> split <;> omega
  rw [h]
  refine ⟨by omega, ⟨-(d / 360), by omega⟩, ?_⟩
  rintro e h0 h1 ⟨k, rfl⟩
  omega

/-- C05: sanitising twice is sanitising once. -/
theorem c05_idempotent (d : Int) :
    sanitizeDegreesInt (sanitizeDegreesInt d) = sanitizeDegreesInt d := by
  have h := c05_sanitize_int d
  exact ((c05_sanitize_int _).2.2 _ h.1.1 h.1.2 ⟨0, by omega⟩).symm

example : sanitizeDegreesInt (-1) = 359 ∧ sanitizeDegreesInt (-720) = 0 ∧
    sanitizeDegreesInt 765 = 45 := by decide

/-! ### C06 -/

/-- C06 (exact arithmetic): the sanitised angle lies in [0, 360) and differs from the input by a whole
number of turns. -/
theorem c06_sanitize_real (d : ℝ) :
    0 ≤ sanitizeDegreesDouble d ∧ sanitizeDegreesDouble d < 360 ∧
      ∃ k : ℤ, sanitizeDegreesDouble d = d + 360 * k := by
  unfold sanitizeDegreesDouble
  have h360 : (360.0 : ℝ) = 360 := by norm_num
  have h00 : (0.0 : ℝ) = 0 := by norm_num
  simp only [h360, h00]
  have hb := fmod_bounds d (show (0 : ℝ) < 360 by norm_num)
  have he : Fl.fmod d (360 : ℝ) = d - 360 * (realTrunc (d / 360) : ℤ) := rfl
  split
  · next hneg =>
    have hd : d < 0 := by
      by_contra hd
      exact absurd (hb.1 (not_lt.1 hd)).1 (not_le.2 hneg)
    refine ⟨by linarith [hb.2 hd], by linarith, 1 - realTrunc (d / 360), ?_⟩
    rw [he]; push_cast; ring
  · next hneg =>
    have hlt : Fl.fmod d (360 : ℝ) < 360 := by
      rcases lt_or_ge d 0 with hd | hd
      · linarith [hb.2 hd]
      · exact (hb.1 hd).2
    refine ⟨not_lt.1 hneg, hlt, - realTrunc (d / 360), ?_⟩
    rw [he]; push_cast; ring

/-- C06: it is the only angle of that kind. -/
theorem c06_unique (d e : ℝ) (h0 : 0 ≤ e) (h1 : e < 360) (hk : ∃ k : ℤ, e = d + 360 * k) :
    e = sanitizeDegreesDouble d := by
  obtain ⟨a0, a1, k', hk'⟩ := c06_sanitize_real d
  obtain ⟨k, hk⟩ := hk
  rw [hk'] at a0 a1 ⊢
  rw [hk] at h0 h1 ⊢
  have b1 : (k : ℝ) - k' < 1 := by linarith
  have b2 : (k' : ℝ) - k < 1 := by linarith
  have b1' : k - k' < 1 := by exact_mod_cast b1
  have b2' : k' - k < 1 := by exact_mod_cast b2
  rw [show k = k' by omega]

/-- C06: angles already in range are unchanged, hence sanitising is idempotent, and whole turns do not
matter. -/
theorem c06_fixed (d : ℝ) (h0 : 0 ≤ d) (h1 : d < 360) : sanitizeDegreesDouble d = d :=
  (c06_unique d d h0 h1 ⟨0, by simp⟩).symm

theorem c06_idempotent (d : ℝ) :
    sanitizeDegreesDouble (sanitizeDegreesDouble d) = sanitizeDegreesDouble d :=
  c06_fixed _ (c06_sanitize_real d).1 (c06_sanitize_real d).2.1

theorem c06_periodic (d : ℝ) (k : ℤ) :
    sanitizeDegreesDouble (d + 360 * k) = sanitizeDegreesDouble d := by
  obtain ⟨a0, a1, k', hk'⟩ := c06_sanitize_real (d + 360 * k)
  refine c06_unique d _ a0 a1 ⟨k + k', ?_⟩
  rw [hk']; push_cast; ring

example : sanitizeDegreesDouble (-30.5 : ℝ) = 329.5 := by
  rw [← c06_unique (-30.5) 329.5 (by norm_num) (by norm_num) ⟨1, by norm_num⟩]

/-! ### C07 -/

theorem diff_eq (a b : ℝ) : differenceDegrees a b = 180 - |(|a - b| - 180)| := by
  show (180.0 : ℝ) - |(|a - b| - 180.0)| = _
  norm_num

/-- The difference as the smaller of the two arcs. -/
theorem diff_eq_min (a b : ℝ) : differenceDegrees a b = min |a - b| (360 - |a - b|) := by
  rw [diff_eq]
  rcases le_total |a - b| 180 with h | h
  · rw [abs_of_nonpos (by linarith), min_eq_left (by linarith)]; ring
  · rw [abs_of_nonneg (by linarith), min_eq_right (by linarith)]; ring

/-- C07: for hues in [0, 360) (more generally for angles at most a turn apart) the degree difference is
the smallest absolute difference over all whole-turn shifts. -/
theorem c07_circular_distance (a b : ℝ) (h : |a - b| ≤ 360) :
    IsLeast (Set.range fun k : ℤ => |a - b + 360 * (k : ℝ)|) (differenceDegrees a b) := by
  rw [diff_eq_min]
  constructor
  · rcases le_total |a - b| (360 - |a - b|) with h' | h'
    · rw [min_eq_left h']; exact ⟨0, by simp⟩
    · rw [min_eq_right h']
      rcases le_total 0 (a - b) with hs | hs
      · refine ⟨-1, ?_⟩
        rw [abs_of_nonneg hs] at h ⊢
        simp only [Int.cast_neg, Int.cast_one]
        rw [abs_of_nonpos (by linarith)]; ring
      · refine ⟨1, ?_⟩
        rw [abs_of_nonpos hs] at h ⊢
        simp only [Int.cast_one]
        rw [abs_of_nonneg (by linarith)]; ring
  · rintro _ ⟨k, rfl⟩
    show _ ≤ |a - b + 360 * (k : ℝ)|
    rcases eq_or_ne k 0 with rfl | hk
    · simp
    · refine (min_le_right _ _).trans ?_
      have h1 : (1 : ℝ) ≤ |(k : ℝ)| := by
        have : 1 ≤ |k| := Int.one_le_abs hk
        exact_mod_cast this
      have h2 : |360 * (k : ℝ)| ≤ |a - b + 360 * (k : ℝ)| + |a - b| := by
        have := abs_sub (a - b + 360 * (k : ℝ)) (a - b)
        rwa [add_sub_cancel_left] at this
      rw [abs_mul, abs_of_pos (show (0 : ℝ) < 360 by norm_num)] at h2
      linarith

/-- C07: symmetric. -/
theorem c07_symm (a b : ℝ) : differenceDegrees a b = differenceDegrees b a := by
  rw [diff_eq, diff_eq, abs_sub_comm a b]

/-- C07: between 0 and 180 for angles at most a turn apart. -/
theorem c07_range (a b : ℝ) (h : |a - b| ≤ 360) :
    0 ≤ differenceDegrees a b ∧ differenceDegrees a b ≤ 180 := by
  rw [diff_eq]
  have h1 := abs_nonneg (|a - b| - 180)
  have h2 : |(|a - b| - 180)| ≤ 180 := by
    rw [abs_le]; constructor <;> linarith [abs_nonneg (a - b)]
  constructor <;> linarith

theorem hues_close {a b : ℝ} (ha : 0 ≤ a ∧ a < 360) (hb : 0 ≤ b ∧ b < 360) : |a - b| < 360 := by
  rw [abs_lt]; constructor <;> linarith [ha.1, ha.2, hb.1, hb.2]

/-- C07: zero exactly for equal hues. -/
theorem c07_zero_iff (a b : ℝ) (ha : 0 ≤ a ∧ a < 360) (hb : 0 ≤ b ∧ b < 360) :
    differenceDegrees a b = 0 ↔ a = b := by
  have hc := hues_close ha hb
  rw [diff_eq_min]
  constructor
  · intro h
    rcases min_choice |a - b| (360 - |a - b|) with h' | h'
    · rw [h', abs_eq_zero] at h; linarith
    · rw [h'] at h; linarith
  · rintro rfl; simp

/-- C07: triangle inequality for hues. -/
theorem c07_triangle (a b c : ℝ) (ha : 0 ≤ a ∧ a < 360) (hb : 0 ≤ b ∧ b < 360)
    (hc : 0 ≤ c ∧ c < 360) :
    differenceDegrees a c ≤ differenceDegrees a b + differenceDegrees b c := by
  have h1 := c07_circular_distance a c (hues_close ha hc).le
  obtain ⟨k, hk⟩ := (c07_circular_distance a b (hues_close ha hb).le).1
  obtain ⟨l, hl⟩ := (c07_circular_distance b c (hues_close hb hc).le).1
  refine (h1.2 ⟨k + l, rfl⟩).trans ?_
  rw [← hk, ← hl]
  have : a - c + 360 * ((k + l : ℤ) : ℝ) = (a - b + 360 * (k : ℝ)) + (b - c + 360 * (l : ℝ)) := by
    push_cast; ring
  simp only [this]
  exact abs_add_le _ _

example : (0 ≤ (350 : ℝ) ∧ (350 : ℝ) < 360) ∧ differenceDegrees (350 : ℝ) 10 = 20 := by
  refine ⟨by norm_num, ?_⟩
  rw [diff_eq]; norm_num [abs_of_pos, abs_of_neg]

/-! ### C08 -/

/-- C08: the direction is +1 or -1. -/
theorem c08_unit (x y : ℝ) : rotationDirection x y = 1 ∨ rotationDirection x y = -1 := by
  simp only [rotationDirection]
  split
  · left; norm_num
  · right; norm_num

/-- C08: turning from the first angle by the degree difference in the given direction arrives at the
second, up to whole turns.  `differenceDegrees` is defined for hues, so arbitrary angles enter it
sanitised. -/
theorem c08_arrives (x y : ℝ) :
    sanitizeDegreesDouble (x + rotationDirection x y *
      differenceDegrees (sanitizeDegreesDouble x) (sanitizeDegreesDouble y)) =
      sanitizeDegreesDouble y := by
  obtain ⟨x0, x1, k, hk⟩ := c06_sanitize_real x
  obtain ⟨y0, y1, l, hl⟩ := c06_sanitize_real y
  obtain ⟨d0, d1, m, hm⟩ := c06_sanitize_real (y - x)
  symm
  apply c06_unique _ _ y0 y1
  rw [diff_eq_min]
  have h180 : (180.0 : ℝ) = 180 := by norm_num
  have h1 : (1.0 : ℝ) = 1 := by norm_num
  simp only [rotationDirection, h180, h1]
  generalize hX : sanitizeDegreesDouble x = X at *
  generalize hY : sanitizeDegreesDouble y = Y at *
  generalize hD : sanitizeDegreesDouble (y - x) = D at *
  -- D = Y - X + 360 n with n = 0 or n = 1
  have hn : D = Y - X + 360 * ((k - l + m : ℤ) : ℝ) := by
    rw [hm, hk, hl]; push_cast; ring
  generalize hN : k - l + m = n at hn
  have hn0 : -1 < n := by
    have : (-1 : ℝ) < n := by linarith
    exact_mod_cast this
  have hn1 : n < 2 := by
    have : (n : ℝ) < 2 := by linarith
    exact_mod_cast this
  have hcases : n = 0 ∨ n = 1 := by omega
  have hx : x = X - 360 * (k : ℝ) := by rw [hk]; ring
  rcases hcases with rfl | rfl
  · have e : |X - Y| = D := by
      rw [abs_sub_comm, abs_of_nonneg] <;> simp at hn <;> linarith
    rw [e]
    split
    · next h =>
      rw [min_eq_left (by linarith)]
      refine ⟨k, ?_⟩
      rw [hx]; simp at hn; linarith
    · next h =>
      rw [min_eq_right (by linarith)]
      refine ⟨k + 1, ?_⟩
      rw [hx]; push_cast at hn ⊢; linarith
  · have e : |X - Y| = 360 - D := by
      rw [abs_of_nonneg] <;> simp at hn <;> linarith
    rw [e]
    split
    · next h =>
      rw [min_eq_right (by linarith)]
      refine ⟨k - 1, ?_⟩
      rw [hx]; push_cast at hn ⊢; linarith
    · next h =>
      rw [min_eq_left (by linarith)]
      refine ⟨k, ?_⟩
      rw [hx]; push_cast at hn ⊢; linarith

/-- C08 for hues: no sanitising of the arguments needed. -/
theorem c08_arrives_hues (x y : ℝ) (hx : 0 ≤ x ∧ x < 360) (hy : 0 ≤ y ∧ y < 360) :
    sanitizeDegreesDouble (x + rotationDirection x y * differenceDegrees x y) = y := by
  have h := c08_arrives x y
  rwa [c06_fixed x hx.1 hx.2, c06_fixed y hy.1 hy.2] at h

example : (0 ≤ (350 : ℝ) ∧ (350 : ℝ) < 360) ∧ (0 ≤ (10 : ℝ) ∧ (10 : ℝ) < 360) := by norm_num

/-- C08: on a tie (opposite hues) the direction is +1; otherwise it is the sign of the shorter way:
+1 exactly if the increasing difference is at most 180. -/
theorem c08_positive_iff (x y : ℝ) :
    rotationDirection x y = 1 ↔ ∃ k : ℤ, 0 ≤ y - x + 360 * k ∧ y - x + 360 * k ≤ 180 := by
  obtain ⟨d0, d1, m, hm⟩ := c06_sanitize_real (y - x)
  unfold rotationDirection
  have h180 : (180.0 : ℝ) = 180 := by norm_num
  simp only [h180]
  constructor
  · intro h
    by_cases hle : sanitizeDegreesDouble (y - x) ≤ (180 : ℝ)
    · exact ⟨m, by rw [← hm]; exact d0, by rw [← hm]; exact hle⟩
    · rw [if_neg hle] at h; norm_num at h
  · rintro ⟨k, h0, h1⟩
    have := c06_unique (y - x) _ h0 (by linarith) ⟨k, rfl⟩
    rw [if_pos (by rw [← this]; exact h1)]; norm_num

/-! ### C09 -/

/-- C09: `clamp_int` returns a value within the bounds, leaves values in bounds alone and otherwise returns
the nearest bound. -/
theorem c09_clamp_int (lo hi x : Int) (h : lo ≤ hi) :
    (lo ≤ clampInt lo hi x ∧ clampInt lo hi x ≤ hi) ∧
    (lo ≤ x → x ≤ hi → clampInt lo hi x = x) ∧ (x ≤ lo → clampInt lo hi x = lo) ∧
    (hi ≤ x → clampInt lo hi x = hi) := by
  unfold clampInt; split
  · omega
  · split <;> omega

theorem c09_clamp_int_monotone (lo hi x y : Int) (h : lo ≤ hi) (hxy : x ≤ y) :
    clampInt lo hi x ≤ clampInt lo hi y := by
  unfold clampInt; split <;> split <;> (try split) <;> (try split) <;> omega

theorem c09_clamp_int_idempotent (lo hi x : Int) (h : lo ≤ hi) :
    clampInt lo hi (clampInt lo hi x) = clampInt lo hi x :=
  (c09_clamp_int lo hi _ h).2.1 (c09_clamp_int lo hi x h).1.1 (c09_clamp_int lo hi x h).1.2

theorem c09_clamp_double (lo hi x : ℝ) (h : lo ≤ hi) :
    (lo ≤ clampDouble lo hi x ∧ clampDouble lo hi x ≤ hi) ∧
    (lo ≤ x → x ≤ hi → clampDouble lo hi x = x) ∧ (x ≤ lo → clampDouble lo hi x = lo) ∧
    (hi ≤ x → clampDouble lo hi x = hi) := by
  unfold clampDouble; split
  · next h1 => exact ⟨⟨le_rfl, h⟩, fun h2 => absurd h1 (not_lt.2 h2), fun _ => rfl, fun h2 => by
      exact absurd (h1.trans_le (h.trans h2)) (lt_irrefl _)⟩
  · next h1 =>
    have h1 := not_lt.1 h1
    split
    · next h2 => exact ⟨⟨h, le_rfl⟩, fun _ h3 => absurd h2 (not_lt.2 h3), fun h3 => by
        exact absurd (h2.trans_le (h3.trans h)) (lt_irrefl _), fun _ => rfl⟩
    · next h2 =>
      have h2 := not_lt.1 h2
      exact ⟨⟨h1, h2⟩, fun _ _ => rfl, fun h3 => le_antisymm h3 h1, fun h3 => le_antisymm h2 h3⟩

theorem c09_clamp_double_monotone (lo hi x y : ℝ) (h : lo ≤ hi) (hxy : x ≤ y) :
    clampDouble lo hi x ≤ clampDouble lo hi y := by
  have e (z : ℝ) : clampDouble lo hi z = max lo (min hi z) := by
    have hz := c09_clamp_double lo hi z h
    rcases le_total z lo with h1 | h1
    · rw [hz.2.2.1 h1, min_eq_right (h1.trans h), max_eq_left h1]
    · rcases le_total z hi with h2 | h2
      · rw [hz.2.1 h1 h2, min_eq_right h2, max_eq_right h1]
      · rw [hz.2.2.2 h2, min_eq_left h2, max_eq_right h]
  rw [e, e]
  exact max_le_max le_rfl (min_le_min le_rfl hxy)

theorem c09_clamp_double_idempotent (lo hi x : ℝ) (h : lo ≤ hi) :
    clampDouble lo hi (clampDouble lo hi x) = clampDouble lo hi x :=
  (c09_clamp_double lo hi _ h).2.1 (c09_clamp_double lo hi x h).1.1 (c09_clamp_double lo hi x h).1.2

example : clampInt 0 255 300 = 255 ∧ clampInt 0 255 (-7) = 0 ∧ clampInt 0 255 7 = 7 := by decide

/-- C09: interpolation hits both end points and stays between them. -/
theorem c09_lerp (a b t : ℝ) (h0 : 0 ≤ t) (h1 : t ≤ 1) :
    lerp a b 0 = a ∧ lerp a b 1 = b ∧ min a b ≤ lerp a b t ∧ lerp a b t ≤ max a b := by
  have e1 : (1.0 : ℝ) = 1 := by norm_num
  simp only [lerp, e1]
  refine ⟨by ring, by ring, ?_, ?_⟩
  · nlinarith [min_le_left a b, min_le_right a b]
  · nlinarith [le_max_left a b, le_max_right a b]

/-- C09: interpolation is monotone in the amount when the end points are ordered. -/
theorem c09_lerp_monotone (a b s t : ℝ) (hab : a ≤ b) (hst : s ≤ t) : lerp a b s ≤ lerp a b t := by
  have e1 : (1.0 : ℝ) = 1 := by norm_num
  simp only [lerp, e1]
  nlinarith

example : lerp (10 : ℝ) 30 0.25 = 15 := by simp only [lerp]; norm_num

/-- C09: signum is the sign. -/
theorem c09_signum (x : ℝ) : (x < 0 ↔ signum x = -1) ∧ (x = 0 ↔ signum x = 0) ∧
    (0 < x ↔ signum x = 1) := by
  have e0 : (0.0 : ℝ) = 0 := by norm_num
  simp only [signum, e0, fl_beq]
  rcases lt_trichotomy x 0 with h | h | h
  · simp [h, h.ne, h.le]
  · simp [h]
  · simp [h, h.ne', not_lt.2 h.le]

end Mcu.Props
