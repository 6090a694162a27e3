import Verif.Model.Contrast
import Verif.Model.ContrastCurve
import Verif.Model.DynamicColor
import Verif.Props.Color

/-! C17 - C22: contrast ratios, tone searches, foreground tones and contrast curves. -/

namespace Mcu.Props

open Mcu.ColorUtils Mcu.MathUtils Mcu.Contrast Mcu.DynamicColor Mcu.Lemmas

/-! ### Auxiliary facts -/

theorem ratioOfYs_eq (a b : ℝ) : ratioOfYs a b = (max a b + 5) / (min a b + 5) := by
  have e5 : (5.0 : ℝ) = 5 := by norm_num
  simp only [ratioOfYs, e5, fl_beq]
  rcases lt_or_ge b a with h | h
  · rw [if_pos (show a > b from h), if_neg h.ne', max_eq_left h.le, min_eq_right h.le]
  · rw [if_neg (not_lt.2 h), if_pos rfl, max_eq_right h, min_eq_left h]

/-- Clamping to the tone range. -/
noncomputable def clampTone (t : ℝ) : ℝ := max 0 (min 100 t)

theorem clampTone_range (t : ℝ) : 0 ≤ clampTone t ∧ clampTone t ≤ 100 :=
  ⟨le_max_left _ _, max_le (by norm_num) (min_le_left _ _)⟩

theorem clampTone_of_mem {t : ℝ} (h0 : 0 ≤ t) (h1 : t ≤ 100) : clampTone t = t := by
  unfold clampTone; rw [min_eq_right h1, max_eq_right h0]

theorem clampTone_mono {s t : ℝ} (h : s ≤ t) : clampTone s ≤ clampTone t :=
  max_le_max le_rfl (min_le_min le_rfl h)

theorem clampDouble_tone (t : ℝ) : clampDouble (0.0 : ℝ) 100.0 t = clampTone t := by
  have e0 : (0.0 : ℝ) = 0 := by norm_num
  have e1 : (100.0 : ℝ) = 100 := by norm_num
  rw [e0, e1]
  have hz := c09_clamp_double 0 100 t (by norm_num)
  unfold clampTone
  rcases le_total t 0 with h1 | h1
  · rw [hz.2.2.1 h1, min_eq_right (by linarith), max_eq_left h1]
  · rcases le_total t 100 with h2 | h2
    · rw [hz.2.1 h1 h2, min_eq_right h2, max_eq_right h1]
    · rw [hz.2.2.2 h2, min_eq_left h2, max_eq_right (by norm_num)]

/-- Contrast ratio in terms of the lighter and the darker tone. -/
theorem ratioOfTones_of_le {a b : ℝ} (h : clampTone b ≤ clampTone a) :
    ratioOfTones a b = (yFromLstar (clampTone a) + 5) / (yFromLstar (clampTone b) + 5) := by
  unfold ratioOfTones
  simp only [clampDouble_tone]
  have := c11_strictMono.1.monotone h
  rw [ratioOfYs_eq, max_eq_left this, min_eq_right this]

theorem y_range {t : ℝ} (h0 : 0 ≤ t) (h1 : t ≤ 100) : 0 ≤ yFromLstar t ∧ yFromLstar t ≤ 100 :=
  (c11_range t).1.1 ⟨h0, h1⟩

theorem y_clamp_range (t : ℝ) : 0 ≤ yFromLstar (clampTone t) ∧ yFromLstar (clampTone t) ≤ 100 :=
  y_range (clampTone_range t).1 (clampTone_range t).2

/-! ### C17 -/

/-- C17: symmetric. -/
theorem c17_symm (a b : ℝ) : ratioOfTones a b = ratioOfTones b a := by
  unfold ratioOfTones
  simp only [ratioOfYs_eq, max_comm, min_comm]

/-- C17: between 1 and 21 for all tones. -/
theorem c17_range (a b : ℝ) : 1 ≤ ratioOfTones a b ∧ ratioOfTones a b ≤ 21 := by
  wlog h : clampTone b ≤ clampTone a generalizing a b
  · rw [c17_symm]; exact this b a (le_of_not_ge h)
  rw [ratioOfTones_of_le h]
  have ha := y_clamp_range a
  have hb := y_clamp_range b
  have hm := c11_strictMono.1.monotone h
  constructor
  · rw [le_div_iff₀ (by linarith [hb.1])]; linarith
  · rw [div_le_iff₀ (by linarith [hb.1])]; linarith [hb.1, ha.2]

/-- C17: both bounds are attained: identical tones, and black against white. -/
theorem c17_extremes : ratioOfTones (100 : ℝ) 0 = 21 := by
  rw [ratioOfTones_of_le (clampTone_mono (by norm_num)), clampTone_of_mem (by norm_num) (by norm_num),
    clampTone_of_mem (by norm_num) (by norm_num), c11_endpoints.1, c11_endpoints.2.1]
  norm_num

/-- C17: the ratio is 1 exactly if the clamped tones agree. -/
theorem c17_one_iff (a b : ℝ) : ratioOfTones a b = 1 ↔ clampTone a = clampTone b := by
  wlog h : clampTone b ≤ clampTone a generalizing a b
  · rw [c17_symm, this b a (le_of_not_ge h), eq_comm]
  rw [ratioOfTones_of_le h, div_eq_one_iff_eq (by linarith [(y_clamp_range b).1])]
  constructor
  · intro he; exact c11_strictMono.1.injective (by linarith)
  · intro he; rw [he]

/-- C17: for tones in range, the ratio is 1 exactly for equal tones. -/
theorem c17_one_iff_in_range (a b : ℝ) (ha : 0 ≤ a ∧ a ≤ 100) (hb : 0 ≤ b ∧ b ≤ 100) :
    ratioOfTones a b = 1 ↔ a = b := by
  rw [c17_one_iff, clampTone_of_mem ha.1 ha.2, clampTone_of_mem hb.1 hb.2]

/-- C17: moving the lighter tone up or the darker tone down never lowers the ratio. -/
theorem c17_monotone (a a' b b' : ℝ) (h : b ≤ a) (ha : a ≤ a') (hb : b' ≤ b) :
    ratioOfTones a b ≤ ratioOfTones a' b' := by
  rw [ratioOfTones_of_le (clampTone_mono h), ratioOfTones_of_le (clampTone_mono (by linarith))]
  have h1 := c11_strictMono.1.monotone (clampTone_mono ha)
  have h2 := c11_strictMono.1.monotone (clampTone_mono hb)
  have := y_clamp_range b'
  have := y_clamp_range a
  gcongr
  · linarith [(y_clamp_range a').1]
  · linarith

/-- C17: and it strictly increases when the change happens inside [0, 100]. -/
theorem c17_strictly_monotone (a a' b : ℝ) (hb : 0 ≤ b) (h : b ≤ a) (ha : a < a') (h1 : a' ≤ 100) :
    ratioOfTones a b < ratioOfTones a' b := by
  rw [ratioOfTones_of_le (clampTone_mono h), ratioOfTones_of_le (clampTone_mono (by linarith)),
    clampTone_of_mem (by linarith) (by linarith), clampTone_of_mem hb (by linarith),
    clampTone_of_mem (by linarith) h1]
  have := c11_strictMono.1 ha
  have := y_range hb (by linarith)
  gcongr
  linarith

example : (0 : ℝ) ≤ 20 ∧ (20 : ℝ) ≤ 40 ∧ (40 : ℝ) < 60 ∧ (60 : ℝ) ≤ 100 := by norm_num

/-! ### C18 -/

theorem lighter_eq (t r : ℝ) (h0 : 0 ≤ t) (h1 : t ≤ 100) (hr : 1 ≤ r) :
    lighter t r =
      if lstarFromY (r * (yFromLstar t + 5) - 5) + 0.4 > 100 then -1
      else lstarFromY (r * (yFromLstar t + 5) - 5) + 0.4 := by
  have e0 : (0.0 : ℝ) = 0 := by norm_num
  have e1 : (100.0 : ℝ) = 100 := by norm_num
  have e5 : (5.0 : ℝ) = 5 := by norm_num
  have em : (-1.0 : ℝ) = -1 := by norm_num
  have hy := y_range h0 h1
  have hle : yFromLstar t ≤ r * (yFromLstar t + 5) - 5 := by nlinarith [hy.1]
  have hreal : ratioOfYs (r * (yFromLstar t + 5) - 5) (yFromLstar t) = r := by
    rw [ratioOfYs_eq, max_eq_left hle, min_eq_right hle]
    have : yFromLstar t + 5 ≠ 0 := by linarith [hy.1]
    field_simp
    ring
  have hret : ¬ lstarFromY (r * (yFromLstar t + 5) - 5) + 0.4 < 0 := by
    have := c11_strictMono.2.monotone hle
    rw [c11_lstar_y_lstar] at this
    rw [not_lt]; norm_num; linarith
  have hguard : ¬ (t < 0 ∨ t > 100) := by rintro (h | h) <;> linarith
  have hg2 : ¬ (r < r ∧ Fl.abs (r - r) > (0.04 : ℝ)) := fun h => lt_irrefl _ h.1
  simp only [lighter, e0, e1, e5, em, if_neg hguard, hreal, if_neg hg2, hret, false_or]

/-- C18: a tone that was found is in range, at least 0.4 lighter, and has the requested contrast. -/
theorem c18_sound (t r : ℝ) (h0 : 0 ≤ t) (h1 : t ≤ 100) (hr : 1 ≤ r) (hne : lighter t r ≠ -1) :
    0 ≤ lighter t r ∧ lighter t r ≤ 100 ∧ t + 0.4 ≤ lighter t r ∧
      r ≤ ratioOfTones (lighter t r) t := by
  have he := lighter_eq t r h0 h1 hr
  have hy := y_range h0 h1
  have hle : yFromLstar t ≤ r * (yFromLstar t + 5) - 5 := by nlinarith [hy.1]
  by_cases hgt : lstarFromY (r * (yFromLstar t + 5) - 5) + 0.4 > 100
  · rw [if_pos hgt] at he; exact absurd he hne
  · rw [if_neg hgt] at he
    rw [he]
    have hm := c11_strictMono.2.monotone hle
    rw [c11_lstar_y_lstar] at hm
    have h4 : (0 : ℝ) ≤ 0.4 := by norm_num
    refine ⟨by linarith, not_lt.1 hgt, by linarith, ?_⟩
    rw [ratioOfTones_of_le (clampTone_mono (by linarith)), clampTone_of_mem (by linarith) (not_lt.1 hgt),
      clampTone_of_mem h0 h1, le_div_iff₀ (by linarith [hy.1])]
    have := c11_strictMono.1.monotone
      (show lstarFromY (r * (yFromLstar t + 5) - 5) ≤ lstarFromY (r * (yFromLstar t + 5) - 5) + 0.4 by
        linarith)
    rw [c11_y_lstar_y] at this
    linarith

/-- C18: -1 is the answer only if every lighter tone that leaves the margin of 0.4 misses the ratio. -/
theorem c18_complete (t r : ℝ) (h0 : 0 ≤ t) (h1 : t ≤ 100) (hr : 1 ≤ r) (he : lighter t r = -1) :
    ∀ s, t ≤ s → s ≤ 99.6 → ratioOfTones s t < r := by
  intro s hs hs1
  have heq := lighter_eq t r h0 h1 hr
  have hy := y_range h0 h1
  have hgt : lstarFromY (r * (yFromLstar t + 5) - 5) + 0.4 > 100 := by
    by_contra hc
    rw [if_neg hc, he] at heq
    have hle : yFromLstar t ≤ r * (yFromLstar t + 5) - 5 := by nlinarith [hy.1]
    have hm := c11_strictMono.2.monotone hle
    rw [c11_lstar_y_lstar] at hm
    norm_num at heq hm
    linarith
  have hs100 : s ≤ 100 := by norm_num at hs1; linarith
  rw [ratioOfTones_of_le (clampTone_mono hs), clampTone_of_mem (by linarith) hs100,
    clampTone_of_mem h0 h1, div_lt_iff₀ (by linarith [hy.1])]
  have : s < lstarFromY (r * (yFromLstar t + 5) - 5) := by norm_num at hs1 hgt ⊢; linarith
  have := c11_strictMono.1 this
  rw [c11_y_lstar_y] at this
  linarith

/-- C18: tones outside [0, 100] give -1. -/
theorem c18_out_of_range (t r : ℝ) (h : t < 0 ∨ t > 100) : lighter t r = -1 := by
  have e0 : (0.0 : ℝ) = 0 := by norm_num
  have e1 : (100.0 : ℝ) = 100 := by norm_num
  simp only [lighter, e0, e1, if_pos h]; norm_num

/-- Whatever the ratio (even below 1), the answer is -1 or a tone in range. -/
theorem c18_answer (t r : ℝ) : lighter t r = -1 ∨ (0 ≤ lighter t r ∧ lighter t r ≤ 100) := by
  have e0 : (0.0 : ℝ) = 0 := by norm_num
  have e1 : (100.0 : ℝ) = 100 := by norm_num
  have em : (-1.0 : ℝ) = -1 := by norm_num
  simp only [lighter, e0, e1, em]
  split
  · left; rfl
  · split
    · left; rfl
    · split
      · left; rfl
      · next h => right; push Not at h; exact h

example : lighter (0 : ℝ) 1 ≠ -1 := by
  have he := lighter_eq 0 1 (by norm_num) (by norm_num) (by norm_num)
  rw [he, c11_endpoints.1, show (1 : ℝ) * (0 + 5) - 5 = 0 by norm_num, c11_endpoints.2.2.1]
  norm_num

/-! ### C19 -/

theorem darker_eq (t r : ℝ) (h0 : 0 ≤ t) (h1 : t ≤ 100) (hr : 1 ≤ r) :
    darker t r =
      if lstarFromY ((yFromLstar t + 5) / r - 5) - 0.4 < 0 then -1
      else lstarFromY ((yFromLstar t + 5) / r - 5) - 0.4 := by
  have e0 : (0.0 : ℝ) = 0 := by norm_num
  have e1 : (100.0 : ℝ) = 100 := by norm_num
  have e5 : (5.0 : ℝ) = 5 := by norm_num
  have em : (-1.0 : ℝ) = -1 := by norm_num
  have hy := y_range h0 h1
  have hr0 : 0 < r := by linarith
  have hle : (yFromLstar t + 5) / r - 5 ≤ yFromLstar t := by
    have : (yFromLstar t + 5) / r ≤ yFromLstar t + 5 := div_le_self (by linarith [hy.1]) hr
    linarith
  have hreal : ratioOfYs (yFromLstar t) ((yFromLstar t + 5) / r - 5) = r := by
    rw [ratioOfYs_eq, max_eq_left hle, min_eq_right hle, sub_add_cancel]
    have : yFromLstar t + 5 ≠ 0 := by linarith [hy.1]
    field_simp
  have hret : ¬ lstarFromY ((yFromLstar t + 5) / r - 5) - 0.4 > 100 := by
    have := c11_strictMono.2.monotone hle
    rw [c11_lstar_y_lstar] at this
    rw [gt_iff_lt, not_lt]; norm_num; linarith
  have hguard : ¬ (t < 0 ∨ t > 100) := by rintro (h | h) <;> linarith
  have hg2 : ¬ (r < r ∧ Fl.abs (r - r) > (0.04 : ℝ)) := fun h => lt_irrefl _ h.1
  simp only [darker, e0, e1, e5, em, if_neg hguard, hreal, if_neg hg2, hret, or_false]

/-- C19: a tone that was found is in range, at least 0.4 darker, and has the requested contrast. -/
theorem c19_sound (t r : ℝ) (h0 : 0 ≤ t) (h1 : t ≤ 100) (hr : 1 ≤ r) (hne : darker t r ≠ -1) :
    0 ≤ darker t r ∧ darker t r ≤ 100 ∧ darker t r ≤ t - 0.4 ∧ r ≤ ratioOfTones (darker t r) t := by
  have he := darker_eq t r h0 h1 hr
  have hy := y_range h0 h1
  have hr0 : 0 < r := by linarith
  have hle : (yFromLstar t + 5) / r - 5 ≤ yFromLstar t := by
    have : (yFromLstar t + 5) / r ≤ yFromLstar t + 5 := div_le_self (by linarith [hy.1]) hr
    linarith
  by_cases hlt : lstarFromY ((yFromLstar t + 5) / r - 5) - 0.4 < 0
  · rw [if_pos hlt] at he; exact absurd he hne
  · rw [if_neg hlt] at he
    rw [he]
    have hlt := not_lt.1 hlt
    have hm := c11_strictMono.2.monotone hle
    rw [c11_lstar_y_lstar] at hm
    have h4 : (0 : ℝ) ≤ 0.4 := by norm_num
    refine ⟨hlt, by linarith, by linarith, ?_⟩
    rw [c17_symm, ratioOfTones_of_le (clampTone_mono (by linarith)), clampTone_of_mem h0 h1,
      clampTone_of_mem hlt (by linarith)]
    have := c11_strictMono.1.monotone
      (show lstarFromY ((yFromLstar t + 5) / r - 5) - 0.4 ≤ lstarFromY ((yFromLstar t + 5) / r - 5) by
        linarith)
    rw [c11_y_lstar_y] at this
    have hd := y_range hlt (by linarith)
    rw [le_div_iff₀ (by linarith [hd.1]), ← le_div_iff₀' hr0]
    linarith

/-- C19: -1 is the answer only if every darker tone that leaves the margin of 0.4 misses the ratio. -/
theorem c19_complete (t r : ℝ) (h0 : 0 ≤ t) (h1 : t ≤ 100) (hr : 1 ≤ r) (he : darker t r = -1) :
    ∀ s, s ≤ t → 0.4 ≤ s → ratioOfTones s t < r := by
  intro s hs hs0
  have heq := darker_eq t r h0 h1 hr
  have hy := y_range h0 h1
  have hr0 : 0 < r := by linarith
  have hlt : lstarFromY ((yFromLstar t + 5) / r - 5) - 0.4 < 0 := by
    by_contra hc
    rw [if_neg hc, he] at heq
    linarith
  have hs00 : 0 ≤ s := by norm_num at hs0; linarith
  have hys := y_range hs00 (by linarith)
  rw [c17_symm, ratioOfTones_of_le (clampTone_mono hs), clampTone_of_mem h0 h1,
    clampTone_of_mem hs00 (by linarith), div_lt_iff₀ (by linarith [hys.1]), ← div_lt_iff₀' hr0]
  have : lstarFromY ((yFromLstar t + 5) / r - 5) < s := by linarith
  have := c11_strictMono.1 this
  rw [c11_y_lstar_y] at this
  linarith

/-- C19: tones outside [0, 100] give -1. -/
theorem c19_out_of_range (t r : ℝ) (h : t < 0 ∨ t > 100) : darker t r = -1 := by
  have e0 : (0.0 : ℝ) = 0 := by norm_num
  have e1 : (100.0 : ℝ) = 100 := by norm_num
  simp only [darker, e0, e1, if_pos h]; norm_num

theorem c19_answer (t r : ℝ) : darker t r = -1 ∨ (0 ≤ darker t r ∧ darker t r ≤ 100) := by
  have e0 : (0.0 : ℝ) = 0 := by norm_num
  have e1 : (100.0 : ℝ) = 100 := by norm_num
  have em : (-1.0 : ℝ) = -1 := by norm_num
  simp only [darker, e0, e1, em]
  split
  · left; rfl
  · split
    · left; rfl
    · split
      · left; rfl
      · next h => right; push Not at h; exact h

example : darker (100 : ℝ) 1 ≠ -1 := by
  have he := darker_eq 100 1 (by norm_num) (by norm_num) (by norm_num)
  rw [he, c11_endpoints.2.1, show ((100 : ℝ) + 5) / 1 - 5 = 100 by norm_num, c11_endpoints.2.2.2]
  norm_num

/-! ### C20 -/

/-- C20: the unsafe variants return the safe answer if there is one and otherwise white or black. -/
theorem c20_decision (t r : ℝ) :
    (lighter t r ≠ -1 → lighterUnsafe t r = lighter t r) ∧
    (lighter t r = -1 → lighterUnsafe t r = 100) ∧
    (darker t r ≠ -1 → darkerUnsafe t r = darker t r) ∧
    (darker t r = -1 → darkerUnsafe t r = 0) := by
  have e0 : (0.0 : ℝ) = 0 := by norm_num
  have e1 : (100.0 : ℝ) = 100 := by norm_num
  simp only [lighterUnsafe, darkerUnsafe, e0, e1]
  refine ⟨fun h => ?_, fun h => ?_, fun h => ?_, fun h => ?_⟩
  · rw [if_neg (not_lt.2 ((c18_answer t r).resolve_left h).1)]
  · rw [h]; norm_num
  · rw [if_neg (not_lt.2 ((c19_answer t r).resolve_left h).1)]
  · rw [h]; norm_num

/-- C20: the result is a tone in range whatever tone and ratio are given. -/
theorem c20_range (t r : ℝ) : (0 ≤ lighterUnsafe t r ∧ lighterUnsafe t r ≤ 100) ∧
    (0 ≤ darkerUnsafe t r ∧ darkerUnsafe t r ≤ 100) := by
  obtain ⟨a, b, c, d⟩ := c20_decision t r
  constructor
  · by_cases h : lighter t r = -1
    · rw [b h]; norm_num
    · rw [a h]; exact (c18_answer t r).resolve_left h
  · by_cases h : darker t r = -1
    · rw [d h]; norm_num
    · rw [c h]; exact (c19_answer t r).resolve_left h

example : lighterUnsafe (100 : ℝ) 3 = 100 ∧ lighter (100 : ℝ) 3 = -1 := by
  have h : lighter (100 : ℝ) 3 = -1 := by
    by_contra hc
    have := c18_sound 100 3 (by norm_num) (by norm_num) (by norm_num) hc
    norm_num at this
    linarith [this.2.1, this.2.2.1]
  exact ⟨(c20_decision 100 3).2.1 h, h⟩

/-! ### C21 -/

/-- The foreground tone is one of the two candidates. -/
theorem foregroundTone_cases (bg r : ℝ) :
    foregroundTone bg r = lighterUnsafe bg r ∨ foregroundTone bg r = darkerUnsafe bg r := by
  simp only [foregroundTone]
  split
  · split
    · left; rfl
    · right; rfl
  · split
    · right; rfl
    · left; rfl

/-- C21: a foreground tone is a tone in range. -/
theorem c21_range (bg r : ℝ) : 0 ≤ foregroundTone bg r ∧ foregroundTone bg r ≤ 100 := by
  have h := c20_range bg r
  rcases foregroundTone_cases bg r with e | e <;> rw [e]
  · exact h.1
  · exact h.2

/-- If one of the candidates reaches the ratio, so does the answer. -/
theorem foregroundTone_best (bg r : ℝ)
    (h : r ≤ ratioOfTones (lighterUnsafe bg r) bg ∨ r ≤ ratioOfTones (darkerUnsafe bg r) bg) :
    r ≤ ratioOfTones (foregroundTone bg r) bg := by
  simp only [foregroundTone]
  split
  · split
    · next hc =>
      rcases hc with hc | hc | hc
      · exact hc
      · rcases h with h | h
        · exact h
        · exact le_trans h hc
      · rcases h with h | h
        · exact h
        · exact absurd hc.2.2 (not_lt.2 h)
    · next hc =>
      rcases h with h | h
      · exact absurd (Or.inl h) hc
      · exact h
  · split
    · next hc =>
      rcases hc with hc | hc
      · exact hc
      · rcases h with h | h
        · exact le_trans h hc
        · exact h
    · next hc =>
      rcases h with h | h
      · exact h
      · exact absurd (Or.inl h) hc

/-- C21: whenever the lighter or the darker search succeeds, the foreground tone has the requested
contrast with the background. -/
theorem c21_meets_ratio (bg r : ℝ) (h0 : 0 ≤ bg) (h1 : bg ≤ 100) (hr : 1 ≤ r)
    (h : lighter bg r ≠ -1 ∨ darker bg r ≠ -1) : r ≤ ratioOfTones (foregroundTone bg r) bg := by
  apply foregroundTone_best
  rcases h with h | h
  · left
    rw [(c20_decision bg r).1 h]
    exact (c18_sound bg r h0 h1 hr h).2.2.2
  · right
    rw [(c20_decision bg r).2.2.1 h]
    exact (c19_sound bg r h0 h1 hr h).2.2.2

/-- White or black always reaches 4.58. -/
theorem white_or_black (bg : ℝ) : 4.58 ≤ ratioOfTones 100 bg ∨ 4.58 ≤ ratioOfTones 0 bg := by
  have hb := clampTone_range bg
  have hy := y_clamp_range bg
  have hw : ratioOfTones 100 bg = (100 + 5) / (yFromLstar (clampTone bg) + 5) := by
    have e : clampTone 100 = 100 := clampTone_of_mem (by norm_num) (by norm_num)
    rw [ratioOfTones_of_le (by rw [e]; exact hb.2), e, c11_endpoints.2.1]
  have hk : ratioOfTones 0 bg = (yFromLstar (clampTone bg) + 5) / (0 + 5) := by
    have e : clampTone 0 = 0 := clampTone_of_mem (by norm_num) (by norm_num)
    rw [c17_symm, ratioOfTones_of_le (by rw [e]; exact hb.1), e, c11_endpoints.1]
  rw [hw, hk]
  rcases le_total (yFromLstar (clampTone bg) + 5) 22.91 with h | h
  · left
    rw [le_div_iff₀ (by linarith [hy.1])]
    norm_num at h ⊢
    linarith
  · right
    norm_num at h ⊢
    linarith

/-- C21: every ratio up to 4.5 (even up to 4.58) is always reached. -/
theorem c21_always_4_5 (bg r : ℝ) (h0 : 0 ≤ bg) (h1 : bg ≤ 100) (hr : r ≤ 4.58) :
    r ≤ ratioOfTones (foregroundTone bg r) bg := by
  rcases lt_or_ge r 1 with hlt | hge
  · exact hlt.le.trans (c17_range _ _).1
  · by_cases hl : lighter bg r = -1
    · by_cases hd : darker bg r = -1
      · apply foregroundTone_best
        rw [(c20_decision bg r).2.1 hl, (c20_decision bg r).2.2.2 hd]
        rcases white_or_black bg with h | h
        · left; linarith
        · right; linarith
      · exact c21_meets_ratio bg r h0 h1 hge (Or.inr hd)
    · exact c21_meets_ratio bg r h0 h1 hge (Or.inl hl)

example : (0 : ℝ) ≤ 55 ∧ (55 : ℝ) ≤ 100 ∧ (4.5 : ℝ) ≤ 4.58 := by norm_num

/-- C21: if the ratio is not reached, the contrast obtained is within 0.1 of the best contrast any tone
has with the background. -/
theorem c21_near_best (bg r : ℝ) (h0 : 0 ≤ bg) (h1 : bg ≤ 100) (hr : 1 ≤ r)
    (hmiss : ratioOfTones (foregroundTone bg r) bg < r) :
    ∀ s, ratioOfTones s bg ≤ ratioOfTones (foregroundTone bg r) bg + 0.1 := by
  have hl : lighter bg r = -1 := by
    by_contra h
    exact absurd (c21_meets_ratio bg r h0 h1 hr (Or.inl h)) (not_le.2 hmiss)
  have hd : darker bg r = -1 := by
    by_contra h
    exact absurd (c21_meets_ratio bg r h0 h1 hr (Or.inr h)) (not_le.2 hmiss)
  have el := (c20_decision bg r).2.1 hl
  have ed := (c20_decision bg r).2.2.2 hd
  have best : ratioOfTones 100 bg ≤ ratioOfTones (foregroundTone bg r) bg + 0.1 ∧
      ratioOfTones 0 bg ≤ ratioOfTones (foregroundTone bg r) bg + 0.1 := by
    have h01 : (0.1 : ℝ) = 1 / 10 := by norm_num
    have habs (x : ℝ) : Fl.abs x = |x| := rfl
    simp only [foregroundTone, el, ed, h01, habs] at hmiss ⊢
    split at hmiss
    · next hp =>
      rw [if_pos hp]
      split at hmiss
      · next hc =>
        rw [if_pos hc]
        rcases hc with hc | hc | hc
        · exact absurd hc (not_le.2 hmiss)
        · constructor <;> linarith
        · have := abs_lt.1 hc.1
          constructor <;> linarith
      · next hc =>
        rw [if_neg hc]
        push Not at hc
        constructor <;> linarith
    · next hp =>
      rw [if_neg hp]
      split at hmiss
      · next hc =>
        rw [if_pos hc]
        rcases hc with hc | hc
        · exact absurd hc (not_le.2 hmiss)
        · constructor <;> linarith
      · next hc =>
        rw [if_neg hc]
        push Not at hc
        constructor <;> linarith
  intro s
  rcases le_total bg s with hs | hs
  · have hcs := clampTone_range s
    rcases le_total s 100 with hs1 | hs1
    · exact (c17_monotone s 100 bg bg hs hs1 le_rfl).trans best.1
    · have : ratioOfTones s bg = ratioOfTones 100 bg := by
        have e : clampTone s = clampTone 100 := by
          unfold clampTone; rw [min_eq_left hs1, min_self]
        rw [ratioOfTones_of_le (clampTone_mono hs), ratioOfTones_of_le (clampTone_mono h1), e]
      rw [this]; exact best.1
  · rw [c17_symm]
    rcases le_total 0 s with hs0 | hs0
    · refine (c17_monotone bg bg s 0 hs le_rfl hs0).trans ?_
      rw [c17_symm]; exact best.2
    · have : ratioOfTones bg s = ratioOfTones bg 0 := by
        have e : clampTone s = clampTone 0 := by
          unfold clampTone; rw [min_eq_right (by linarith), max_eq_left hs0]; norm_num
        rw [ratioOfTones_of_le (clampTone_mono hs), ratioOfTones_of_le (clampTone_mono h0), e]
      rw [this, c17_symm]; exact best.2

example : ratioOfTones (foregroundTone (50 : ℝ) 21) 50 < 21 := by
  refine lt_of_le_of_ne (c17_range _ _).2 fun h => ?_
  have hr := c21_range 50 21
  have hy := y_range hr.1 hr.2
  have hy50 : 0 < yFromLstar (50 : ℝ) ∧ yFromLstar (50 : ℝ) < 100 := by
    have a := c11_strictMono.1 (show (0 : ℝ) < 50 by norm_num)
    have b := c11_strictMono.1 (show (50 : ℝ) < 100 by norm_num)
    rw [c11_endpoints.1] at a; rw [c11_endpoints.2.1] at b
    exact ⟨a, b⟩
  have e50 : clampTone 50 = 50 := clampTone_of_mem (by norm_num) (by norm_num)
  have ef := clampTone_of_mem hr.1 hr.2
  rcases le_total (clampTone 50) (clampTone (foregroundTone 50 21)) with hle | hle
  · rw [ratioOfTones_of_le hle, e50, ef, div_eq_iff (by linarith [hy50.1])] at h
    linarith [hy.2, hy50.1]
  · rw [c17_symm, ratioOfTones_of_le hle, e50, ef, div_eq_iff (by linarith [hy.1])] at h
    linarith [hy.1, hy50.2]

/-! ### C22 -/

/-- Clamping to [0, 1]. -/
noncomputable def unit (t : ℝ) : ℝ := max 0 (min 1 t)

/-- Specification of the curve: the sum of three ramps, over [-1, 0], [0, 0.5] and [0.5, 1]. -/
noncomputable def curveSpec (low normal medium high c : ℝ) : ℝ :=
  low + (normal - low) * unit (c + 1) + (medium - normal) * unit (2 * c) +
    (high - medium) * unit (2 * c - 1)

theorem unit_of_le {t : ℝ} (h : t ≤ 0) : unit t = 0 := by
  unfold unit; rw [min_eq_right (by linarith), max_eq_left h]

theorem unit_of_ge {t : ℝ} (h : 1 ≤ t) : unit t = 1 := by
  unfold unit; rw [min_eq_left h, max_eq_right (by norm_num)]

theorem unit_of_mem {t : ℝ} (h0 : 0 ≤ t) (h1 : t ≤ 1) : unit t = t := by
  unfold unit; rw [min_eq_right h1, max_eq_right h0]

/-- C22: the curve is the piecewise linear function with values low, normal, medium, high at -1, 0, 0.5, 1
and constant outside. -/
theorem c22_spec (k : ContrastCurve ℝ) (c : ℝ) :
    k.get c = curveSpec k.low k.normal k.medium k.high c := by
  have e0 : (0.0 : ℝ) = 0 := by norm_num
  have e1 : (1.0 : ℝ) = 1 := by norm_num
  have e5 : (0.5 : ℝ) = 1 / 2 := by norm_num
  simp only [ContrastCurve.get, curveSpec, lerp, e0, e1, e5]
  split
  · next h => rw [unit_of_le (by linarith), unit_of_le (by linarith), unit_of_le (by linarith)]; ring
  · next h =>
    split
    · next h2 =>
      rw [unit_of_mem (by linarith) (by linarith), unit_of_le (by linarith), unit_of_le (by linarith)]
      ring
    · next h2 =>
      split
      · next h3 =>
        rw [unit_of_ge (by linarith), unit_of_mem (by linarith) (by linarith), unit_of_le (by linarith)]
        ring
      · next h3 =>
        split
        · next h4 =>
          rw [unit_of_ge (by linarith), unit_of_ge (by linarith), unit_of_mem (by linarith) (by linarith)]
          ring
        · next h4 =>
          rw [unit_of_ge (by linarith), unit_of_ge (by linarith), unit_of_ge (by linarith)]
          ring

/-- C22: the control values are returned at -1, 0, 0.5 and 1 and outside [-1, 1] the curve is constant. -/
theorem c22_control_values (k : ContrastCurve ℝ) :
    k.get (-1) = k.low ∧ k.get 0 = k.normal ∧ k.get 0.5 = k.medium ∧ k.get 1 = k.high ∧
    (∀ c ≤ -1, k.get c = k.low) ∧ (∀ c ≥ 1, k.get c = k.high) := by
  have lo (c : ℝ) (h : c ≤ -1) : k.get c = k.low := by
    rw [c22_spec, curveSpec, unit_of_le (by linarith), unit_of_le (by linarith), unit_of_le (by linarith)]
    ring
  have hi (c : ℝ) (h : 1 ≤ c) : k.get c = k.high := by
    rw [c22_spec, curveSpec, unit_of_ge (by linarith), unit_of_ge (by linarith), unit_of_ge (by linarith)]
    ring
  refine ⟨lo _ le_rfl, ?_, ?_, hi _ le_rfl, lo, hi⟩
  · rw [c22_spec, curveSpec, unit_of_ge (by norm_num), unit_of_le (by norm_num), unit_of_le (by norm_num)]
    ring
  · rw [c22_spec, curveSpec, unit_of_ge (by norm_num), unit_of_ge (by norm_num), unit_of_le (by norm_num)]
    ring

/-- C22: continuous in the contrast level. -/
theorem c22_continuous (k : ContrastCurve ℝ) : Continuous fun c => k.get c := by
  have : (fun c => k.get c) = fun c => curveSpec k.low k.normal k.medium k.high c := by
    funext c; exact c22_spec k c
  rw [this]
  unfold curveSpec unit
  fun_prop

/-- C22: the value lies between the smallest and the largest control value. -/
theorem c22_bounded (k : ContrastCurve ℝ) (c lo hi : ℝ)
    (hl : lo ≤ k.low ∧ lo ≤ k.normal ∧ lo ≤ k.medium ∧ lo ≤ k.high)
    (hh : k.low ≤ hi ∧ k.normal ≤ hi ∧ k.medium ≤ hi ∧ k.high ≤ hi) : lo ≤ k.get c ∧ k.get c ≤ hi := by
  have key (a b t : ℝ) (ha : lo ≤ a ∧ a ≤ hi) (hb : lo ≤ b ∧ b ≤ hi) (h0 : 0 ≤ t) (h1 : t ≤ 1) :
      lo ≤ lerp a b t ∧ lerp a b t ≤ hi := by
    have := (c09_lerp a b t h0 h1).2.2
    exact ⟨(le_min ha.1 hb.1).trans this.1, this.2.trans (max_le ha.2 hb.2)⟩
  have e0 : (0.0 : ℝ) = 0 := by norm_num
  have e1 : (1.0 : ℝ) = 1 := by norm_num
  have e5 : (0.5 : ℝ) = 1 / 2 := by norm_num
  obtain ⟨l1, l2, l3, l4⟩ := hl
  obtain ⟨h1, h2, h3, h4⟩ := hh
  simp only [ContrastCurve.get, e0, e1, e5]
  split
  · exact ⟨l1, h1⟩
  · split
    · exact key _ _ _ ⟨l1, h1⟩ ⟨l2, h2⟩ (by linarith) (by linarith)
    · split
      · exact key _ _ _ ⟨l2, h2⟩ ⟨l3, h3⟩ (by linarith) (by linarith)
      · split
        · exact key _ _ _ ⟨l3, h3⟩ ⟨l4, h4⟩ (by linarith) (by linarith)
        · exact ⟨l4, h4⟩

/-- C22: non-decreasing in the contrast level if the control values are. -/
theorem c22_monotone (k : ContrastCurve ℝ) (h1 : k.low ≤ k.normal) (h2 : k.normal ≤ k.medium)
    (h3 : k.medium ≤ k.high) : Monotone fun c => k.get c := by
  intro c d h
  simp only [c22_spec, curveSpec]
  have um {s t : ℝ} (h : s ≤ t) : unit s ≤ unit t := max_le_max le_rfl (min_le_min le_rfl h)
  have a := um (show c + 1 ≤ d + 1 by linarith)
  have b := um (show 2 * c ≤ 2 * d by linarith)
  have e := um (show 2 * c - 1 ≤ 2 * d - 1 by linarith)
  nlinarith

example : (ContrastCurve.get ⟨3, 4.5, 7, 11⟩ (0.25 : ℝ)) = 5.75 := by
  rw [c22_spec, curveSpec, unit_of_ge (by norm_num), unit_of_mem (by norm_num) (by norm_num),
    unit_of_le (by norm_num)]
  norm_num

end Mcu.Props
