import Verif.Spec.DynamicColor
import Verif.Lemmas.Tones

/-! The tones of a tone delta pair. -/

namespace Mcu.Lemmas

open Contrast ColorUtils Props DynamicColor MathUtils

theorem clampTone_cases (t : ℝ) : (t ≤ 0 ∧ clampTone t = 0) ∨ (0 ≤ t ∧ t ≤ 100 ∧ clampTone t = t) ∨
    (100 ≤ t ∧ clampTone t = 100) := by
  rcases le_total t 0 with h | h
  · left; exact ⟨h, by unfold clampTone; rw [min_eq_right (by linarith), max_eq_left h]⟩
  · rcases le_total t 100 with h1 | h1
    · right; left; exact ⟨h, h1, clampTone_of_mem h h1⟩
    · right; right; exact ⟨h1, by unfold clampTone; rw [min_eq_left h1, max_eq_right (by norm_num)]⟩

/-- Spreading in a light scheme: `farther` is darker. -/
theorem spread_light (n f d : ℝ) (hn : 0 ≤ n ∧ n ≤ 100) (hf : 0 ≤ f ∧ f ≤ 100) (hd : 0 ≤ d ∧ d ≤ 100) :
    (spreadTones n f d (-1) = (n, f) ∧ f + d ≤ n) ∨
    (spreadTones n f d (-1) = (n, n - d) ∧ d ≤ n ∧ n < f + d) ∨
    (spreadTones n f d (-1) = (d, 0) ∧ n < d ∧ n < f + d) := by
  simp only [spreadTones, clampDouble_tone]
  by_cases h : d ≤ (f - n) * (-1)
  · left; rw [if_pos h]; exact ⟨rfl, by linarith⟩
  · rw [if_neg h]
    right
    rcases clampTone_cases (n + d * (-1)) with ⟨h1, e⟩ | ⟨h1, h2, e⟩ | ⟨h1, e⟩
    · rw [e]
      by_cases h3 : d ≤ (0 - n) * (-1)
      · left; rw [if_pos h3]
        have : n - d = 0 := by linarith
        rw [this]; exact ⟨rfl, by linarith, by linarith⟩
      · right
        rw [if_neg h3, show (0 : ℝ) - d * (-1) = d by ring, clampTone_of_mem hd.1 hd.2]
        exact ⟨rfl, by linarith, by linarith⟩
    · left
      rw [e, if_pos (by linarith), show n + d * (-1) = n - d by ring]
      exact ⟨rfl, by linarith, by linarith⟩
    · left
      have hd0 : d = 0 := by linarith
      have hn0 : n = 100 := by linarith
      subst hd0 hn0
      rw [e, if_pos (by linarith)]
      exact ⟨by norm_num, by linarith, by linarith⟩

/-- Spreading in a dark scheme: `farther` is lighter. -/
theorem spread_dark (n f d : ℝ) (hn : 0 ≤ n ∧ n ≤ 100) (hf : 0 ≤ f ∧ f ≤ 100) (hd : 0 ≤ d ∧ d ≤ 100) :
    (spreadTones n f d 1 = (n, f) ∧ n + d ≤ f) ∨
    (spreadTones n f d 1 = (n, n + d) ∧ n + d ≤ 100 ∧ f < n + d) ∨
    (spreadTones n f d 1 = (100 - d, 100) ∧ 100 < n + d ∧ f < n + d) := by
  simp only [spreadTones, clampDouble_tone, mul_one]
  by_cases h : d ≤ f - n
  · left; rw [if_pos h]; exact ⟨rfl, by linarith⟩
  · rw [if_neg h]
    right
    rcases clampTone_cases (n + d) with ⟨h1, e⟩ | ⟨h1, h2, e⟩ | ⟨h1, e⟩
    · left
      have hd0 : d = 0 := by linarith
      have hn0 : n = 0 := by linarith
      subst hd0 hn0
      rw [e, if_pos (by linarith)]
      exact ⟨by norm_num, by linarith, by linarith⟩
    · left
      rw [e, if_pos (by linarith)]
      exact ⟨rfl, h2, by linarith⟩
    · rw [e]
      by_cases h3 : d ≤ 100 - n
      · left; rw [if_pos h3]
        have : n + d = 100 := by linarith
        rw [this]; exact ⟨rfl, by linarith, by linarith⟩
      · right
        rw [if_neg h3, clampTone_of_mem (by linarith) (by linarith)]
        exact ⟨rfl, by linarith, by linarith⟩

/-- Leaving 50..60 in a light scheme. -/
theorem awkward_light (n f d : ℝ) (together : Bool) (hd : 0 ≤ d) (h : f + d ≤ n) :
    let r := avoidAwkward n f d (-1) together
    r.2 + d ≤ r.1 ∧ ¬ Spec.Awkward r.1 ∧ ¬ Spec.Awkward r.2 ∧ r.1 ≤ n ∧ r.2 ≤ f ∧
      (min (49 - d) 0 ≤ r.2 ∨ f ≤ r.2) := by
  have e49 : (49.0 : ℝ) = 49 := by norm_num
  have e50 : (50.0 : ℝ) = 50 := by norm_num
  have e60 : (60.0 : ℝ) = 60 := by norm_num
  have e0 : ¬ ((-1 : ℝ) > 0.0) := by norm_num
  simp only [avoidAwkward, e49, e50, e60, if_neg e0, fl_fmin, Spec.Awkward, not_and, not_lt]
  have hm : min f (49 + d * -1) ≤ 49 - d := by
    refine (min_le_right _ _).trans (by linarith)
  have hm2 : min f (49 + d * -1) ≤ f := min_le_left _ _
  have hm3 : min f (49 + d * -1) = f ∨ min f (49 + d * -1) = 49 - d := by
    rcases min_choice f (49 + d * -1) with h | h
    · left; exact h
    · right; rw [h]; ring
  have hlow : min (49 - d) 0 ≤ 49 - d := min_le_left _ _
  by_cases c1 : 50 ≤ n ∧ n < 60
  · rw [if_pos c1]
    refine ⟨by simp only; linarith, fun h => by linarith, fun h => by simp only at *; linarith, by simp only; linarith, hm2, ?_⟩
    rcases hm3 with e | e <;> simp only [e]
    · right; rfl
    · left; exact hlow
  · rw [if_neg c1]
    by_cases c2 : 50 ≤ f ∧ f < 60
    · rw [if_pos c2]
      cases together
      · simp only [Bool.false_eq_true, if_false]
        refine ⟨by linarith, fun h => ?_, fun h => by linarith, le_rfl, by linarith, ?_⟩
        · by_contra h2; exact c1 ⟨h, not_le.1 h2⟩
        · left; linarith
      · simp only [if_true]
        refine ⟨by linarith, fun h => by linarith, fun h => by linarith, by linarith, hm2, ?_⟩
        rcases hm3 with e | e <;> simp only [e]
        · right; rfl
        · left; exact hlow
    · rw [if_neg c2]
      refine ⟨h, fun h => ?_, fun h => ?_, le_rfl, le_rfl, Or.inr le_rfl⟩
      · by_contra h2; exact c1 ⟨h, not_le.1 h2⟩
      · by_contra h2; exact c2 ⟨h, not_le.1 h2⟩

/-- Leaving 50..60 in a dark scheme. -/
theorem awkward_dark (n f d : ℝ) (together : Bool) (hd : 0 ≤ d) (h : n + d ≤ f) :
    let r := avoidAwkward n f d 1 together
    r.1 + d ≤ r.2 ∧ ¬ Spec.Awkward r.1 ∧ ¬ Spec.Awkward r.2 ∧ n ≤ r.1 ∧ f ≤ r.2 ∧
      (r.2 ≤ max (60 + d) 100 ∨ r.2 ≤ f) := by
  have e49 : (49.0 : ℝ) = 49 := by norm_num
  have e50 : (50.0 : ℝ) = 50 := by norm_num
  have e60 : (60.0 : ℝ) = 60 := by norm_num
  have e0 : (1 : ℝ) > 0.0 := by norm_num
  simp only [avoidAwkward, e49, e50, e60, if_pos e0, fl_fmax, Spec.Awkward, not_and, not_lt, mul_one]
  have hm : 60 + d ≤ max f (60 + d) := le_max_right _ _
  have hm2 : f ≤ max f (60 + d) := le_max_left _ _
  have hm3 := max_choice f (60 + d)
  have hhi : 60 + d ≤ max (60 + d) 100 := le_max_left _ _
  by_cases c1 : 50 ≤ n ∧ n < 60
  · rw [if_pos c1]
    refine ⟨by simp only; linarith, fun h => by simp only; linarith, fun h => by simp only; linarith, by simp only; linarith, hm2, ?_⟩
    rcases hm3 with e | e <;> simp only [e]
    · right; rfl
    · left; exact hhi
  · rw [if_neg c1]
    by_cases c2 : 50 ≤ f ∧ f < 60
    · rw [if_pos c2]
      cases together
      · simp only [Bool.false_eq_true, if_false]
        refine ⟨by linarith, fun h => ?_, fun h => by linarith, le_rfl, by linarith, ?_⟩
        · by_contra h2; exact c1 ⟨h, not_le.1 h2⟩
        · left; linarith
      · simp only [if_true]
        refine ⟨by linarith, fun h => by linarith, fun h => by linarith, by linarith, hm2, ?_⟩
        rcases hm3 with e | e <;> simp only [e]
        · right; rfl
        · left; exact hhi
    · rw [if_neg c2]
      refine ⟨h, fun h => ?_, fun h => ?_, le_rfl, le_rfl, Or.inr le_rfl⟩
      · by_contra h2; exact c1 ⟨h, not_le.1 h2⟩
      · by_contra h2; exact c2 ⟨h, not_le.1 h2⟩

/-- The tone of one colour of a pair before spreading. -/
noncomputable def adjusted (decreasing : Bool) (bg contrast initial : ℝ) : ℝ :=
  if decreasing then foregroundTone bg contrast else goodEnough bg initial contrast

theorem adjusted_cases (decreasing : Bool) (bg contrast initial : ℝ) :
    (adjusted decreasing bg contrast initial = initial ∧ decreasing = false ∧ contrast ≤ ratioOfTones bg initial) ∨
    (adjusted decreasing bg contrast initial = foregroundTone bg contrast ∧
      (decreasing = true ∨ ratioOfTones bg initial < contrast)) := by
  unfold adjusted goodEnough
  cases decreasing
  · simp only [Bool.false_eq_true, if_false]
    by_cases h : ratioOfTones bg initial ≥ contrast
    · left; rw [if_pos h]; exact ⟨rfl, trivial, h⟩
    · right; rw [if_neg h]; exact ⟨rfl, Or.inr (not_le.1 h)⟩
  · right; simp

theorem adjusted_range (decreasing : Bool) (bg contrast initial : ℝ) (h : 0 ≤ initial ∧ initial ≤ 100) :
    0 ≤ adjusted decreasing bg contrast initial ∧ adjusted decreasing bg contrast initial ≤ 100 := by
  rcases adjusted_cases decreasing bg contrast initial with ⟨e, -⟩ | ⟨e, -⟩ <;> rw [e]
  · exact h
  · exact c21_range _ _

theorem pairTones_eq (dec : Bool) (bg nc fc ni fi d dir : ℝ) (together : Bool) :
    pairTones dec bg nc fc ni fi d dir together =
      let s := spreadTones (adjusted dec bg nc ni) (adjusted dec bg fc fi) d dir
      avoidAwkward s.1 s.2 d dir together := rfl

/-- What a pair ends up with in a light scheme. -/
theorem pair_light (dec : Bool) (bg nc fc ni fi d : ℝ) (together : Bool) (hn : 0 ≤ ni ∧ ni ≤ 100)
    (hf : 0 ≤ fi ∧ fi ≤ 100) (hd : 0 ≤ d ∧ d ≤ 100) :
    let r := pairTones dec bg nc fc ni fi d (-1) together
    r.2 + d ≤ r.1 ∧ ¬ Spec.Awkward r.1 ∧ ¬ Spec.Awkward r.2 ∧ (d ≤ 49 → 0 ≤ r.2) ∧ r.1 ≤ 100 := by
  rw [pairTones_eq]
  have hN := adjusted_range dec bg nc ni hn
  have hF := adjusted_range dec bg fc fi hf
  generalize adjusted dec bg nc ni = n at *
  generalize adjusted dec bg fc fi = f at *
  have fin (n f : ℝ) (h : f + d ≤ n) (hf0 : 0 ≤ f) (hn1 : n ≤ 100) :
      let r := avoidAwkward n f d (-1) together
      r.2 + d ≤ r.1 ∧ ¬ Spec.Awkward r.1 ∧ ¬ Spec.Awkward r.2 ∧ (d ≤ 49 → 0 ≤ r.2) ∧ r.1 ≤ 100 := by
    obtain ⟨h1, h2, h3, h4, h5, h6⟩ := awkward_light n f d together hd.1 h
    refine ⟨h1, h2, h3, fun hd => ?_, h4.trans hn1⟩
    rcases h6 with h6 | h6
    · rw [min_eq_right (by linarith)] at h6; exact h6
    · linarith
  rcases spread_light n f d hN hF hd with ⟨e, h⟩ | ⟨e, h, -⟩ | ⟨e, h, -⟩ <;> rw [e]
  · exact fin _ _ h hF.1 hN.2
  · exact fin _ _ (by linarith) (by linarith) hN.2
  · exact fin _ _ (by linarith) le_rfl hd.2

/-- What a pair ends up with in a dark scheme. -/
theorem pair_dark (dec : Bool) (bg nc fc ni fi d : ℝ) (together : Bool) (hn : 0 ≤ ni ∧ ni ≤ 100)
    (hf : 0 ≤ fi ∧ fi ≤ 100) (hd : 0 ≤ d ∧ d ≤ 100) :
    let r := pairTones dec bg nc fc ni fi d 1 together
    r.1 + d ≤ r.2 ∧ ¬ Spec.Awkward r.1 ∧ ¬ Spec.Awkward r.2 ∧ (d ≤ 40 → r.2 ≤ 100) ∧ 0 ≤ r.1 := by
  rw [pairTones_eq]
  have hN := adjusted_range dec bg nc ni hn
  have hF := adjusted_range dec bg fc fi hf
  generalize adjusted dec bg nc ni = n at *
  generalize adjusted dec bg fc fi = f at *
  have fin (n f : ℝ) (h : n + d ≤ f) (hn0 : 0 ≤ n) (hf1 : f ≤ 100) :
      let r := avoidAwkward n f d 1 together
      r.1 + d ≤ r.2 ∧ ¬ Spec.Awkward r.1 ∧ ¬ Spec.Awkward r.2 ∧ (d ≤ 40 → r.2 ≤ 100) ∧ 0 ≤ r.1 := by
    obtain ⟨h1, h2, h3, h4, h5, h6⟩ := awkward_dark n f d together hd.1 h
    refine ⟨h1, h2, h3, fun hd => ?_, hn0.trans h4⟩
    rcases h6 with h6 | h6
    · rw [max_eq_right (by linarith)] at h6; exact h6
    · linarith
  rcases spread_dark n f d hN hF hd with ⟨e, h⟩ | ⟨e, h, -⟩ | ⟨e, h, -⟩ <;> rw [e]
  · exact fin _ _ h hN.1 hF.2
  · exact fin _ _ le_rfl hN.1 h
  · exact fin _ _ (by linarith) (by linarith) le_rfl

end Mcu.Lemmas
