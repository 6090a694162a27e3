import Verif.Lemmas.Evaluate

/-! How much contrast the tones of text roles have. -/

namespace Mcu.Lemmas

open Contrast ColorUtils Props DynamicColor MathUtils

theorem y_le {t c : ℝ} (h : t ≤ c) (hc : 8 < c) : yFromLstar t ≤ 100 * ((c + 16) / 116) ^ 3 := by
  rw [← y_cube hc]; exact c11_strictMono.1.monotone h

theorem y_ge {t c : ℝ} (h : c ≤ t) (hc : 8 < c) : 100 * ((c + 16) / 116) ^ 3 ≤ yFromLstar t := by
  rw [← y_cube hc]; exact c11_strictMono.1.monotone h

/-! ### Foreground tones -/

theorem ratio_white {b : ℝ} (h0 : 0 ≤ b) (h1 : b ≤ 100) : ratioOfTones 100 b = 105 / (yFromLstar b + 5) := by
  rw [ratioOfTones_of_le (clampTone_mono h1), clampTone_of_mem (by norm_num) le_rfl, clampTone_of_mem h0 h1,
    c11_endpoints.2.1]
  norm_num

theorem ratio_black {b : ℝ} (h0 : 0 ≤ b) (h1 : b ≤ 100) : ratioOfTones 0 b = (yFromLstar b + 5) / 5 := by
  rw [c17_symm, ratioOfTones_of_le (clampTone_mono h0), clampTone_of_mem h0 h1, clampTone_of_mem le_rfl (by norm_num),
    c11_endpoints.1]
  norm_num

/-- A foreground tone for ratio `r` has every contrast that is at most `r` and at most 4.53. -/
theorem fg_ge {bg r k : ℝ} (h0 : 0 ≤ bg) (h1 : bg ≤ 100) (hk : k ≤ 4.53) (hr : k ≤ r) :
    k ≤ ratioOfTones (foregroundTone bg r) bg := by
  by_cases hm : r ≤ ratioOfTones (foregroundTone bg r) bg
  · exact hr.trans hm
  · have hm := not_le.1 hm
    have hr1 : 1 ≤ r := (c17_range _ _).1.trans hm.le
    have hbest := c21_near_best bg r h0 h1 hr1 hm
    have hl : lighter bg r = -1 := by
      by_contra h
      exact absurd (c21_meets_ratio bg r h0 h1 hr1 (Or.inl h)) (not_le.2 hm)
    have hd : darker bg r = -1 := by
      by_contra h
      exact absurd (c21_meets_ratio bg r h0 h1 hr1 (Or.inr h)) (not_le.2 hm)
    have el := (c20_decision bg r).2.1 hl
    have ed := (c20_decision bg r).2.2.2 hd
    have b1 := hbest 100
    have b0 := hbest 0
    have hy := y_range h0 h1
    have e1 := ratio_white h0 h1
    have e0 := ratio_black h0 h1
    have hp : ratioOfTones 100 bg * ratioOfTones 0 bg = 21 := by
      rw [e1, e0]
      have : yFromLstar bg + 5 ≠ 0 := by linarith [hy.1]
      field_simp
      norm_num
    have p1 := (c17_range 100 bg).1
    have p0 := (c17_range 0 bg).1
    norm_num at hk b1 b0
    refine hk.trans ?_
    by_contra hc
    have hc := not_le.1 hc
    rcases foregroundTone_cases bg r with e | e
    · rw [e, el] at hc b0
      nlinarith
    · rw [e, ed] at hc b1
      nlinarith

theorem adjusted_ge (dec : Bool) {bg r k i : ℝ} (h0 : 0 ≤ bg) (h1 : bg ≤ 100) (hk : k ≤ 4.53) (hr : k ≤ r) :
    k ≤ ratioOfTones (adjusted dec bg r i) bg := by
  rcases adjusted_cases dec bg r i with ⟨e, -, h⟩ | ⟨e, -⟩ <;> rw [e]
  · rw [c17_symm]; exact hr.trans h
  · exact fg_ge h0 h1 hk hr

/-! ### Direction -/

theorem realRound_of_nonneg {x : ℝ} (h : 0 ≤ x) : realRound x = (⌊x + 1/2⌋ : ℤ) := if_pos h

theorem prefers_of_lt {t : ℝ} (h0 : 0 ≤ t) (h : t < 59.5) : tonePrefersLightForeground t = true := by
  have e60 : (60.0 : ℝ) = ((60 : ℤ) : ℝ) := by norm_num
  unfold tonePrefersLightForeground
  rw [decide_eq_true_eq, fl_round, realRound_of_nonneg h0, e60, Int.cast_lt, Int.floor_lt]
  norm_num at h ⊢
  linarith

theorem prefers_of_ge {t : ℝ} (h : 59.5 ≤ t) : tonePrefersLightForeground t = false := by
  have e60 : (60.0 : ℝ) = ((60 : ℤ) : ℝ) := by norm_num
  have h0 : 0 ≤ t := le_trans (by norm_num) h
  unfold tonePrefersLightForeground
  rw [decide_eq_false_iff_not, fl_round, realRound_of_nonneg h0, e60, Int.cast_lt, not_lt, Int.le_floor]
  norm_num at h ⊢
  linarith

/-- On a dark tone the foreground tone is the lighter candidate. -/
theorem fg_light {bg r : ℝ} (h0 : 0 ≤ bg) (h1 : bg ≤ 49) (hr : 1 ≤ r) : foregroundTone bg r = lighterUnsafe bg r := by
  have hp := prefers_of_lt h0 (lt_of_le_of_lt h1 (by norm_num))
  simp only [foregroundTone, hp, if_true]
  apply if_pos
  by_cases hl : lighter bg r = -1
  · right; left
    rw [(c20_decision bg r).2.1 hl]
    have hd := (c20_range bg r).2
    rcases le_total (darkerUnsafe bg r) bg with hle | hle
    · rw [c17_symm (darkerUnsafe bg r)]
      refine (c17_monotone bg bg (darkerUnsafe bg r) 0 hle le_rfl hd.1).trans ?_
      rw [c17_symm, ratio_black h0 (by linarith), ratio_white h0 (by linarith)]
      have hy := y_range h0 (by linarith)
      have hy1 := y_le h1 (by norm_num)
      norm_num at hy1
      rw [div_le_div_iff₀ (by norm_num) (by linarith [hy.1])]
      nlinarith [hy.1]
    · exact c17_monotone _ _ _ _ hle hd.2 le_rfl
  · left
    rw [(c20_decision bg r).1 hl]
    exact (c18_sound bg r h0 (by linarith) hr hl).2.2.2

/-- On a light tone the foreground tone is the darker candidate. -/
theorem fg_dark {bg r : ℝ} (h0 : 60 ≤ bg) (h1 : bg ≤ 100) (hr : 1 ≤ r) : foregroundTone bg r = darkerUnsafe bg r := by
  have hp := prefers_of_ge (show (59.5 : ℝ) ≤ bg by norm_num; linarith)
  have hb : 0 ≤ bg := by linarith
  simp only [foregroundTone, hp, Bool.false_eq_true, if_false]
  apply if_pos
  by_cases hd : darker bg r = -1
  · right
    rw [(c20_decision bg r).2.2.2 hd]
    have hl := (c20_range bg r).1
    rcases le_total bg (lighterUnsafe bg r) with hle | hle
    · refine (c17_monotone (lighterUnsafe bg r) 100 bg bg hle hl.2 le_rfl).trans ?_
      rw [ratio_black hb h1, ratio_white hb h1]
      have hy := y_ge h0 (by norm_num)
      norm_num at hy
      rw [div_le_div_iff₀ (by linarith) (by norm_num)]
      nlinarith
    · rw [c17_symm 0, c17_symm (lighterUnsafe bg r)]; exact c17_monotone _ _ _ _ hle le_rfl hl.1
  · left
    rw [(c20_decision bg r).2.2.1 hd]
    exact (c19_sound bg r hb h1 hr hd).2.2.2

theorem fg_light_above {bg r : ℝ} (h0 : 0 ≤ bg) (h1 : bg ≤ 49) (hr : 1 ≤ r) : bg ≤ foregroundTone bg r := by
  rw [fg_light h0 h1 hr]
  by_cases hl : lighter bg r = -1
  · rw [(c20_decision bg r).2.1 hl]; linarith
  · rw [(c20_decision bg r).1 hl]
    have := (c18_sound bg r h0 (by linarith) hr hl).2.2.1
    norm_num at this; linarith

theorem fg_dark_below {bg r : ℝ} (h0 : 60 ≤ bg) (h1 : bg ≤ 100) (hr : 1 ≤ r) : foregroundTone bg r ≤ bg := by
  rw [fg_dark h0 h1 hr]
  by_cases hd : darker bg r = -1
  · rw [(c20_decision bg r).2.2.2 hd]; linarith
  · rw [(c20_decision bg r).2.2.1 hd]
    have := (c19_sound bg r (by linarith) h1 hr hd).2.2.1
    norm_num at this; linarith

/-- A foreground tone that replaces a lighter tone of too little contrast is lighter still. -/
theorem fg_light_past {bg r i : ℝ} (h0 : 0 ≤ bg) (h1 : bg ≤ 49) (hi1 : i ≤ 100)
    (hr : ratioOfTones bg i < r) : i ≤ foregroundTone bg r := by
  have hr1 : 1 ≤ r := (c17_range _ _).1.trans hr.le
  rw [fg_light h0 h1 hr1]
  by_cases hl : lighter bg r = -1
  · rw [(c20_decision bg r).2.1 hl]; exact hi1
  · rw [(c20_decision bg r).1 hl]
    obtain ⟨-, -, ha, hc⟩ := c18_sound bg r h0 (by linarith) hr1 hl
    by_contra hlt
    have := c17_monotone (lighter bg r) i bg bg (by norm_num at ha; linarith) (not_le.1 hlt).le le_rfl
    rw [c17_symm i] at this
    linarith

theorem fg_dark_past {bg r i : ℝ} (h0 : 60 ≤ bg) (h1 : bg ≤ 100) (hi1 : 0 ≤ i)
    (hr : ratioOfTones bg i < r) : foregroundTone bg r ≤ i := by
  have hr1 : 1 ≤ r := (c17_range _ _).1.trans hr.le
  rw [fg_dark h0 h1 hr1]
  by_cases hd : darker bg r = -1
  · rw [(c20_decision bg r).2.2.2 hd]; exact hi1
  · rw [(c20_decision bg r).2.2.1 hd]
    obtain ⟨-, -, ha, hc⟩ := c19_sound bg r (by linarith) h1 hr1 hd
    by_contra hlt
    have := c17_monotone bg bg (darker bg r) i (by norm_num at ha; linarith) le_rfl (not_le.1 hlt).le
    rw [c17_symm bg (darker bg r)] at this
    linarith

theorem adjusted_above (dec : Bool) {bg r i : ℝ} (h0 : 0 ≤ bg) (h1 : bg ≤ 49) (hi : bg ≤ i) (hr : 1 ≤ r) :
    bg ≤ adjusted dec bg r i := by
  rcases adjusted_cases dec bg r i with ⟨e, -⟩ | ⟨e, -⟩ <;> rw [e]
  · exact hi
  · exact fg_light_above h0 h1 hr

theorem adjusted_below (dec : Bool) {bg r i : ℝ} (h0 : 60 ≤ bg) (h1 : bg ≤ 100) (hi : i ≤ bg) (hr : 1 ≤ r) :
    adjusted dec bg r i ≤ bg := by
  rcases adjusted_cases dec bg r i with ⟨e, -⟩ | ⟨e, -⟩ <;> rw [e]
  · exact hi
  · exact fg_dark_below h0 h1 hr

/-- Text drawn on the lightest of some dark surfaces is readable on all of them. -/
theorem readable_dark (dec : Bool) {top b r k i : ℝ} (h1 : top ≤ 49) (hb : 0 ≤ b) (hbt : b ≤ top) (hi : top ≤ i)
    (hk : k ≤ 4.53) (hr : k ≤ r) (hr1 : 1 ≤ r) : k ≤ ratioOfTones (adjusted dec top r i) b :=
  (adjusted_ge dec (hb.trans hbt) (by linarith) hk hr).trans
    (c17_monotone _ _ _ _ (adjusted_above dec (hb.trans hbt) h1 hi hr1) le_rfl hbt)

/-- Text drawn on the darkest of some light surfaces is readable on all of them. -/
theorem readable_light (dec : Bool) {top b r k i : ℝ} (h1 : 60 ≤ top) (hb : b ≤ 100) (hbt : top ≤ b) (hi : i ≤ top)
    (hk : k ≤ 4.53) (hr : k ≤ r) (hr1 : 1 ≤ r) : k ≤ ratioOfTones (adjusted dec top r i) b := by
  refine (adjusted_ge dec (i := i) (by linarith) (hbt.trans hb) hk hr).trans ?_
  rw [c17_symm, c17_symm _ b]
  exact c17_monotone _ _ _ _ (adjusted_below dec h1 (hbt.trans hb) hi hr1) hbt le_rfl

/-! ### Tone delta pairs that stay on one side of 50..60 -/

theorem fg_light_side {bg r i : ℝ} (h0 : 75 ≤ bg) (h1 : bg ≤ 87) (hi0 : 80 ≤ i) (hi1 : i ≤ 90) (hr1 : 1 ≤ r)
    (hr : r ≤ ratioOfTones bg i) : 50 ≤ foregroundTone bg r := by
  have hy75 := y_ge h0 (by norm_num)
  have hy80 := y_ge hi0 (by norm_num)
  have hy90 := y_le hi1 (by norm_num)
  have hy : yFromLstar (51 : ℝ) ≤ (yFromLstar bg + 5) / r - 5 := by
    rw [y_cube (by norm_num)]
    norm_num at hy75 hy80 hy90 ⊢
    rw [le_sub_iff_add_le, le_div_iff₀ (by linarith)]
    rcases le_total bg i with hle | hle
    · rw [c17_symm, ratioOfTones_of_le (clampTone_mono hle), clampTone_of_mem (by linarith) (by linarith),
        clampTone_of_mem (by linarith) (by linarith), le_div_iff₀ (by linarith)] at hr
      nlinarith
    · rw [ratioOfTones_of_le (clampTone_mono hle), clampTone_of_mem (by linarith) (by linarith),
        clampTone_of_mem (by linarith) (by linarith), le_div_iff₀ (by linarith)] at hr
      nlinarith
  have hl := c11_strictMono.2.monotone hy
  rw [c11_lstar_y_lstar] at hl
  have he := darker_eq bg r (by linarith) (by linarith) hr1
  have h04 : (0.4 : ℝ) = 2 / 5 := by norm_num
  rw [h04] at he
  rw [if_neg (by linarith)] at he
  rw [fg_dark (by linarith) (by linarith) hr1, (c20_decision bg r).2.2.1 (by rw [he]; linarith), he]
  linarith

theorem together_light (n f d : ℝ) (hs : n < 50 ∨ 50 ≤ f ∨ n < 60) :
    (avoidAwkward n f d (-1) true).1 < 50 ∨ 60 ≤ (avoidAwkward n f d (-1) true).2 := by
  have e49 : (49.0 : ℝ) = 49 := by norm_num
  have e50 : (50.0 : ℝ) = 50 := by norm_num
  have e60 : (60.0 : ℝ) = 60 := by norm_num
  have e0 : ¬ ((-1 : ℝ) > 0.0) := by norm_num
  simp only [avoidAwkward, e49, e50, e60, if_neg e0, if_true]
  by_cases c1 : 50 ≤ n ∧ n < 60
  · rw [if_pos c1]; left; norm_num
  · rw [if_neg c1]
    by_cases c2 : 50 ≤ f ∧ f < 60
    · rw [if_pos c2]; left; norm_num
    · rw [if_neg c2]
      rcases hs with hs | hs | hs
      · left; exact hs
      · right; by_contra hc; exact c2 ⟨hs, not_le.1 hc⟩
      · left; by_contra hc; exact c1 ⟨not_lt.1 hc, hs⟩

theorem together_dark (n f d : ℝ) (hs : f < 60 ∨ 50 ≤ n) :
    60 ≤ (avoidAwkward n f d 1 true).1 ∨ (avoidAwkward n f d 1 true).2 < 50 := by
  have e49 : (49.0 : ℝ) = 49 := by norm_num
  have e50 : (50.0 : ℝ) = 50 := by norm_num
  have e60 : (60.0 : ℝ) = 60 := by norm_num
  have e0 : (1 : ℝ) > 0.0 := by norm_num
  simp only [avoidAwkward, e49, e50, e60, if_pos e0, if_true]
  by_cases c1 : 50 ≤ n ∧ n < 60
  · rw [if_pos c1]; left; norm_num
  · rw [if_neg c1]
    by_cases c2 : 50 ≤ f ∧ f < 60
    · rw [if_pos c2]; left; norm_num
    · rw [if_neg c2]
      rcases hs with hs | hs
      · right; by_contra hc; exact c2 ⟨not_lt.1 hc, hs⟩
      · left; by_contra hc; exact c1 ⟨hs, not_le.1 hc⟩

/-- The tones the fixed roles ask for: lighter and darker one. -/
def FixedInitial (l d : ℝ) : Prop := (l = 90 ∧ d = 80) ∨ (l = 80 ∧ d = 70) ∨ (l = 40 ∧ d = 30)

/-- In a light scheme the tones of a fixed role and its dimmed version are on the same side of 50..60. -/
theorem side_light (dec : Bool) {bg k n f : ℝ} (h0 : 75 ≤ bg) (h1 : bg ≤ 87) (hk : 1 ≤ k) (hi : FixedInitial n f) :
    let r := pairTones dec bg k k n f 10 (-1) true
    r.1 < 50 ∨ 60 ≤ r.2 := by
  rw [pairTones_eq]
  have hn : 0 ≤ n ∧ n ≤ 100 := by rcases hi with ⟨rfl, -⟩ | ⟨rfl, -⟩ | ⟨rfl, -⟩ <;> norm_num
  have hf : 0 ≤ f ∧ f ≤ 100 := by rcases hi with ⟨-, rfl⟩ | ⟨-, rfl⟩ | ⟨-, rfl⟩ <;> norm_num
  have hN := adjusted_range dec bg k n hn
  have hF := adjusted_range dec bg k f hf
  have key : adjusted dec bg k f + 10 ≤ adjusted dec bg k n → 60 ≤ adjusted dec bg k n → 50 ≤ adjusted dec bg k f := by
    intro hd hge
    rcases adjusted_cases dec bg k n with ⟨en, -, hnk⟩ | ⟨en, hnr⟩ <;>
      rcases adjusted_cases dec bg k f with ⟨ef, hfd, hfk⟩ | ⟨ef, hfr⟩
    · rw [en] at hge; rw [ef]
      rcases hi with ⟨rfl, rfl⟩ | ⟨rfl, rfl⟩ | ⟨rfl, rfl⟩ <;> linarith
    · rw [ef]
      rw [en] at hge
      refine fg_light_side h0 h1 ?_ ?_ hk hnk <;>
        rcases hi with ⟨rfl, rfl⟩ | ⟨rfl, rfl⟩ | ⟨rfl, rfl⟩ <;> linarith
    · rw [ef]
      rcases hi with ⟨rfl, rfl⟩ | ⟨rfl, rfl⟩ | ⟨rfl, rfl⟩
      · norm_num
      · norm_num
      · rw [en] at hge
        rcases hnr with h | h
        · rw [h] at hfd; cases hfd
        · have := fg_dark_past (by linarith) (by linarith) (by norm_num) h
          linarith
    · rw [en, ef] at hd; linarith
  have hd10 : (0 : ℝ) ≤ 10 ∧ (10 : ℝ) ≤ 100 := by norm_num
  generalize adjusted dec bg k n = a at *
  generalize adjusted dec bg k f = b at *
  rcases spread_light a b 10 hN hF hd10 with ⟨e, h⟩ | ⟨e, h, -⟩ | ⟨e, h, -⟩ <;> simp only [e]
  · refine together_light _ _ _ ?_
    rcases lt_or_ge a 60 with h2 | h2
    · right; right; exact h2
    · right; left; exact key h h2
  · refine together_light _ _ _ ?_
    rcases lt_or_ge a 60 with h2 | h2
    · right; right; exact h2
    · right; left; linarith
  · exact together_light _ _ _ (Or.inl (by norm_num))

/-- In a dark scheme too. -/
theorem side_dark (dec : Bool) {bg k n f : ℝ} (h0 : 0 ≤ bg) (h1 : bg ≤ 34) (hk3 : 30 < bg → 3 ≤ k)
    (hi : FixedInitial f n) :
    let r := pairTones dec bg k k n f 10 1 true
    60 ≤ r.1 ∨ r.2 < 50 := by
  rw [pairTones_eq]
  have hf : 0 ≤ f ∧ f ≤ 100 := by rcases hi with ⟨rfl, -⟩ | ⟨rfl, -⟩ | ⟨rfl, -⟩ <;> norm_num
  have hn : 0 ≤ n ∧ n ≤ 100 := by rcases hi with ⟨-, rfl⟩ | ⟨-, rfl⟩ | ⟨-, rfl⟩ <;> norm_num
  have hN := adjusted_range dec bg k n hn
  have hF := adjusted_range dec bg k f hf
  have key : adjusted dec bg k n + 10 ≤ adjusted dec bg k f → 60 ≤ adjusted dec bg k f → 50 ≤ adjusted dec bg k n := by
    intro hd hge
    rcases adjusted_cases dec bg k n with ⟨en, hnd, hnk⟩ | ⟨en, hnr⟩ <;>
      rcases adjusted_cases dec bg k f with ⟨ef, hfd, hfk⟩ | ⟨ef, hfr⟩
    · rw [ef] at hge; rw [en]
      rcases hi with ⟨rfl, rfl⟩ | ⟨rfl, rfl⟩ | ⟨rfl, rfl⟩ <;> linarith
    · rw [en]
      rcases hi with ⟨rfl, rfl⟩ | ⟨rfl, rfl⟩ | ⟨rfl, rfl⟩
      · norm_num
      · norm_num
      · exfalso
        rcases hfr with h | h
        · rw [h] at hnd; cases hnd
        · rcases le_or_gt bg 30 with hb | hb
          · have := c17_monotone 30 40 bg bg hb (by norm_num) le_rfl
            rw [c17_symm, c17_symm 40] at this
            linarith
          · have h3 := hk3 hb
            have : ratioOfTones bg 30 < 3 := by
              refine ratio_lt hb.le (by norm_num) (by linarith) ?_
              have hy := y_le h1 (by norm_num)
              rw [y_cube (show (8 : ℝ) < 30 by norm_num)]
              norm_num at hy ⊢
              linarith
            linarith
    · rw [en]
      rw [ef] at hge
      rcases hnr with h | h
      · rw [h] at hfd; cases hfd
      · have := fg_light_past h0 (by linarith) hn.2 h
        refine le_trans ?_ this
        rcases hi with ⟨rfl, rfl⟩ | ⟨rfl, rfl⟩ | ⟨rfl, rfl⟩ <;> linarith
    · rw [en, ef] at hd; linarith
  have hd10 : (0 : ℝ) ≤ 10 ∧ (10 : ℝ) ≤ 100 := by norm_num
  generalize adjusted dec bg k n = a at *
  generalize adjusted dec bg k f = b at *
  rcases spread_dark a b 10 hN hF hd10 with ⟨e, h⟩ | ⟨e, h, -⟩ | ⟨e, h, -⟩ <;> simp only [e]
  · refine together_dark _ _ _ ?_
    rcases lt_or_ge b 60 with h2 | h2
    · left; exact h2
    · right; exact key h h2
  · refine together_dark _ _ _ ?_
    rcases lt_or_ge a 50 with h2 | h2
    · left; linarith
    · right; exact h2
  · exact together_dark _ _ _ (Or.inr (by norm_num))

/-! ### Text on two backgrounds -/

/-- Text on two backgrounds on the same side of 50..60. -/
theorem dual_ge {d f a r k : ℝ} (hd0 : 0 ≤ d) (hf1 : f ≤ 100) (hdf : d + 10 ≤ f) (hs : 60 ≤ d ∨ f < 50)
    (hk : k ≤ 4.48) (hkr : k ≤ r) (hr : 3 ≤ r) :
    k ≤ ratioOfTones (dualTone d f a r) d ∧ k ≤ ratioOfTones (dualTone d f a r) f := by
  have e0 : (0.0 : ℝ) = 0 := by norm_num
  have e1 : (100.0 : ℝ) = 100 := by norm_num
  have em : (-1.0 : ℝ) = -1 := by norm_num
  have hle : d ≤ f := by linarith
  simp only [dualTone, fl_fmax, fl_fmin, max_eq_right hle, min_eq_left hle, e0, e1, em]
  by_cases hc : ratioOfTones f a ≥ r ∧ ratioOfTones d a ≥ r
  · rw [if_pos hc, c17_symm a, c17_symm a]
    exact ⟨hkr.trans hc.2, hkr.trans hc.1⟩
  · rw [if_neg hc]
    rcases hs with hs | hs
    · have hp : (tonePrefersLightForeground d || tonePrefersLightForeground f) = false := by
        rw [prefers_of_ge (show (59.5 : ℝ) ≤ d by norm_num; linarith),
          prefers_of_ge (show (59.5 : ℝ) ≤ f by norm_num; linarith)]
        rfl
      have hl : lighter f r = -1 := by
        by_contra h
        have hlr := (c18_sound f r (by linarith) hf1 (by linarith) h)
        have h2 := hlr.2.2.2.trans (c17_monotone _ 100 _ _ (by have := hlr.2.2.1; norm_num at this; linarith) hlr.2.1 le_rfl)
        rw [ratio_white (by linarith) hf1] at h2
        have hy := y_ge (show 70 ≤ f by linarith) (by norm_num)
        norm_num at hy
        rw [le_div_iff₀ (by linarith)] at h2
        nlinarith
      have hneq : ((-1 : ℝ) != -1) = false := by simp
      simp only [hp, hl, Bool.false_eq_true, if_false, hneq, List.nil_append]
      by_cases hdk : darker d r = -1
      · have hlt : (-1 : ℝ) < 0 := by norm_num
        simp only [hdk, hneq, Bool.false_eq_true, if_false, if_pos hlt]
        have hy := y_ge hs (by norm_num)
        norm_num at hy hk
        have hmono := c17_monotone d f 0 0 hd0 hle le_rfl
        rw [c17_symm, c17_symm f] at hmono
        have : k ≤ ratioOfTones 0 d := by
          rw [ratio_black hd0 (by linarith), le_div_iff₀ (by norm_num)]
          linarith
        exact ⟨this, this.trans hmono⟩
      · have hneq2 : (darker d r != -1) = true := by simpa using hdk
        simp only [hneq2, if_true]
        obtain ⟨-, -, h3, h4⟩ := c19_sound d r hd0 (by linarith) (by linarith) hdk
        have hmono := c17_monotone d f (darker d r) (darker d r) (by norm_num at h3; linarith) hle le_rfl
        rw [c17_symm, c17_symm f] at hmono
        exact ⟨hkr.trans h4, hkr.trans (h4.trans hmono)⟩
    · have hp : (tonePrefersLightForeground d || tonePrefersLightForeground f) = true := by
        rw [prefers_of_lt hd0 (by norm_num; linarith)]; rfl
      simp only [hp, if_true]
      have white : k ≤ ratioOfTones 100 f := by
        rw [ratio_white (by linarith) hf1]
        have hy := y_le hs.le (by norm_num)
        have hy0 := y_range (show 0 ≤ f by linarith) hf1
        norm_num at hy hk
        rw [le_div_iff₀ (by linarith [hy0.1])]
        nlinarith [hy0.1]
      by_cases hl : lighter f r = -1
      · have hlt : (-1 : ℝ) < 0 := by norm_num
        simp only [hl, if_pos hlt]
        exact ⟨white.trans (c17_monotone _ _ _ _ hf1 le_rfl hle), white⟩
      · obtain ⟨h1, -, h3, h4⟩ := c18_sound f r (by linarith) hf1 (by linarith) hl
        rw [if_neg (not_lt.2 h1)]
        have hmono := c17_monotone (lighter f r) (lighter f r) f d (by norm_num at h3; linarith) le_rfl hle
        exact ⟨hkr.trans (h4.trans hmono), hkr.trans h4⟩

end Mcu.Lemmas
