import Verif.Lemmas.Real
import Verif.Model.Material
import Verif.Props.Solver
import Verif.Lemmas.Chroma

/-! The search of `secondary_container` for a tone that can show a chroma. -/

namespace Mcu.Lemmas

open Material Props

/-- `n` tones away from the end of the search: black if it goes down, white if it goes up. -/
noncomputable def position (down : Bool) (n : ℝ) : ℝ := if down then n else 100 - n

/-- The chroma at the end of the search. -/
noncomputable def endChroma (hue chroma : ℝ) (down : Bool) : ℝ :=
  (Hct.fromHct hue chroma (position down 0)).getChroma

theorem end_constant (hue chroma : ℝ) (down : Bool) (n : ℝ) (h : n ≤ 0) :
    (Hct.fromHct hue chroma (position down n)).getChroma = endChroma hue chroma down := by
  unfold endChroma Hct.fromHct position
  cases down
  · simp only [Bool.false_eq_true, if_false]
    rw [(c24_black_white hue chroma (100 - n)).2 (by linarith), (c24_black_white hue chroma (100 - 0)).2 (by norm_num)]
  · simp only [if_true]
    rw [(c24_black_white hue chroma n).1 h, (c24_black_white hue chroma 0).1 le_rfl]

/-- The state of a search that will never end. -/
structure Stuck (hue chroma : ℝ) (down : Bool) (peak closest : ℝ) : Prop where
  peak : peak ≤ endChroma hue chroma down
  far : 0.4 ≤ |endChroma hue chroma down - chroma|
  closest : |closest - chroma| ≤ |endChroma hue chroma down - chroma|

theorem position_step (down : Bool) (n : ℝ) :
    position down n + (if down then -1.0 else 1.0) = position down (n - 1) := by
  have e : (1.0 : ℝ) = 1 := by norm_num
  cases down <;> simp only [position, Bool.false_eq_true, if_false, if_true, e] <;> ring

theorem stuck_forever (hue chroma : ℝ) (down : Bool) (fuel : Nat) : ∀ (n peak : ℝ) (closest : Hct ℝ), n ≤ 0 →
    Stuck hue chroma down peak closest.getChroma → closest.getChroma < chroma →
    chromaLoop hue chroma down fuel (position down n) peak closest = none := by
  induction fuel with
  | zero => intros; rfl
  | succ k ih =>
    intro n peak closest hn hs hc
    have habs (x : ℝ) : Fl.abs x = |x| := rfl
    rw [chromaLoop, if_pos hc]
    simp only [position_step, end_constant hue chroma down (n - 1) (by linarith), habs]
    rw [if_neg (not_lt.2 hs.peak), if_neg (not_lt.2 hs.far), if_neg (not_lt.2 hs.closest)]
    refine ih (n - 1) _ closest (by linarith) ⟨?_, hs.far, hs.closest⟩ hc
    rw [fl_fmax]; exact max_le hs.peak le_rfl

theorem chromaLoop_range (hue chroma : ℝ) (down : Bool) (fuel : Nat) : ∀ (n : Nat) (peak : ℝ) (closest : Hct ℝ) (t : ℝ),
    (n = 0 → Stuck hue chroma down peak closest.getChroma) →
    chromaLoop hue chroma down fuel (position down n) peak closest = some t → ∃ m : Nat, m ≤ n ∧ t = position down m := by
  induction fuel with
  | zero => intro n peak closest t _ h; cases h
  | succ k ih =>
    intro n peak closest t h0 h
    by_cases hc : closest.getChroma < chroma
    · rcases Nat.eq_zero_or_pos n with hn | hn
      · have hst := stuck_forever hue chroma down (k + 1) 0 peak closest le_rfl (h0 hn) hc
        rw [hn, Nat.cast_zero, hst] at h; cases h
      · obtain ⟨m, rfl⟩ : ∃ m, n = m + 1 := ⟨n - 1, by omega⟩
        have habs (x : ℝ) : Fl.abs x = |x| := rfl
        have e4 : (0.4 : ℝ) = 2 / 5 := by norm_num
        have hcast : ((m + 1 : Nat) : ℝ) - 1 = m := by push_cast; ring
        rw [chromaLoop, if_pos hc] at h
        simp only [position_step, hcast, habs, e4] at h
        by_cases h1 : peak > (Hct.fromHct hue chroma (position down m)).getChroma
        · rw [if_pos h1, Option.some.injEq] at h
          exact ⟨m, by omega, h.symm⟩
        · rw [if_neg h1] at h
          by_cases h2 : |(Hct.fromHct hue chroma (position down m)).getChroma - chroma| < 2 / 5
          · rw [if_pos h2, Option.some.injEq] at h
            exact ⟨m, by omega, h.symm⟩
          · rw [if_neg h2] at h
            refine Exists.imp (fun q hq => ⟨hq.1.trans (Nat.le_succ m), hq.2⟩) (ih m _ _ t (fun hm => ?_) h)
            · subst hm
              have he : (Hct.fromHct hue chroma (position down ((0 : Nat) : ℝ))).getChroma = endChroma hue chroma down := by
                rw [Nat.cast_zero]; rfl
              rw [he] at h1 h2 ⊢
              refine ⟨by rw [fl_fmax]; exact max_le (not_lt.1 h1) le_rfl, by rw [e4]; exact not_lt.1 h2, ?_⟩
              split
              · rw [he]
              · next h3 => exact not_lt.1 h3
    · rw [chromaLoop, if_neg hc, Option.some.injEq] at h
      exact ⟨n, le_rfl, h.symm⟩

/-- Downwards from tone 90 the search answers with a tone from 0 to 90, upwards from tone 30 with one from 30 to 100. -/
theorem search_range (fuel : Nat) (hue chroma t : ℝ) :
    (findDesiredChromaByTone fuel hue chroma 90 true = some t → 0 ≤ t ∧ t ≤ 90) ∧
    (findDesiredChromaByTone fuel hue chroma 30 false = some t → 30 ≤ t ∧ t ≤ 100) := by
  constructor
  · intro h
    simp only [findDesiredChromaByTone] at h
    split at h
    · have e : (90 : ℝ) = position true ((90 : Nat) : ℝ) := by simp [position]
      rw [e] at h
      obtain ⟨m, hm, rfl⟩ := chromaLoop_range hue chroma true fuel 90 _ _ t (by omega) h
      have : (m : ℝ) ≤ 90 := by exact_mod_cast hm
      simp only [position, if_true]
      exact ⟨Nat.cast_nonneg m, this⟩
    · cases h; norm_num
  · intro h
    simp only [findDesiredChromaByTone] at h
    split at h
    · have e : (30 : ℝ) = position false ((70 : Nat) : ℝ) := by simp [position]; norm_num
      rw [e] at h
      obtain ⟨m, hm, rfl⟩ := chromaLoop_range hue chroma false fuel 70 _ _ t (by omega) h
      have : (m : ℝ) ≤ 70 := by exact_mod_cast hm
      have h0 : (0 : ℝ) ≤ m := Nat.cast_nonneg m
      simp only [position, Bool.false_eq_true, if_false]
      constructor <;> linarith
    · cases h; norm_num

/-- A search that has seen more chroma than there is at its end comes to an end. -/
theorem chromaLoop_ends (hue chroma : ℝ) (down : Bool) (n : Nat) : ∀ (peak : ℝ) (closest : Hct ℝ) (fuel : Nat),
    n < fuel → endChroma hue chroma down < peak → 0 < n →
    ∃ t, chromaLoop hue chroma down fuel (position down n) peak closest = some t := by
  induction n with
  | zero => intro peak closest fuel _ _ h; exact absurd h (lt_irrefl 0)
  | succ m ih =>
    intro peak closest fuel hf hp _
    obtain ⟨k, rfl⟩ : ∃ k, fuel = k + 1 := ⟨fuel - 1, by omega⟩
    have hcast : ((m + 1 : Nat) : ℝ) - 1 = m := by push_cast; ring
    by_cases hc : closest.getChroma < chroma
    · rw [chromaLoop, if_pos hc]
      simp only [position_step, hcast]
      by_cases h1 : peak > (Hct.fromHct hue chroma (position down m)).getChroma
      · rw [if_pos h1]; exact ⟨_, rfl⟩
      · rw [if_neg h1]
        split
        · exact ⟨_, rfl⟩
        · rcases Nat.eq_zero_or_pos m with hm | hm
          · subst hm
            exfalso
            rw [Nat.cast_zero] at h1
            exact h1 hp
          · refine ih _ _ k (by omega) ?_ hm
            rw [fl_fmax]; exact lt_max_of_lt_left hp
    · rw [chromaLoop, if_neg hc]; exact ⟨_, rfl⟩

/-- More rounds do not change the answer. -/
theorem chromaLoop_mono {F : Type} [Fl F] (hue chroma : F) (down : Bool) (m : Nat) : ∀ (n : Nat) (a p : F) (c : Hct F) (t : F),
    m ≤ n → chromaLoop hue chroma down m a p c = some t → chromaLoop hue chroma down n a p c = some t := by
  induction m with
  | zero => intro n a p c t _ h; cases h
  | succ k ih =>
    intro n a p c t hn h
    obtain ⟨j, rfl⟩ : ∃ j, n = j + 1 := ⟨n - 1, by omega⟩
    by_cases hc : c.getChroma < chroma
    · rw [chromaLoop, if_pos hc] at h ⊢
      simp only at h ⊢
      generalize a + (if down = true then (-1.0 : F) else 1.0) = b at h ⊢
      split at h
      · next h1 => rw [if_pos h1]; exact h
      · next h1 =>
        rw [if_neg h1]
        split at h
        · next h2 => rw [if_pos h2]; exact h
        · next h2 => rw [if_neg h2]; exact ih j _ _ _ t (by omega) h
    · rw [chromaLoop, if_neg hc] at h ⊢; exact h

theorem search_mono {F : Type} [Fl F] {m n : Nat} (h : m ≤ n) (hue chroma tone : F) (down : Bool) (t : F)
    (ht : findDesiredChromaByTone m hue chroma tone down = some t) :
    findDesiredChromaByTone n hue chroma tone down = some t := by
  unfold findDesiredChromaByTone at ht ⊢
  simp only at ht ⊢
  split at ht
  · next h1 => rw [if_pos h1]; exact chromaLoop_mono _ _ _ m n _ _ _ t h ht
  · next h1 => rw [if_neg h1]; exact ht

theorem endChroma_down (hue chroma : ℝ) : endChroma hue chroma true = 0 := by
  unfold endChroma Hct.fromHct position
  simp only [if_true]
  rw [(c24_black_white hue chroma 0).1 le_rfl]
  exact chroma_black _ (by decide) (by decide) (by decide)

theorem endChroma_up (hue chroma : ℝ) : endChroma hue chroma false = (Hct.fromInt 0xFFFFFFFF : Hct ℝ).getChroma := by
  unfold endChroma Hct.fromHct position
  simp only [Bool.false_eq_true, if_false]
  rw [(c24_black_white hue chroma (100 - 0)).2 (by norm_num)]

/-- Downwards the search ends unless the colour it starts from is black. -/
theorem search_down_ends (hue chroma : ℝ) (h : 0 < (Hct.fromHct hue chroma 90).getTone) :
    (findDesiredChromaByTone 91 hue chroma 90 true).isSome := by
  simp only [findDesiredChromaByTone]
  split
  · have e : (90 : ℝ) = position true ((90 : Nat) : ℝ) := by simp [position]
    have hp : endChroma hue chroma true < (Hct.fromHct hue chroma 90).getChroma := by
      rw [endChroma_down]
      refine chroma_pos _ (fun hz => ?_)
      have := ((c15_extremes (HctSolver.solveToInt hue chroma (90 : ℝ))).1).2 (by
        simp only [ColorUtils.redFromArgb, ColorUtils.greenFromArgb, ColorUtils.blueFromArgb] at hz; omega)
      have h : 0 < (ColorUtils.lstarFromArgb (HctSolver.solveToInt hue chroma (90 : ℝ)) : ℝ) := h
      linarith
    obtain ⟨t, ht⟩ := chromaLoop_ends hue chroma true 90 _ (Hct.fromHct hue chroma 90) 91 (by norm_num) hp (by norm_num)
    rw [← e] at ht
    rw [ht]; rfl
  · rfl

/-- Upwards the search ends if the colour it starts from has more chroma than white. -/
theorem search_up_ends (hue chroma : ℝ)
    (h : (Hct.fromInt 0xFFFFFFFF : Hct ℝ).getChroma < (Hct.fromHct hue chroma 30).getChroma) :
    (findDesiredChromaByTone 71 hue chroma 30 false).isSome := by
  simp only [findDesiredChromaByTone]
  split
  · have e : (30 : ℝ) = position false ((70 : Nat) : ℝ) := by simp [position]; norm_num
    obtain ⟨t, ht⟩ := chromaLoop_ends hue chroma false 70 _ (Hct.fromHct hue chroma 30) 71 (by norm_num)
      (by rw [endChroma_up]; exact h) (by norm_num)
    rw [← e] at ht
    rw [ht]; rfl
  · rfl

end Mcu.Lemmas
