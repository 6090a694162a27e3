import Verif.Lemmas.F64ScoreSelect

/-! Scoring a population map whose counts are all zero, in IEEE-754 binary64. -/

namespace Mcu.Score

open Mcu.Ieee Mcu.Lemmas Mcu.Props Mcu.Props.Binary64 MathUtils Mcu.Spec

variable {L : Libm}

local notation "𝔻" => F64 L

/-- Not a number. -/
def nan64 (L : Libm) : F64 L := Dbl.nan

/-- Zero. -/
def zero64 (L : Libm) : F64 L := Dbl.zero false

theorem add_nan (x : 𝔻) : x + nan64 L = nan64 L := by
  show Dbl.add x Dbl.nan = Dbl.nan
  cases x <;> rfl

theorem nan_add (x : 𝔻) : nan64 L + x = nan64 L := by
  show Dbl.add Dbl.nan x = Dbl.nan
  cases x <;> rfl

theorem zero_div_zero : (Fl.ofInt 0 / Fl.ofInt 0 : 𝔻) = nan64 L := by
  have h : (Fl.ofInt 0 : 𝔻) = zero64 L := by
    show Dbl.ofReal false ((0 : Int) : ℝ) = Dbl.zero false
    have h0 : rnd ((0 : Int) : ℝ) = 0 := by rw [Int.cast_zero]; exact rnd_zero
    unfold Dbl.ofReal
    rw [dif_pos h0]
  rw [h]
  rfl

theorem excited_fold_nan (q : Nat → 𝔻) (hq : ∀ m, q m = nan64 L) (n : Nat) (hn : n < 360) : ∀ (ms : List Nat) (acc : List 𝔻), acc.length = 360 →
    (acc.getD n 0.0 = nan64 L ∨ ∃ m ∈ ms, Neighbours n m) →
    (ms.foldl (fun acc m => spread acc m (q m)) acc).getD n 0.0 = nan64 L
  | [], acc, _, h => by
    rcases h with h | ⟨m, h, -⟩
    · exact h
    · cases h
  | m :: ms, acc, hl, h => by
    rw [List.foldl_cons]
    obtain ⟨s1, s2⟩ := spread_any acc m (q m) hl
    refine excited_fold_nan q hq n hn ms _ s1 ?_
    rw [s2 n hn, hq]
    by_cases hN : Neighbours n m
    · rw [if_pos hN]; exact .inl (add_nan _)
    · rw [if_neg hN]
      rcases h with h | ⟨m', h1, h2⟩
      · exact .inl h
      · rcases List.mem_cons.1 h1 with rfl | h1
        · exact absurd h2 hN
        · exact .inr ⟨m', h1, h2⟩

/-- With no pixel at all every share is NaN. -/
theorem excited_nan (h : Histogram 𝔻) (hs : h.populationSum = 0) (hp : ∀ m : Nat, h.huePopulation.getD m 0 = 0) (n : Nat) (hn : n < 360) :
    (excitedProportions h).getD n 0.0 = nan64 L := by
  unfold excitedProportions
  refine excited_fold_nan (fun m => Fl.ofInt (h.huePopulation.getD m 0) / Fl.ofInt h.populationSum) ?_ n hn _ _ List.length_replicate
    (.inr ⟨n, List.mem_range.2 hn, ?_⟩)
  · intro m
    rw [hs, hp]
    exact zero_div_zero
  · unfold Neighbours
    omega

theorem keeps_nan (hS : L.Sound) (h : Histogram 𝔻) (hs : h.populationSum = 0) (hp : ∀ m : Nat, h.huePopulation.getD m 0 = 0) (c : Int) :
    keeps true (excitedProportions h) (Hct.fromInt c : Hct 𝔻) = true ↔ 5 ≤ chromaC L c := by
  have hn : (sanitizeDegreesInt (Fl.toI64 (Fl.round (Hct.fromInt c : Hct 𝔻).getHue))).toNat < 360 := by
    rw [sanitize_int_eq]; omega
  have hP : proportionOf (excitedProportions h) (Hct.fromInt c : Hct 𝔻) = nan64 L := excited_nan h hs hp _ hn
  obtain ⟨iC, -, -⟩ := chromaC_range hS c
  have i5 : Is (5.0 : 𝔻) 5 := by simpa using lit (L := L) 50 1 true 5 (by norm_num) (by norm_num)
  have hle : ¬ nan64 L ≤ (0.01 : 𝔻) := fun h => by have h1 : true = false := h.1; cases h1
  unfold keeps
  rw [hP]
  simp only [Bool.true_and, Bool.not_eq_true', Bool.or_eq_false_iff, decide_eq_false_iff_not, hle, not_false_eq_true, and_true]
  rw [Is.lt_iff iC i5, not_lt]

end Mcu.Score
