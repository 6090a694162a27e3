import Verif.Model.Score
import Verif.Lemmas.Real
import Verif.Props.Angles
import Verif.Props.Cam
import Verif.Spec.Score
import Verif.Lemmas.Wsmeans
import Mathlib.Algebra.BigOperators.Group.List.Basic

/-! Lemmas for scoring. -/

namespace Mcu.Score

open MathUtils Mcu.Spec Mcu.Props

/-! ### Selection, for any arithmetic -/

section anyArithmetic

variable {F : Type} [Fl F]

/-- One step of the selection. -/
def pick (d : Int) (chosen : List (Hct F)) (h : Hct F) : List (Hct F) :=
  if duplicateHue chosen h d then chosen else chosen ++ [h]

/-- The selection without the limit on the number of colours. -/
def pickAll (d : Int) (l : List (ScoredHct F)) (chosen : List (Hct F)) : List (Hct F) :=
  (l.map ScoredHct.hct).foldl (pick d) chosen

theorem pick_prefix (d : Int) (chosen : List (Hct F)) (h : Hct F) : chosen <+: pick d chosen h := by
  unfold pick; split
  · exact List.prefix_refl _
  · exact List.prefix_append _ _

theorem pickAll_prefix (d : Int) (l : List (ScoredHct F)) (chosen : List (Hct F)) : chosen <+: pickAll d l chosen := by
  unfold pickAll
  induction l generalizing chosen with
  | nil => exact List.prefix_refl _
  | cons e rest ih => exact (pick_prefix d chosen e.hct).trans (ih _)

theorem chooseLoop_eq (desired d : Int) (l : List (ScoredHct F)) : ∀ chosen : List (Hct F),
    ((chosen.length : Int) < desired ∨ chosen = []) →
    chooseLoop desired d l chosen = (pickAll d l chosen).take (max 1 desired).toNat := by
  induction l with
  | nil =>
    intro chosen h
    show chosen = chosen.take _
    rw [List.take_of_length_le]
    rcases h with h | rfl
    · omega
    · simp
  | cons e rest ih =>
    intro chosen h
    have hstep : chooseLoop desired d (e :: rest) chosen =
        if ((pick d chosen e.hct).length : Int) ≥ desired then pick d chosen e.hct
        else chooseLoop desired d rest (pick d chosen e.hct) := rfl
    have hall : pickAll d (e :: rest) chosen = pickAll d rest (pick d chosen e.hct) := rfl
    have hlen : (pick d chosen e.hct).length ≤ chosen.length + 1 := by
      unfold pick; split <;> simp
    rw [hstep, hall]
    split_ifs with hd
    · have hl : (pick d chosen e.hct).length = (max 1 desired).toNat := by
        rcases h with h | rfl
        · omega
        · have : (pick d [] e.hct).length = 1 := rfl
          omega
      have hp := pickAll_prefix d rest (pick d chosen e.hct)
      rw [← hl]
      exact List.prefix_iff_eq_take.1 hp
    · exact ih _ (Or.inl (by omega))

theorem chooseRounds_eq (desired : Int) (sorted : List (ScoredHct F)) (n : Nat) : ∀ chosen : List (Hct F),
    chooseRounds desired sorted (n + 1) chosen = chooseRounds desired sorted (n + 1) [] := by
  intro chosen; rfl

/-- The spacing found by the rounds. -/
theorem chooseRounds_ok (desired : Int) (sorted : List (ScoredHct F)) (n : Nat) (chosen : List (Hct F)) :
    ∃ d : Int, 15 ≤ d ∧ d ≤ n + 15 ∧
      chooseRounds desired sorted (n + 1) chosen = (pickAll d sorted []).take (max 1 desired).toNat ∧
      (d = 15 ∨ desired ≤ (pickAll d sorted []).length) ∧
      ∀ d' : Int, d < d' → d' ≤ n + 15 → ((pickAll d' sorted []).length : Int) < desired := by
  induction n generalizing chosen with
  | zero =>
    refine ⟨15, by omega, by omega, ?_, Or.inl rfl, fun d' h1 h2 => by omega⟩
    have he := chooseLoop_eq desired 15 sorted [] (Or.inr rfl)
    show (if _ then _ else chooseRounds desired sorted 0 _) = _
    simp only [chooseRounds, ite_self]
    exact he
  | succ n ih =>
    have he := chooseLoop_eq desired ((n + 1 : Nat) + 15) sorted [] (Or.inr rfl)
    have hstep : chooseRounds desired sorted (n + 1 + 1) chosen =
        if ((chooseLoop desired ((n + 1 : Nat) + 15) sorted []).length : Int) ≥ desired
        then chooseLoop desired ((n + 1 : Nat) + 15) sorted []
        else chooseRounds desired sorted (n + 1) (chooseLoop desired ((n + 1 : Nat) + 15) sorted []) := rfl
    rw [hstep]
    split_ifs with hd
    · refine ⟨(n + 1 : Nat) + 15, by omega, by omega, he, Or.inr ?_, fun d' h1 h2 => by omega⟩
      rw [he, List.length_take] at hd
      omega
    · obtain ⟨d, d1, d2, d3, d4, d5⟩ := ih (chooseLoop desired ((n + 1 : Nat) + 15) sorted [])
      refine ⟨d, d1, by omega, d3, d4, ?_⟩
      intro d' h1 h2
      by_cases hd' : d' = (n + 1 : Nat) + 15
      · subst hd'
        rw [he, List.length_take] at hd
        omega
      · exact d5 d' h1 (by omega)

/-- The selected colours come from the list, in its order. -/
theorem pickAll_sublist (d : Int) (l : List (ScoredHct F)) (chosen : List (Hct F)) :
    ∃ s, pickAll d l chosen = chosen ++ s ∧ s.Sublist (l.map ScoredHct.hct) := by
  unfold pickAll
  induction l generalizing chosen with
  | nil => exact ⟨[], by simp, by simp⟩
  | cons e rest ih =>
    obtain ⟨s, h1, h2⟩ := ih (pick d chosen e.hct)
    rw [List.map_cons, List.foldl_cons, h1]
    unfold pick
    split
    · exact ⟨s, rfl, h2.cons _⟩
    · exact ⟨e.hct :: s, by simp, h2.cons_cons _⟩

theorem pickAll_ne_nil (d : Int) (e : ScoredHct F) (l : List (ScoredHct F)) : pickAll d (e :: l) [] ≠ [] := by
  have h := pickAll_prefix d l [e.hct]
  have he : pickAll d (e :: l) [] = pickAll d l [e.hct] := rfl
  rw [he]
  intro h0
  rw [h0] at h
  have := h.length_le
  simp at this

/-! ### The histogram -/

theorem histogram_colors (entries : List (Int × Int)) : ∀ (h h' : Histogram F), entries.foldlM addColor h = some h' →
    h'.colorsHct = h.colorsHct ++ entries.map fun e => Hct.fromInt e.1 := by
  induction entries with
  | nil => intro h h' he; simp only [List.foldlM_nil, Option.pure_def, Option.some.injEq] at he; simp [he]
  | cons e rest ih =>
    intro h h' he
    rw [List.foldlM_cons] at he
    cases ha : addColor h e with
    | none => rw [ha] at he; cases he
    | some h1 =>
      rw [ha] at he
      have h2 := ih h1 h' he
      unfold addColor at ha
      simp only at ha
      split_ifs at ha
      have h3 := congrArg Histogram.colorsHct (Option.some.inj ha)
      simp only at h3
      rw [h2, ← h3]
      simp

end anyArithmetic

/-! ### Exact arithmetic -/

theorem hueOf_range (c : Int) : 0 ≤ hueOf c ∧ hueOf c < 360 := hue_range c

theorem floor_hue (c : Int) : (Fl.toI64 (Fl.floor (hueOf c))).toNat < 360 ∧
    (((Fl.toI64 (Fl.floor (hueOf c))).toNat : Nat) : Int) = ⌊hueOf c⌋ := by
  obtain ⟨h0, h1⟩ := hueOf_range c
  have f0 : 0 ≤ ⌊hueOf c⌋ := Int.floor_nonneg.2 h0
  have f1 : ⌊hueOf c⌋ < 360 := Int.floor_lt.2 (by exact_mod_cast h1)
  rw [fl_floor, fl_toI64, realTrunc_intCast, satI64_of_mem ⟨by omega, by omega⟩]
  omega

/-- The population of a whole degree of hue. -/
noncomputable def popAt (entries : List (Int × Int)) (m : Int) : Int :=
  (entries.map fun e => if ⌊hueOf e.1⌋ = m then e.2 else 0).sum

theorem addColor_eq (h : Histogram ℝ) (e : Int × Int) : addColor h e =
    some { colorsHct := h.colorsHct ++ [Hct.fromInt e.1]
           huePopulation := h.huePopulation.modify (Fl.toI64 (Fl.floor (hueOf e.1))).toNat (· + e.2)
           populationSum := h.populationSum + e.2 } := if_pos (floor_hue e.1).1

theorem histogram_fold (entries : List (Int × Int)) : ∀ h : Histogram ℝ, h.huePopulation.length = 360 →
    ∃ h', entries.foldlM addColor h = some h' ∧ h'.huePopulation.length = 360 ∧
      h'.populationSum = h.populationSum + population entries ∧
      ∀ m : Nat, m < 360 → h'.huePopulation.getD m 0 = h.huePopulation.getD m 0 + popAt entries m := by
  induction entries with
  | nil => intro h hl; exact ⟨h, rfl, hl, by simp [population], by simp [popAt]⟩
  | cons e rest ih =>
    intro h hl
    rw [List.foldlM_cons, addColor_eq]
    obtain ⟨h', i1, i2, i3, i4⟩ := ih
      { colorsHct := h.colorsHct ++ [Hct.fromInt e.1]
        huePopulation := h.huePopulation.modify (Fl.toI64 (Fl.floor (hueOf e.1))).toNat (· + e.2)
        populationSum := h.populationSum + e.2 } (by rw [List.length_modify]; exact hl)
    refine ⟨h', i1, i2, ?_, ?_⟩
    · rw [i3]; simp only [population, List.map_cons, List.sum_cons]; ring
    · intro m hm
      rw [i4 m hm]
      simp only
      have hp : popAt (e :: rest) m = (if ⌊hueOf e.1⌋ = (m : Int) then e.2 else 0) + popAt rest m := by
        simp only [popAt, List.map_cons, List.sum_cons]
      rw [hp]
      obtain ⟨f1, f2⟩ := floor_hue e.1
      by_cases hc : ⌊hueOf e.1⌋ = (m : Int)
      · have : (Fl.toI64 (Fl.floor (hueOf e.1))).toNat = m := by omega
        rw [if_pos hc, this, QuantizerWsmeans.getD_modify_self _ _ _ _ (by omega)]
        ring
      · rw [if_neg hc, QuantizerWsmeans.getD_modify_ne _ _ _ _ _ (by omega)]
        ring

/-- The histogram of a population map. -/
theorem histogram_ok (entries : List (Int × Int)) : ∃ h : Histogram ℝ, histogram entries = some h ∧
    h.colorsHct = entries.map (fun e => Hct.fromInt e.1) ∧ h.populationSum = population entries ∧
    ∀ m : Nat, m < 360 → h.huePopulation.getD m 0 = popAt entries m := by
  obtain ⟨h, h1, -, h3, h4⟩ := histogram_fold entries
    { colorsHct := [], huePopulation := List.replicate 360 0, populationSum := 0 } List.length_replicate
  refine ⟨h, h1, ?_, by rw [h3]; exact zero_add _, ?_⟩
  · have := histogram_colors entries _ h h1
    simpa using this
  · intro m hm
    rw [h4 m hm]
    simp only
    rw [List.getD_eq_getElem?_getD, List.getElem?_replicate, if_pos hm]
    exact zero_add _

/-! ### Shares -/

theorem sum_indicator {α : Type} [AddCommMonoid α] (p : α) (j : Int) (hj : 0 ≤ j) (m : Nat) :
    ((List.range m).map fun (k : Nat) => if (k : Int) = j then p else 0).sum = if j < m then p else 0 := by
  induction m with
  | zero => simp; omega
  | succ m ih =>
    rw [List.range_succ, List.map_append, List.sum_append, ih]
    simp only [List.map_cons, List.map_nil, List.sum_cons, List.sum_nil, add_zero]
    by_cases h1 : j < m
    · rw [if_pos h1, if_neg (by omega), if_pos (by omega), add_zero]
    · by_cases h2 : (m : Int) = j
      · rw [if_neg h1, if_pos h2, if_pos (by omega), zero_add]
      · rw [if_neg h1, if_neg h2, if_neg (by omega), zero_add]

theorem modify_fold (f : Nat → Nat) (p : ℝ) (ks : List Nat) : ∀ acc : List ℝ, acc.length = 360 →
    (ks.foldl (fun acc k => acc.modify (f k) (· + p)) acc).length = 360 ∧
    ∀ n : Nat, n < 360 → (ks.foldl (fun acc k => acc.modify (f k) (· + p)) acc).getD n 0.0 =
      acc.getD n 0.0 + (ks.map fun k => if f k = n then p else 0).sum := by
  induction ks with
  | nil => intro acc hl; exact ⟨hl, by simp⟩
  | cons k rest ih =>
    intro acc hl
    rw [List.foldl_cons]
    obtain ⟨i1, i2⟩ := ih (acc.modify (f k) (· + p)) (by rw [List.length_modify]; exact hl)
    refine ⟨i1, fun n hn => ?_⟩
    rw [i2 n hn, List.map_cons, List.sum_cons]
    by_cases hc : f k = n
    · rw [if_pos hc, hc, QuantizerWsmeans.getD_modify_self _ _ _ _ (by omega)]
      ring
    · rw [if_neg hc, QuantizerWsmeans.getD_modify_ne _ _ _ _ _ hc]
      ring

theorem sanitize_int_eq (d : Int) : sanitizeDegreesInt d = d % 360 :=
  ((c05_sanitize_int d).2.2 (d % 360) (by omega) (by omega) ⟨-(d / 360), by omega⟩).symm

theorem spread_ok (acc : List ℝ) (hue : Nat) (p : ℝ) (hl : acc.length = 360) :
    (spread acc hue p).length = 360 ∧
    ∀ n : Nat, n < 360 → (spread acc hue p).getD n 0.0 = acc.getD n 0.0 + if Neighbours n hue then p else 0 := by
  obtain ⟨h1, h2⟩ := modify_fold (fun k => (sanitizeDegreesInt ((hue : Int) - 14 + k)).toNat) p (List.range 30) acc hl
  refine ⟨h1, fun n hn => ?_⟩
  have := h2 n hn
  unfold spread
  rw [this]
  congr 1
  have hj := Int.emod_nonneg ((n : Int) - hue + 14) (by decide : (360:Int) ≠ 0)
  have hs := sum_indicator p (((n : Int) - hue + 14) % 360) hj 30
  have hN : (if Neighbours n hue then p else 0) =
      if ((n : Int) - hue + 14) % 360 < ((30 : Nat) : Int) then p else 0 := rfl
  rw [hN, ← hs]
  congr 1
  apply List.map_congr_left
  intro k hk
  have hk' := List.mem_range.1 hk
  rw [sanitize_int_eq]
  have : ((((hue : Int) - 14 + k) % 360).toNat = n) ↔ ((k : Int) = ((n : Int) - hue + 14) % 360) := by omega
  by_cases hc : (k : Int) = ((n : Int) - hue + 14) % 360
  · rw [if_pos (this.2 hc), if_pos hc]
  · rw [if_neg (fun h => hc (this.1 h)), if_neg hc]

theorem excited_fold (h : Histogram ℝ) (hues : List Nat) : ∀ acc : List ℝ, acc.length = 360 →
    ∀ n : Nat, n < 360 →
      (hues.foldl (fun acc hue =>
        spread acc hue (Fl.ofInt (h.huePopulation.getD hue 0) / Fl.ofInt h.populationSum)) acc).getD n 0.0 =
      acc.getD n 0.0 + (((hues.map fun (m : Nat) => if Neighbours n m then h.huePopulation.getD m 0 else 0).sum : Int) : ℝ) /
        (h.populationSum : ℝ) := by
  induction hues with
  | nil => intro acc _ n _; simp
  | cons m rest ih =>
    intro acc hl n hn
    obtain ⟨s1, s2⟩ := spread_ok acc m
      (Fl.ofInt (h.huePopulation.getD m 0) / Fl.ofInt h.populationSum) hl
    rw [List.foldl_cons, ih _ s1 n hn, s2 n hn, List.map_cons,
      List.sum_cons, Int.cast_add, fl_ofInt, fl_ofInt]
    split_ifs
    · ring
    · push_cast; ring

/-- Summing the populations of the neighbouring degrees is summing over the colours there. -/
theorem popNear_eq (entries : List (Int × Int)) (n : Int) :
    ((List.range 360).map fun (m : Nat) => if Neighbours n m then popAt entries m else 0).sum = populationNear entries n := by
  induction entries with
  | nil =>
    have : (fun (m : Nat) => if Neighbours n m then popAt [] m else 0) = fun _ => (0 : Int) := by
      funext m
      simp [popAt]
    rw [this, List.map_const', List.sum_replicate, smul_zero]
    rfl
  | cons e rest ih =>
    have hp : ∀ m : Int, popAt (e :: rest) m = (if ⌊hueOf e.1⌋ = m then e.2 else 0) + popAt rest m := by
      intro m; simp only [popAt, List.map_cons, List.sum_cons]
    have hs : ((List.range 360).map fun (m : Nat) => if Neighbours n m then popAt (e :: rest) m else 0) =
        (List.range 360).map fun (m : Nat) => (if (m : Int) = ⌊hueOf e.1⌋ then
          (if Neighbours n ⌊hueOf e.1⌋ then e.2 else 0) else 0) + (if Neighbours n m then popAt rest m else 0) := by
      apply List.map_congr_left
      intro m _
      rw [hp]
      by_cases hc : ⌊hueOf e.1⌋ = (m : Int)
      · rw [if_pos hc, if_pos hc.symm, hc]
        split_ifs <;> ring
      · have hc' : ¬ (m : Int) = ⌊hueOf e.1⌋ := fun h => hc h.symm
        simp only [hc, hc', if_false, zero_add]
    obtain ⟨h0, h1⟩ := hueOf_range e.1
    have f0 : 0 ≤ ⌊hueOf e.1⌋ := Int.floor_nonneg.2 h0
    have f1 : ⌊hueOf e.1⌋ < 360 := Int.floor_lt.2 (by exact_mod_cast h1)
    rw [hs, List.sum_map_add, ih, sum_indicator _ _ f0, if_pos (by exact_mod_cast f1)]
    simp only [populationNear, List.map_cons, List.sum_cons]

theorem excited_ok (entries : List (Int × Int)) (h : Histogram ℝ) (hs : h.populationSum = population entries)
    (hp : ∀ m : Nat, m < 360 → h.huePopulation.getD m 0 = popAt entries m) (n : Nat) (hn : n < 360) :
    (excitedProportions h).getD n 0.0 = (populationNear entries n : ℝ) / (population entries : ℝ) := by
  have e0 : (0.0 : ℝ) = 0 := by norm_num
  unfold excitedProportions
  rw [excited_fold h (List.range 360) _ List.length_replicate n hn, hs]
  have hm : ((List.range 360).map fun (m : Nat) => if Neighbours n m then h.huePopulation.getD m 0 else 0) =
      (List.range 360).map fun (m : Nat) => if Neighbours n m then popAt entries m else 0 := by
    apply List.map_congr_left
    intro m hm
    rw [hp m (List.mem_range.1 hm)]
  rw [hm, popNear_eq, List.getD_eq_getElem?_getD, List.getElem?_replicate, if_pos hn, Option.getD_some, e0, zero_add]

theorem neighbours_mod (n m : Int) : Neighbours (n % 360) m ↔ Neighbours n m := by
  unfold Neighbours
  have : (n % 360 - m + 14) % 360 = (n - m + 14) % 360 := by omega
  rw [this]

theorem populationNear_mod (entries : List (Int × Int)) (n : Int) :
    populationNear entries (n % 360) = populationNear entries n := by
  unfold populationNear
  simp only [neighbours_mod]

theorem proportionOf_ok (entries : List (Int × Int)) (h : Histogram ℝ) (hs : h.populationSum = population entries)
    (hp : ∀ m : Nat, m < 360 → h.huePopulation.getD m 0 = popAt entries m) (c : Int) :
    proportionOf (excitedProportions h) (Hct.fromInt c) = share entries c := by
  obtain ⟨h0, h1⟩ := hueOf_range c
  have hr : Fl.toI64 (Fl.round (hueOf c)) = ⌊hueOf c + 1 / 2⌋ := by
    have f0 : 0 ≤ ⌊hueOf c + 1 / 2⌋ := Int.floor_nonneg.2 (by linarith)
    have f1 : ⌊hueOf c + 1 / 2⌋ < 361 := Int.floor_lt.2 (by push_cast; linarith)
    rw [fl_round, fl_toI64]
    have : realRound (hueOf c) = ((⌊hueOf c + 1 / 2⌋ : Int) : ℝ) := if_pos h0
    rw [this, realTrunc_intCast, satI64_of_mem ⟨by omega, by omega⟩]
  have hg : (Hct.fromInt c : Hct ℝ).getHue = hueOf c := rfl
  unfold proportionOf
  rw [hg, hr, sanitize_int_eq]
  have m0 := Int.emod_nonneg ⌊hueOf c + 1 / 2⌋ (by decide : (360:Int) ≠ 0)
  have m1 := Int.emod_lt_of_pos ⌊hueOf c + 1 / 2⌋ (by decide : (0:Int) < 360)
  rw [excited_ok entries h hs hp _ (by omega), Int.toNat_of_nonneg m0, populationNear_mod]
  rfl

end Mcu.Score
