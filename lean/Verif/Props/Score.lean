import Verif.Lemmas.Score

/-! C52, C53, C54: ranking the colours of an image. -/

namespace Mcu.Props

open MathUtils Mcu.Spec

/-! ### C52, any arithmetic -/

section anyArithmetic

variable {F : Type} [Fl F]

theorem choose_sublist (desired : Int) (sorted : List (Score.ScoredHct F)) :
    (Score.choose desired sorted).Sublist (sorted.map Score.ScoredHct.hct) ∧
    ((Score.choose desired sorted).length : Int) ≤ max 1 desired := by
  obtain ⟨d, -, -, he, -⟩ := Score.chooseRounds_ok desired sorted 75 []
  have hc : Score.choose desired sorted = (Score.pickAll d sorted []).take (max 1 desired).toNat := he
  obtain ⟨s, h1, h2⟩ := Score.pickAll_sublist d sorted []
  rw [hc]
  constructor
  · rw [h1]; exact (List.take_sublist _ _).trans h2
  · rw [List.length_take]; omega

/-- C52: at least one colour, at most `max(1, desired)`. -/
theorem c52_length (entries : List (Int × Int)) (desired fallback : Option Int) (filter : Option Bool) (out : List Int)
    (h : Score.score F entries desired fallback filter = some out) :
    1 ≤ out.length ∧ (out.length : Int) ≤ max 1 (desired.getD 4) := by
  unfold Score.score at h
  cases hh : (Score.histogram entries : Option (Score.Histogram F)) with
  | none => rw [hh] at h; cases h
  | some hist =>
    rw [hh] at h
    have h := Option.some.inj h
    have := (choose_sublist (desired.getD 4) (Score.scored (filter.getD true) hist)).2
    rw [← h]
    cases hc : Score.choose (desired.getD 4) (Score.scored (filter.getD true) hist) with
    | nil => simp
    | cons x rest => rw [hc] at this; simpa using this

/-- C52: the colours come from the map, or are the fallback colour alone. -/
theorem c52_members (entries : List (Int × Int)) (desired fallback : Option Int) (filter : Option Bool) (out : List Int)
    (h : Score.score F entries desired fallback filter = some out) :
    out = [fallback.getD 0xff4285f4] ∨ ∀ c ∈ out, c ∈ entries.map Prod.fst := by
  unfold Score.score at h
  cases hh : (Score.histogram entries : Option (Score.Histogram F)) with
  | none => rw [hh] at h; cases h
  | some hist =>
    rw [hh] at h
    have h := Option.some.inj h
    have hsub := (choose_sublist (desired.getD 4) (Score.scored (filter.getD true) hist)).1
    rw [← h]
    cases hc : Score.choose (desired.getD 4) (Score.scored (filter.getD true) hist) with
    | nil => left; rfl
    | cons x rest =>
      right
      intro c hcm
      rw [hc] at hsub
      have hcm : c ∈ (x :: rest).map Hct.toInt := by simpa using hcm
      obtain ⟨y, hy, rfl⟩ := List.mem_map.1 hcm
      obtain ⟨z, hz, rfl⟩ := List.mem_map.1 (hsub.subset hy)
      unfold Score.scored at hz
      simp only at hz
      rw [List.mem_mergeSort] at hz
      obtain ⟨w, hw, rfl⟩ := List.mem_map.1 hz
      have hw := (List.mem_filter.1 hw).1
      have hcol := Score.histogram_colors entries _ hist hh
      rw [hcol] at hw
      simp only [List.nil_append] at hw
      obtain ⟨e, he, rfl⟩ := List.mem_map.1 hw
      exact List.mem_map.2 ⟨e, he, rfl⟩

end anyArithmetic

/-! ### The whole function, exact arithmetic -/

theorem hueDistance_eq (a b : ℝ) : differenceDegrees a b = hueDistance a b := diff_eq_min a b

theorem duplicate_iff (taken : List Int) (c : Int) (d : Int) :
    Score.duplicateHue (taken.map (Hct.fromInt : Int → Hct ℝ)) (Hct.fromInt c) d = false ↔
      ∀ t ∈ taken, (d : ℝ) ≤ hueDistance (hueOf c) (hueOf t) := by
  unfold Score.duplicateHue
  rw [List.any_eq_false]
  constructor
  · intro h t ht
    have := h _ (List.mem_map_of_mem ht)
    rw [decide_eq_true_iff, not_lt, fl_ofInt, hueDistance_eq] at this
    exact this
  · intro h x hx
    obtain ⟨t, ht, rfl⟩ := List.mem_map.1 hx
    rw [decide_eq_true_iff, not_lt, fl_ofInt, hueDistance_eq]
    exact h t ht

open Classical in
theorem pickAll_spaced (d : Int) (f : Int → ℝ) (ranked : List Int) :
    Score.pickAll d (ranked.map fun c => (⟨Hct.fromInt c, f c⟩ : Score.ScoredHct ℝ)) [] =
      (spaced d ranked).map Hct.fromInt := by
  have : ∀ (l : List Int) (taken : List Int),
      (l.map (Hct.fromInt : Int → Hct ℝ)).foldl (Score.pick d) (taken.map Hct.fromInt) =
      (l.foldl (fun taken c => if ∀ t ∈ taken, (d : ℝ) ≤ hueDistance (hueOf c) (hueOf t) then
        taken ++ [c] else taken) taken).map Hct.fromInt := by
    intro l
    induction l with
    | nil => intro taken; rfl
    | cons c rest ih =>
      intro taken
      rw [List.map_cons, List.foldl_cons, List.foldl_cons]
      have hp : Score.pick d (taken.map (Hct.fromInt : Int → Hct ℝ)) (Hct.fromInt c) =
          (if ∀ t ∈ taken, (d : ℝ) ≤ hueDistance (hueOf c) (hueOf t) then
            taken ++ [c] else taken).map Hct.fromInt := by
        unfold Score.pick
        by_cases h : ∀ t ∈ taken, (d : ℝ) ≤ hueDistance (hueOf c) (hueOf t)
        · rw [if_pos h, (duplicate_iff taken c d).2 h]; simp
        · rw [if_neg h]
          have : Score.duplicateHue (taken.map (Hct.fromInt : Int → Hct ℝ)) (Hct.fromInt c) d = true := by
            by_contra hf
            exact h ((duplicate_iff taken c d).1 (by simpa using hf))
          rw [this]; rfl
      rw [hp, ih]
  unfold Score.pickAll
  rw [List.map_map]
  exact this ranked []

theorem keeps_iff (entries : List (Int × Int)) (h : Score.Histogram ℝ) (hs : h.populationSum = population entries)
    (hp : ∀ m : Nat, m < 360 → h.huePopulation.getD m 0 = Score.popAt entries m) (filter : Bool) (c : Int) :
    Score.keeps filter (Score.excitedProportions h) (Hct.fromInt c) = true ↔ Qualifies entries filter c := by
  unfold Score.keeps Qualifies
  rw [Score.proportionOf_ok entries h hs hp c]
  have e5 : (5.0 : ℝ) = 5 := by norm_num
  cases filter with
  | false => simp
  | true =>
    have hc : (Hct.fromInt c : Hct ℝ).getChroma = chromaOf c := rfl
    rw [hc]
    simp only [Bool.true_and, Bool.not_eq_true', Bool.or_eq_false_iff, decide_eq_false_iff_not, forall_const]
    rw [not_lt, not_le, show (OfScientific.ofScientific 50 true 1 : ℝ) = 5 from e5]

theorem scoreOf_ok (entries : List (Int × Int)) (h : Score.Histogram ℝ) (hs : h.populationSum = population entries)
    (hp : ∀ m : Nat, m < 360 → h.huePopulation.getD m 0 = Score.popAt entries m) (c : Int) :
    Score.scoreOf (Score.excitedProportions h) (Hct.fromInt c) = scoreOf entries c := by
  unfold Score.scoreOf scoreOf
  rw [Score.proportionOf_ok entries h hs hp c]
  have hc : (Hct.fromInt c : Hct ℝ).getChroma = chromaOf c := rfl
  rw [hc]
  have e48 : (48.0 : ℝ) = 48 := by norm_num
  simp only [show (OfScientific.ofScientific 480 true 1 : ℝ) = 48 from e48]
  split_ifs <;> norm_num <;> ring

open Classical in
/-- C53, C54: what scoring returns.  The qualifying colours are ranked by descending score (ties in some
order); from the ranked list colours are taken that keep a distance of `d` degrees in hue from the ones
taken before, where `d` is the largest whole number from 90 down to 15 for which that gives enough
colours, or 15; at most `max(1, desired)` colours are returned, and the fallback if none qualifies.
(For a total population of zero the shares are NaN in the code, so that case is excluded.) -/
theorem c53_refinement (entries : List (Int × Int)) (_hpop : population entries ≠ 0)
    (desired fallback : Option Int) (filter : Option Bool) :
    ∃ ranked : List Int, ∃ d : Int,
      ranked.Perm ((entries.map Prod.fst).filter fun c => decide (Qualifies entries (filter.getD true) c)) ∧
      ranked.Pairwise (fun a b => scoreOf entries b ≤ scoreOf entries a) ∧
      15 ≤ d ∧ d ≤ 90 ∧ (d = 15 ∨ desired.getD 4 ≤ (spaced d ranked).length) ∧
      (∀ d' : Int, d < d' → d' ≤ 90 → ((spaced d' ranked).length : Int) < desired.getD 4) ∧
      Score.score ℝ entries desired fallback filter =
        some (if ranked = [] then [fallback.getD 0xff4285f4] else (spaced d ranked).take (max 1 (desired.getD 4)).toNat) := by
  obtain ⟨h, h1, h2, h3, h4⟩ := Score.histogram_ok entries
  set mk : Int → Score.ScoredHct ℝ := fun c => ⟨Hct.fromInt c, scoreOf entries c⟩ with hmk
  set K : List Int := (entries.map Prod.fst).filter fun c => decide (Qualifies entries (filter.getD true) c) with hK
  have hl : (h.colorsHct.filter (Score.keeps (filter.getD true) (Score.excitedProportions h))).map
      (fun hct => ({ hct, score := Score.scoreOf (Score.excitedProportions h) hct } : Score.ScoredHct ℝ)) = K.map mk := by
    rw [h2, hK]
    have : (entries.map fun e => (Hct.fromInt e.1 : Hct ℝ)) = (entries.map Prod.fst).map Hct.fromInt := by
      rw [List.map_map]; rfl
    rw [this, List.filter_map, List.map_map]
    have hf : ((Score.keeps (filter.getD true) (Score.excitedProportions h)) ∘ (Hct.fromInt : Int → Hct ℝ)) =
        fun c => decide (Qualifies entries (filter.getD true) c) := by
      funext c
      rw [Bool.eq_iff_iff]
      show Score.keeps _ _ _ = true ↔ _
      rw [keeps_iff entries h h3 h4, decide_eq_true_iff]
    rw [hf]
    apply List.map_congr_left
    intro c _
    show (⟨Hct.fromInt c, _⟩ : Score.ScoredHct ℝ) = ⟨Hct.fromInt c, _⟩
    rw [scoreOf_ok entries h h3 h4]
  have hsd : Score.scored (filter.getD true) h = (K.map mk).mergeSort (fun a b => !Score.ltScored b a) := by
    unfold Score.scored
    simp only
    rw [hl]
  set l := Score.scored (filter.getD true) h with hldef
  have hperm : l.Perm (K.map mk) := by rw [hsd]; exact List.mergeSort_perm _ _
  have hle : ∀ a b : Score.ScoredHct ℝ, (!Score.ltScored b a) = true ↔ b.score ≤ a.score := by
    intro a b
    unfold Score.ltScored
    rw [Bool.not_eq_true', decide_eq_false_iff_not, not_lt]
  have hsorted : l.Pairwise fun a b => (!Score.ltScored b a) = true := by
    rw [hsd]
    apply List.pairwise_mergeSort
    · intro a b c hab hbc
      rw [hle] at hab hbc ⊢
      exact hbc.trans hab
    · intro a b
      rw [Bool.or_eq_true, hle, hle]
      exact le_total _ _
  set ranked : List Int := l.map fun x => x.hct.argb with hranked
  have hform : l = ranked.map mk := by
    rw [hranked, List.map_map]
    conv_lhs => rw [← List.map_id l]
    apply List.map_congr_left
    intro x hx
    obtain ⟨c, -, rfl⟩ := List.mem_map.1 (hperm.subset hx)
    rfl
  have hrp : ranked.Perm K := by
    have := hperm.map fun x => x.hct.argb
    rw [List.map_map] at this
    have hid : ((fun x : Score.ScoredHct ℝ => x.hct.argb) ∘ mk) = id := rfl
    rwa [hid, List.map_id] at this
  obtain ⟨d, d1, d2, d3, d4, d5⟩ := Score.chooseRounds_ok (desired.getD 4) l 75 []
  have hpick : ∀ d : Int, Score.pickAll d l [] = (spaced d ranked).map Hct.fromInt := by
    intro d; rw [hform]; exact pickAll_spaced d _ ranked
  refine ⟨ranked, d, hrp, ?_, d1, by omega, ?_, ?_, ?_⟩
  · rw [hform, List.pairwise_map] at hsorted
    refine hsorted.imp ?_
    intro a b hab
    rw [hle] at hab
    exact hab
  · rw [hpick, List.length_map] at d4; exact d4
  · intro d' e1 e2
    have := d5 d' e1 (by omega)
    rwa [hpick, List.length_map] at this
  · unfold Score.score
    rw [h1]
    show some _ = some _
    have hch : Score.choose (desired.getD 4) (Score.scored (filter.getD true) h) =
        ((spaced d ranked).take (max 1 (desired.getD 4)).toNat).map Hct.fromInt := by
      rw [List.map_take, ← hpick]; exact d3
    rw [hch]
    congr 1
    have hargb : (((spaced d ranked).take (max 1 (desired.getD 4)).toNat).map (Hct.fromInt : Int → Hct ℝ)).map Hct.toInt =
        (spaced d ranked).take (max 1 (desired.getD 4)).toNat := by
      rw [List.map_map]
      exact List.map_id _
    rw [hargb]
    cases hr : ranked with
    | nil => simp [spaced]
    | cons c rest =>
      have hne : Score.pickAll d l [] ≠ [] := by
        rw [hform, hr]; exact Score.pickAll_ne_nil d _ _
      rw [hpick, hr] at hne
      have hsp : spaced d (c :: rest) ≠ [] := fun h0 => hne (by rw [h0]; rfl)
      have : (spaced d (c :: rest)).take (max 1 (desired.getD 4)).toNat ≠ [] := by
        intro h0
        rcases List.take_eq_nil_iff.1 h0 with h0 | h0
        · omega
        · exact hsp h0
      simp [hsp]

/-! ### Consequences -/

/-- One step of `spaced`. -/
theorem spaced_ok (d : ℝ) (l : List Int) :
    (spaced d l).Sublist l ∧ (spaced d l).Pairwise (fun a b => d ≤ hueDistance (hueOf a) (hueOf b)) ∧
    (∀ c ∈ l, c ∈ spaced d l ∨ ∃ t ∈ spaced d l, hueDistance (hueOf c) (hueOf t) < d) ∧
    ∀ c rest, l = c :: rest → ∃ tail, spaced d l = c :: tail := by
  classical
  have hsymm : ∀ a b : ℝ, hueDistance a b = hueDistance b a := by
    intro a b; unfold hueDistance; rw [abs_sub_comm]
  have key : ∀ (l : List Int) (taken : List Int),
      taken.Pairwise (fun a b => d ≤ hueDistance (hueOf a) (hueOf b)) →
      ∃ s, s.Sublist l ∧
        l.foldl (fun taken c => if ∀ t ∈ taken, d ≤ hueDistance (hueOf c) (hueOf t) then taken ++ [c] else taken) taken
          = taken ++ s ∧ (taken ++ s).Pairwise (fun a b => d ≤ hueDistance (hueOf a) (hueOf b)) ∧
        ∀ c ∈ l, c ∈ taken ++ s ∨ ∃ t ∈ taken ++ s, hueDistance (hueOf c) (hueOf t) < d := by
    intro l
    induction l with
    | nil => intro taken h; exact ⟨[], by simp, by simp, by simpa using h, by simp⟩
    | cons c rest ih =>
      intro taken h
      rw [List.foldl_cons]
      by_cases hc : ∀ t ∈ taken, d ≤ hueDistance (hueOf c) (hueOf t)
      · rw [if_pos hc]
        obtain ⟨s, s1, s2, s3, s4⟩ := ih (taken ++ [c]) (by
          refine List.pairwise_append.2 ⟨h, by simp, ?_⟩
          intro a ha b hb
          rw [List.mem_singleton] at hb
          rw [hb, hsymm]; exact hc a ha)
        rw [List.append_assoc, List.singleton_append] at s2 s3 s4
        refine ⟨c :: s, s1.cons_cons _, s2, s3, ?_⟩
        intro x hx
        rcases List.mem_cons.1 hx with rfl | hx
        · left; simp
        · exact s4 x hx
      · rw [if_neg hc]
        obtain ⟨s, s1, s2, s3, s4⟩ := ih taken h
        refine ⟨s, s1.cons _, s2, s3, ?_⟩
        intro x hx
        rcases List.mem_cons.1 hx with rfl | hx
        · push Not at hc
          obtain ⟨t, ht, hlt⟩ := hc
          exact Or.inr ⟨t, List.mem_append_left _ ht, hlt⟩
        · exact s4 x hx
  obtain ⟨s, s1, s2, s3, s4⟩ := key l [] List.Pairwise.nil
  rw [List.nil_append] at s2 s3 s4
  have hs : spaced d l = s := s2
  rw [hs]
  refine ⟨s1, s3, s4, ?_⟩
  rintro c rest rfl
  obtain ⟨s', -, s2', -⟩ := key rest [c] (List.pairwise_singleton _ _)
  refine ⟨s', ?_⟩
  have : spaced d (c :: rest) = rest.foldl
      (fun taken c => if ∀ t ∈ taken, d ≤ hueDistance (hueOf c) (hueOf t) then taken ++ [c] else taken) [c] := by
    unfold spaced
    rw [List.foldl_cons]
    congr 1
  rw [← hs, this, s2']
  rfl

/-- C52: with exact arithmetic no population map makes scoring panic. -/
theorem c52_no_panic (entries : List (Int × Int)) (desired fallback : Option Int) (filter : Option Bool) :
    ∃ out, Score.score ℝ entries desired fallback filter = some out := by
  obtain ⟨h, h1, -⟩ := Score.histogram_ok entries
  unfold Score.score
  rw [h1]
  exact ⟨_, rfl⟩

section results

variable {entries : List (Int × Int)} {desired fallback : Option Int} {filter : Option Bool} {out : List Int}
  (hpop : population entries ≠ 0) (hout : Score.score ℝ entries desired fallback filter = some out)

include hpop hout

/-- C53: the returned colours are pairwise at least 15 degrees of hue apart. -/
theorem c53_spacing : out.Pairwise fun a b => 15 ≤ hueDistance (hueOf a) (hueOf b) := by
  obtain ⟨ranked, d, h1, h2, h3, h4, h5, h6, h7⟩ := c53_refinement entries hpop desired fallback filter
  rw [hout] at h7
  obtain rfl := Option.some.inj h7
  have h15 : (15 : ℝ) ≤ d := by exact_mod_cast h3
  split_ifs
  · exact List.pairwise_singleton _ _
  · exact ((spaced_ok d ranked).2.1.sublist (List.take_sublist _ _)).imp fun h => h15.trans h

/-- C53: if a colour of the map qualifies, all returned colours are qualifying colours of the map;
otherwise the fallback colour is returned alone. -/
theorem c53_filter :
    ((∃ c ∈ entries.map Prod.fst, Qualifies entries (filter.getD true) c) →
      ∀ c ∈ out, c ∈ entries.map Prod.fst ∧ Qualifies entries (filter.getD true) c) ∧
    ((¬ ∃ c ∈ entries.map Prod.fst, Qualifies entries (filter.getD true) c) → out = [fallback.getD 0xff4285f4]) := by
  classical
  obtain ⟨ranked, d, h1, h2, h3, h4, h5, h6, h7⟩ := c53_refinement entries hpop desired fallback filter
  rw [hout] at h7
  obtain rfl := Option.some.inj h7
  have hmem : ∀ c, c ∈ ranked ↔ c ∈ entries.map Prod.fst ∧ Qualifies entries (filter.getD true) c := by
    intro c
    rw [h1.mem_iff, List.mem_filter, decide_eq_true_iff]
  constructor
  · rintro ⟨q, hq⟩ c hc
    have hne : ranked ≠ [] := List.ne_nil_of_mem ((hmem q).2 hq)
    rw [if_neg hne] at hc
    exact (hmem c).1 ((spaced_ok d ranked).1.subset (List.mem_of_mem_take hc))
  · intro hno
    have : ranked = [] := by
      rw [List.eq_nil_iff_forall_not_mem]
      intro c hc
      exact hno ⟨c, (hmem c).1 hc⟩
    rw [if_pos this]

/-- C53: if fewer colours than desired are returned, every qualifying colour is returned or closer than 15
degrees in hue to a returned one. -/
theorem c53_maximal (hlen : (out.length : Int) < desired.getD 4) (c : Int) (hc : c ∈ entries.map Prod.fst)
    (hq : Qualifies entries (filter.getD true) c) : c ∈ out ∨ ∃ t ∈ out, hueDistance (hueOf c) (hueOf t) < 15 := by
  classical
  obtain ⟨ranked, d, h1, h2, h3, h4, h5, h6, h7⟩ := c53_refinement entries hpop desired fallback filter
  rw [hout] at h7
  obtain rfl := Option.some.inj h7
  have hmem : c ∈ ranked := by rw [h1.mem_iff, List.mem_filter, decide_eq_true_iff]; exact ⟨hc, hq⟩
  have hne : ranked ≠ [] := List.ne_nil_of_mem hmem
  rw [if_neg hne] at hlen ⊢
  rw [List.length_take] at hlen
  have hd : d = 15 := by
    rcases h5 with h5 | h5
    · exact h5
    · omega
  rw [List.take_of_length_le (by omega)]
  have := (spaced_ok d ranked).2.2.1 c hmem
  rw [hd] at this ⊢
  simpa using this

/-- C53: the spacing is the largest possible: for a whole number of degrees `d` up to 90 for which a
selection in order of the ranking yields enough colours, the returned colours are `d` degrees apart.
(`ranked` is the ranking that scoring used.) -/
theorem c53_largest_spacing : ∃ ranked : List Int, out.Sublist (fallback.getD 0xff4285f4 :: ranked) ∧
    ranked.Pairwise (fun a b => scoreOf entries b ≤ scoreOf entries a) ∧
    (∀ c, c ∈ ranked ↔ c ∈ entries.map Prod.fst ∧ Qualifies entries (filter.getD true) c) ∧
    ∀ d : Int, d ≤ 90 → desired.getD 4 ≤ (spaced d ranked).length →
      out.Pairwise fun a b => (d : ℝ) ≤ hueDistance (hueOf a) (hueOf b) := by
  classical
  obtain ⟨ranked, d, h1, h2, h3, h4, h5, h6, h7⟩ := c53_refinement entries hpop desired fallback filter
  rw [hout] at h7
  obtain rfl := Option.some.inj h7
  refine ⟨ranked, ?_, h2, ?_, ?_⟩
  · split_ifs with h0
    · rw [h0]
    · exact ((List.take_sublist _ _).trans (spaced_ok d ranked).1).cons _
  · intro c; rw [h1.mem_iff, List.mem_filter, decide_eq_true_iff]
  · intro d' hd' hl
    have hle : d' ≤ d := by
      by_contra hc
      have := h6 d' (not_le.1 hc) hd'
      omega
    have hle' : (d' : ℝ) ≤ d := by exact_mod_cast hle
    split_ifs
    · exact List.pairwise_singleton _ _
    · exact ((spaced_ok d ranked).2.1.sublist (List.take_sublist _ _)).imp fun h => hle'.trans h

/-- C54: the returned colours are in order of descending score. -/
theorem c54_descending : out.Pairwise fun a b => scoreOf entries b ≤ scoreOf entries a := by
  obtain ⟨ranked, d, h1, h2, h3, h4, h5, h6, h7⟩ := c53_refinement entries hpop desired fallback filter
  rw [hout] at h7
  obtain rfl := Option.some.inj h7
  split_ifs
  · exact List.pairwise_singleton _ _
  · exact h2.sublist ((List.take_sublist _ _).trans (spaced_ok d ranked).1)

/-- C54: the first returned colour has the highest score of all qualifying colours. -/
theorem c54_first (hq : ∃ c ∈ entries.map Prod.fst, Qualifies entries (filter.getD true) c) :
    ∃ best rest, out = best :: rest ∧ best ∈ entries.map Prod.fst ∧ Qualifies entries (filter.getD true) best ∧
      ∀ c ∈ entries.map Prod.fst, Qualifies entries (filter.getD true) c → scoreOf entries c ≤ scoreOf entries best := by
  classical
  obtain ⟨ranked, d, h1, h2, h3, h4, h5, h6, h7⟩ := c53_refinement entries hpop desired fallback filter
  rw [hout] at h7
  obtain rfl := Option.some.inj h7
  have hmem : ∀ c, c ∈ ranked ↔ c ∈ entries.map Prod.fst ∧ Qualifies entries (filter.getD true) c := by
    intro c
    rw [h1.mem_iff, List.mem_filter, decide_eq_true_iff]
  obtain ⟨q, hq⟩ := hq
  cases hr : ranked with
  | nil => have := (hmem q).2 hq; rw [hr] at this; cases this
  | cons best rest =>
    obtain ⟨tail, ht⟩ := (spaced_ok d ranked).2.2.2 best rest hr
    rw [hr] at ht h2 hmem
    have hb := (hmem best).1 List.mem_cons_self
    refine ⟨best, tail.take ((max 1 (desired.getD 4)).toNat - 1), ?_, hb.1, hb.2, ?_⟩
    · rw [if_neg (by simp), ht, List.take_cons (by omega)]
    · intro c hc hcq
      rcases List.mem_cons.1 ((hmem c).2 ⟨hc, hcq⟩) with rfl | h
      · exact le_refl _
      · exact (List.pairwise_cons.1 h2).1 c h

end results

/-- C54: if no two qualifying colours have the same score, the order in which the hash map is iterated
does not matter. -/
theorem c54_order_independent (entries entries' : List (Int × Int)) (hpop : population entries ≠ 0)
    (hperm : entries.Perm entries') (desired fallback : Option Int) (filter : Option Bool)
    (hinj : ∀ a ∈ entries.map Prod.fst, ∀ b ∈ entries.map Prod.fst, Qualifies entries (filter.getD true) a →
      Qualifies entries (filter.getD true) b → scoreOf entries a = scoreOf entries b → a = b) :
    Score.score ℝ entries desired fallback filter = Score.score ℝ entries' desired fallback filter := by
  classical
  have hp : population entries' = population entries := (hperm.symm.map _).sum_eq
  have hn : ∀ n, populationNear entries' n = populationNear entries n := fun n => (hperm.symm.map _).sum_eq
  have hsh : ∀ c, share entries' c = share entries c := by intro c; unfold share; rw [hp, hn]
  have hsc : ∀ c, scoreOf entries' c = scoreOf entries c := by intro c; unfold scoreOf; rw [hsh]
  have hqu : ∀ f c, Qualifies entries' f c ↔ Qualifies entries f c := by intro f c; unfold Qualifies; rw [hsh]
  obtain ⟨ranked, d, h1, h2, h3, h4, h5, h6, h7⟩ := c53_refinement entries hpop desired fallback filter
  obtain ⟨ranked', d', h1', h2', h3', h4', h5', h6', h7'⟩ :=
    c53_refinement entries' (by rw [hp]; exact hpop) desired fallback filter
  have hmem : ∀ c, c ∈ ranked ↔ c ∈ entries.map Prod.fst ∧ Qualifies entries (filter.getD true) c := by
    intro c
    rw [h1.mem_iff, List.mem_filter, decide_eq_true_iff]
  have hfil : ((entries'.map Prod.fst).filter fun c => decide (Qualifies entries' (filter.getD true) c)).Perm
      ((entries.map Prod.fst).filter fun c => decide (Qualifies entries (filter.getD true) c)) := by
    have : (fun c => decide (Qualifies entries' (filter.getD true) c)) =
        fun c => decide (Qualifies entries (filter.getD true) c) := by
      funext c; exact decide_eq_decide.2 (hqu _ c)
    rw [this]
    exact (hperm.symm.map _).filter _
  have hrr : ranked.Perm ranked' := h1.trans (hfil.symm.trans h1'.symm)
  have heq : ranked = ranked' := by
    refine hrr.eq_of_pairwise (le := fun a b => scoreOf entries b ≤ scoreOf entries a) ?_ h2 ?_
    · intro a b ha hb hab hba
      exact hinj a ((hmem a).1 ha).1 b ((hmem b).1 (hrr.mem_iff.2 hb)).1 ((hmem a).1 ha).2
        ((hmem b).1 (hrr.mem_iff.2 hb)).2 (le_antisymm hba hab)
    · exact h2'.imp fun h => by rw [hsc, hsc] at h; exact h
  subst heq
  have hd : d = d' := by
    rcases lt_trichotomy d d' with hl | hl | hl
    · have := h6 d' hl h4'
      rcases h5' with h | h <;> omega
    · exact hl
    · have := h6' d hl h4
      rcases h5 with h | h <;> omega
  subst hd
  rw [h7, h7']

/-- The hypotheses are met by a map of two colours. -/
example : ∃ out, Score.score ℝ [(0xFFFF0000, 3), (0xFF00FF00, 1)] (some 2) none (some false) = some out ∧
    population [(0xFFFF0000, 3), (0xFF00FF00, 1)] ≠ 0 ∧
    ∃ c ∈ [(0xFFFF0000, 3), (0xFF00FF00, 1)].map Prod.fst, Qualifies [(0xFFFF0000, 3), (0xFF00FF00, 1)] false c := by
  obtain ⟨out, h⟩ := c52_no_panic [(0xFFFF0000, 3), (0xFF00FF00, 1)] (some 2) none (some false)
  exact ⟨out, h, by decide, 0xFFFF0000, by simp, by unfold Qualifies; simp⟩

end Mcu.Props
