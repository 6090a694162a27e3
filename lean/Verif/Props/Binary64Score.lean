import Verif.Lemmas.F64ScoreZero
import Verif.Lemmas.ChromaBlue

/-! C52, C53 and C54 in IEEE-754 binary64: ranking the colours of an image.

`hueC L c` and `chromaC L c` are the hue and the chroma that the library reports for the colour `c`. -/

namespace Mcu.Props.Binary64

open Mcu.Ieee Lemmas MathUtils Mcu.Spec Mcu.Score

variable {L : Libm}

local notation "𝔻" => F64 L

/-- C52 (binary64): no population map makes scoring panic. -/
theorem c52_binary64_no_panic (hS : L.Sound) (hT : L.TempOk) (hZ : L.AtanZero) (entries : List (Int × Int)) (desired fallback : Option Int)
    (filter : Option Bool) : ∃ out, Score.score 𝔻 entries desired fallback filter = some out := by
  obtain ⟨h, h1, -⟩ := histogram_ok64 hS hT hZ entries
  unfold Score.score
  rw [h1]
  exact ⟨_, rfl⟩

/-- How far the computed score of a colour may be off. -/
noncomputable def slack (L : Libm) (c : Int) : ℝ := 1 / 10 ^ 7 + chromaC L c / 10 ^ 15

/-- C53 (binary64): the returned colours are pairwise at least 15 degrees of hue apart, up to 10⁻¹³ degrees. -/
theorem c53_binary64_spacing (hS : L.Sound) (hT : L.TempOk) (hZ : L.AtanZero) {entries : List (Int × Int)} {desired fallback : Option Int} {filter : Option Bool}
    {out : List Int} (hc : Counts entries) (hout : Score.score 𝔻 entries desired fallback filter = some out) : out.Pairwise fun a b => 15 - 1 / 10 ^ 13 ≤ hueDistance (hueC L a) (hueC L b) := by
  obtain ⟨h, ranked, d, s, h7⟩ := refinement64 hS hT hZ hc desired fallback filter
  rw [hout] at h7
  obtain rfl := Option.some.inj h7
  have h15 : (15 : ℝ) ≤ d := by exact_mod_cast s.low
  split_ifs
  · exact List.pairwise_singleton _ _
  · refine ((spacedBy_ok L d ranked).2.1.sublist (List.take_sublist _ _)).imp fun {a b} h => ?_
    have := (close64 hS hT hZ d (by have := s.low; omega) (by have := s.high; omega) b a).2 h
    unfold hueDistance at *
    rw [abs_sub_comm]
    linarith

/-- C53 (binary64): if a colour of the map clearly qualifies, all returned colours are colours of the map that qualify up to the rounding
of the shares (10⁻⁹); if none qualifies up to that, the fallback colour is returned alone. -/
theorem c53_binary64_filter (hS : L.Sound) (hT : L.TempOk) (hZ : L.AtanZero) {entries : List (Int × Int)} {desired fallback : Option Int} {filter : Option Bool}
    {out : List Int} (hc : Counts entries) (hout : Score.score 𝔻 entries desired fallback filter = some out) :
    ((∃ c ∈ entries.map Prod.fst, QualifiesBy (hueC L) (chromaC L) (0.01 + 1 / 10 ^ 9) entries (filter.getD true) c) →
      ∀ c ∈ out, c ∈ entries.map Prod.fst ∧ QualifiesBy (hueC L) (chromaC L) (0.01 - 1 / 10 ^ 9) entries (filter.getD true) c) ∧
    ((¬ ∃ c ∈ entries.map Prod.fst, QualifiesBy (hueC L) (chromaC L) (0.01 - 1 / 10 ^ 9) entries (filter.getD true) c) →
      out = [fallback.getD 0xff4285f4]) := by
  obtain ⟨h, ranked, d, s, h7⟩ := refinement64 hS hT hZ hc desired fallback filter
  rw [hout] at h7
  obtain rfl := Option.some.inj h7
  constructor
  · rintro ⟨q, hq, hq'⟩ c hcm
    have hne : ranked ≠ [] := List.ne_nil_of_mem ((s.mem q).2 ⟨hq, (keeps64 hS hT hZ hc s.hist _ q).1 hq'⟩)
    rw [if_neg hne] at hcm
    obtain ⟨h1, h2⟩ := (s.mem c).1 ((spacedBy_ok L d ranked).1.subset (List.mem_of_mem_take hcm))
    exact ⟨h1, (keeps64 hS hT hZ hc s.hist _ c).2 h2⟩
  · intro hno
    have : ranked = [] := by
      rw [List.eq_nil_iff_forall_not_mem]
      intro c hcm
      obtain ⟨h1, h2⟩ := (s.mem c).1 hcm
      exact hno ⟨c, h1, (keeps64 hS hT hZ hc s.hist _ c).2 h2⟩
    rw [if_pos this]

/-- C53 (binary64): if fewer colours than desired are returned, every clearly qualifying colour is returned or closer than 15 degrees in
hue (up to 10⁻¹³) to a returned one. -/
theorem c53_binary64_maximal (hS : L.Sound) (hT : L.TempOk) (hZ : L.AtanZero) {entries : List (Int × Int)} {desired fallback : Option Int} {filter : Option Bool}
    {out : List Int} (hc : Counts entries) (hout : Score.score 𝔻 entries desired fallback filter = some out)
    (hlen : (out.length : Int) < desired.getD 4) (c : Int) (hcm : c ∈ entries.map Prod.fst)
    (hq : QualifiesBy (hueC L) (chromaC L) (0.01 + 1 / 10 ^ 9) entries (filter.getD true) c) :
    c ∈ out ∨ ∃ t ∈ out, hueDistance (hueC L c) (hueC L t) < 15 + 1 / 10 ^ 13 := by
  obtain ⟨h, ranked, d, s, h7⟩ := refinement64 hS hT hZ hc desired fallback filter
  rw [hout] at h7
  obtain rfl := Option.some.inj h7
  have hmem : c ∈ ranked := (s.mem c).2 ⟨hcm, (keeps64 hS hT hZ hc s.hist _ c).1 hq⟩
  have hne : ranked ≠ [] := List.ne_nil_of_mem hmem
  rw [if_neg hne] at hlen ⊢
  rw [List.length_take] at hlen
  have hd : d = 15 := by
    rcases s.enough with h5 | h5
    · exact h5
    · omega
  subst hd
  rw [List.take_of_length_le (by omega)]
  rcases (spacedBy_ok L 15 ranked).2.2.1 c hmem with h1 | ⟨t, ht, h1⟩
  · exact .inl h1
  · refine .inr ⟨t, ht, ?_⟩
    have := (close64 hS hT hZ 15 (by norm_num) (by norm_num) c t).1 (not_not.1 h1)
    exact_mod_cast this

/-- C53 (binary64): the spacing is the largest possible: for a whole number of degrees `d` up to 90 for which a selection in order of the
ranking, by the hue differences that the library reports, yields enough colours, the returned colours are `d` degrees apart up to 10⁻¹³.
(`ranked` is the ranking that scoring used; it is by descending score up to rounding.) -/
theorem c53_binary64_largest_spacing (hS : L.Sound) (hT : L.TempOk) (hZ : L.AtanZero) {entries : List (Int × Int)} {desired fallback : Option Int} {filter : Option Bool}
    {out : List Int} (hc : Counts entries) (hout : Score.score 𝔻 entries desired fallback filter = some out) : ∃ ranked : List Int, out.Sublist (fallback.getD 0xff4285f4 :: ranked) ∧
    ranked.Pairwise (fun a b => scoreBy (hueC L) (chromaC L) entries b ≤ scoreBy (hueC L) (chromaC L) entries a + slack L a + slack L b) ∧
    (∀ c ∈ ranked, c ∈ entries.map Prod.fst ∧ QualifiesBy (hueC L) (chromaC L) (0.01 - 1 / 10 ^ 9) entries (filter.getD true) c) ∧
    (∀ c ∈ entries.map Prod.fst, QualifiesBy (hueC L) (chromaC L) (0.01 + 1 / 10 ^ 9) entries (filter.getD true) c → c ∈ ranked) ∧
    ∀ d : Int, 0 ≤ d → d ≤ 90 →
      desired.getD 4 ≤ (spacedBy (fun a b => ¬ differenceDegrees (Hct.fromInt a : Hct 𝔻).getHue (Hct.fromInt b : Hct 𝔻).getHue < Fl.ofInt d) ranked).length →
      out.Pairwise fun a b => (d : ℝ) - 1 / 10 ^ 13 ≤ hueDistance (hueC L a) (hueC L b) := by
  obtain ⟨h, ranked, d, s, h7⟩ := refinement64 hS hT hZ hc desired fallback filter
  rw [hout] at h7
  obtain rfl := Option.some.inj h7
  refine ⟨ranked, ?_, ?_, ?_, ?_, ?_⟩
  · split_ifs with h0
    · rw [h0]
    · exact ((List.take_sublist _ _).trans (spacedBy_ok L d ranked).1).cons _
  · refine s.order.imp fun {a b} hab => ?_
    have ha := abs_le.1 (is_scoreC hS hT hZ hc s.hist a).2
    have hb := abs_le.1 (is_scoreC hS hT hZ hc s.hist b).2
    unfold slack
    linarith [ha.1, ha.2, hb.1, hb.2]
  · intro c hcm
    obtain ⟨h1, h2⟩ := (s.mem c).1 hcm
    exact ⟨h1, (keeps64 hS hT hZ hc s.hist _ c).2 h2⟩
  · intro c hcm hq
    exact (s.mem c).2 ⟨hcm, (keeps64 hS hT hZ hc s.hist _ c).1 hq⟩
  · intro d' h0 hd' hl
    have hle : d' ≤ d := by
      by_contra hcon
      have := s.largest d' (not_le.1 hcon) hd'
      have hl : desired.getD 4 ≤ (spacedBy (FarC L d') ranked).length := hl
      omega
    have hle' : (d' : ℝ) ≤ d := by exact_mod_cast hle
    split_ifs
    · exact List.pairwise_singleton _ _
    · refine ((spacedBy_ok L d ranked).2.1.sublist (List.take_sublist _ _)).imp fun {a b} h => ?_
      have := (close64 hS hT hZ d (by omega) (by have := s.high; omega) b a).2 h
      unfold hueDistance at *
      rw [abs_sub_comm]
      linarith

/-- C54 (binary64): the returned colours are in order of descending score, up to rounding. -/
theorem c54_binary64_descending (hS : L.Sound) (hT : L.TempOk) (hZ : L.AtanZero) {entries : List (Int × Int)} {desired fallback : Option Int} {filter : Option Bool}
    {out : List Int} (hc : Counts entries) (hout : Score.score 𝔻 entries desired fallback filter = some out) :
    out.Pairwise fun a b => scoreBy (hueC L) (chromaC L) entries b ≤ scoreBy (hueC L) (chromaC L) entries a + slack L a + slack L b := by
  obtain ⟨h, ranked, d, s, h7⟩ := refinement64 hS hT hZ hc desired fallback filter
  rw [hout] at h7
  obtain rfl := Option.some.inj h7
  split_ifs
  · exact List.pairwise_singleton _ _
  · refine (s.order.sublist ((List.take_sublist _ _).trans (spacedBy_ok L d ranked).1)).imp fun {a b} hab => ?_
    have ha := abs_le.1 (is_scoreC hS hT hZ hc s.hist a).2
    have hb := abs_le.1 (is_scoreC hS hT hZ hc s.hist b).2
    unfold slack
    linarith [ha.1, ha.2, hb.1, hb.2]

/-- C54 (binary64): up to rounding the first returned colour has the highest score of all qualifying colours. -/
theorem c54_binary64_first (hS : L.Sound) (hT : L.TempOk) (hZ : L.AtanZero) {entries : List (Int × Int)} {desired fallback : Option Int} {filter : Option Bool}
    {out : List Int} (hc : Counts entries) (hout : Score.score 𝔻 entries desired fallback filter = some out)
    (hq : ∃ c ∈ entries.map Prod.fst, QualifiesBy (hueC L) (chromaC L) (0.01 + 1 / 10 ^ 9) entries (filter.getD true) c) :
    ∃ best rest, out = best :: rest ∧ best ∈ entries.map Prod.fst ∧
      QualifiesBy (hueC L) (chromaC L) (0.01 - 1 / 10 ^ 9) entries (filter.getD true) best ∧
      ∀ c ∈ entries.map Prod.fst, QualifiesBy (hueC L) (chromaC L) (0.01 + 1 / 10 ^ 9) entries (filter.getD true) c →
        scoreBy (hueC L) (chromaC L) entries c ≤ scoreBy (hueC L) (chromaC L) entries best + slack L best + slack L c := by
  obtain ⟨h, ranked, d, s, h7⟩ := refinement64 hS hT hZ hc desired fallback filter
  rw [hout] at h7
  obtain rfl := Option.some.inj h7
  have hin (c : Int) (h1 : c ∈ entries.map Prod.fst) (h2 : QualifiesBy (hueC L) (chromaC L) (0.01 + 1 / 10 ^ 9) entries (filter.getD true) c) : c ∈ ranked :=
    (s.mem c).2 ⟨h1, (keeps64 hS hT hZ hc s.hist _ c).1 h2⟩
  have order := s.order
  obtain ⟨q, hq, hq'⟩ := hq
  cases hr : ranked with
  | nil => have := hin q hq hq'; rw [hr] at this; cases this
  | cons best rest =>
    obtain ⟨tail, ht⟩ := (spacedBy_ok L d ranked).2.2.2 best rest hr
    have hb := (s.mem best).1 (by rw [hr]; exact List.mem_cons_self)
    rw [hr] at ht hin order
    refine ⟨best, tail.take ((max 1 (desired.getD 4)).toNat - 1), ?_, hb.1, (keeps64 hS hT hZ hc s.hist _ best).2 hb.2, ?_⟩
    · rw [if_neg (by simp), ht, List.take_cons (by omega)]
    · intro c hcm hcq
      have hle : scoreC h c ≤ scoreC h best := by
        rcases List.mem_cons.1 (hin c hcm hcq) with rfl | h
        · exact le_refl _
        · exact (List.pairwise_cons.1 order).1 c h
      have ha := abs_le.1 (is_scoreC hS hT hZ hc s.hist best).2
      have hb := abs_le.1 (is_scoreC hS hT hZ hc s.hist c).2
      unfold slack
      linarith [ha.1, ha.2, hb.1, hb.2]

/-- C54 (binary64): if the scores of different qualifying colours differ by more than rounding can account for, the order in which the
hash map is iterated does not matter. -/
theorem c54_binary64_order_independent (hS : L.Sound) (hT : L.TempOk) (hZ : L.AtanZero) {entries entries' : List (Int × Int)} (hc : Counts entries)
    (hperm : entries.Perm entries') (desired fallback : Option Int) (filter : Option Bool)
    (hinj : ∀ a ∈ entries.map Prod.fst, ∀ b ∈ entries.map Prod.fst,
      QualifiesBy (hueC L) (chromaC L) (0.01 - 1 / 10 ^ 9) entries (filter.getD true) a →
      QualifiesBy (hueC L) (chromaC L) (0.01 - 1 / 10 ^ 9) entries (filter.getD true) b → a ≠ b →
      slack L a + slack L b < |scoreBy (hueC L) (chromaC L) entries a - scoreBy (hueC L) (chromaC L) entries b|) :
    Score.score 𝔻 entries desired fallback filter = Score.score 𝔻 entries' desired fallback filter := by
  have hp : population entries' = population entries := (hperm.symm.map _).sum_eq
  have hn (m : Int) : popBy (hueC L) entries' m = popBy (hueC L) entries m := (hperm.symm.map _).sum_eq
  have hc' : Counts entries' := ⟨fun e he => hc.nonneg e (hperm.mem_iff.2 he), by rw [hp]; exact hc.pos, by rw [hp]; exact hc.le⟩
  obtain ⟨h, ranked, d, s, h7⟩ := refinement64 hS hT hZ hc desired fallback filter
  obtain ⟨h', ranked', d', s', h7'⟩ := refinement64 hS hT hZ hc' desired fallback filter
  -- the histograms agree
  have hex : excitedProportions h' = excitedProportions h := by
    have e1 : h'.populationSum = h.populationSum := by rw [s'.hist.sum, s.hist.sum, hp]
    have e2 : h'.huePopulation = h.huePopulation := by
      refine List.ext_getElem (by rw [s'.hist.len, s.hist.len]) fun i h1 h2 => ?_
      have hi : i < 360 := by rw [s.hist.len] at h2; exact h2
      have a := s.hist.pop i hi
      have b := s'.hist.pop i hi
      rw [List.getD_eq_getElem _ _ h2] at a
      rw [List.getD_eq_getElem _ _ h1] at b
      rw [a, b, hn]
    unfold excitedProportions
    rw [e1, e2]
  have hsc : scoreC h' = scoreC h := by funext c; unfold scoreC; rw [hex]
  have hrr : ranked.Perm ranked' := by
    refine s.perm.trans (List.Perm.trans ?_ s'.perm.symm)
    rw [hex]
    exact (hperm.map _).filter _
  have heq : ranked = ranked' := by
    refine hrr.eq_of_pairwise (le := fun a b => scoreC h b ≤ scoreC h a) ?_ s.order (by rw [← hsc]; exact s'.order)
    intro a b ha hb hab hba
    by_contra hne
    obtain ⟨a1, a2⟩ := (s.mem a).1 ha
    obtain ⟨b1, b2⟩ := (s.mem b).1 (hrr.mem_iff.2 hb)
    have hlt := hinj a a1 b b1 ((keeps64 hS hT hZ hc s.hist _ a).2 a2) ((keeps64 hS hT hZ hc s.hist _ b).2 b2) hne
    have ea := abs_le.1 (is_scoreC hS hT hZ hc s.hist a).2
    have eb := abs_le.1 (is_scoreC hS hT hZ hc s.hist b).2
    have : |scoreBy (hueC L) (chromaC L) entries a - scoreBy (hueC L) (chromaC L) entries b| ≤ slack L a + slack L b := by
      unfold slack
      rw [abs_le]
      constructor <;> linarith [ea.1, ea.2, eb.1, eb.2]
    linarith
  subst heq
  have hd : d = d' := by
    rcases lt_trichotomy d d' with hl | hl | hl
    · have := s.largest d' hl s'.high
      have := s.low
      rcases s'.enough with h | h <;> omega
    · exact hl
    · have := s'.largest d hl s.high
      have := s'.low
      rcases s.enough with h | h <;> omega
  subst hd
  rw [h7, h7']

/-- C53 does not hold for a map in which every count is zero: all shares are 0/0, NaN is not at most 0.01, and so the filter lets colours
through that no pixel has.  (Exact arithmetic with 0/0 = 0 returns the fallback colour.) -/
theorem c53_binary64_zero_counts (hS : L.Sound) (hT : L.TempOk) (hZ : L.AtanZero) {entries : List (Int × Int)} {desired fallback : Option Int}
    {out : List Int} (hz : ∀ e ∈ entries, e.2 = 0) (hch : ∃ c ∈ entries.map Prod.fst, 5 ≤ chromaC L c)
    (hout : Score.score 𝔻 entries desired fallback (some true) = some out) :
    out ≠ [] ∧ ∀ c ∈ out, c ∈ entries.map Prod.fst ∧ 5 ≤ chromaC L c ∧ ¬ QualifiesBy (hueC L) (chromaC L) 0 entries true c := by
  obtain ⟨h, h1, h2, h3, h4, h5⟩ := histogram_ok64 hS hT hZ entries
  have hs0 (f : Int × Int → Prop) [DecidablePred f] : (entries.map fun e => if f e then e.2 else 0).sum = 0 := by
    refine List.sum_eq_zero ?_
    intro x hx
    obtain ⟨e, he, rfl⟩ := List.mem_map.1 hx
    rw [hz e he, ite_self]
  have hp : population entries = 0 := by
    have := hs0 (fun _ => True)
    simpa [population] using this
  have hs : h.populationSum = 0 := by rw [h3, hp]
  have hpop (m : Nat) : h.huePopulation.getD m 0 = 0 := by
    by_cases hm : m < 360
    · rw [h5 m hm]; exact hs0 _
    · rw [List.getD_eq_getElem?_getD, List.getElem?_eq_none (by omega), Option.getD_none]
  unfold Score.score at hout
  rw [h1] at hout
  have hout := Option.some.inj hout
  obtain ⟨d, -, -, he, -⟩ := Score.chooseRounds_ok (desired.getD 4) (Score.scored true h) 75 []
  have hmem (x : Score.ScoredHct 𝔻) (hx : x ∈ Score.scored true h) : ∃ c ∈ entries.map Prod.fst, 5 ≤ chromaC L c ∧ x.hct = Hct.fromInt c := by
    unfold Score.scored at hx
    simp only at hx
    rw [List.mem_mergeSort] at hx
    obtain ⟨w, hw, rfl⟩ := List.mem_map.1 hx
    obtain ⟨hw, hk⟩ := List.mem_filter.1 hw
    rw [h2] at hw
    obtain ⟨e, he, rfl⟩ := List.mem_map.1 hw
    exact ⟨e.1, List.mem_map.2 ⟨e, he, rfl⟩, (keeps_nan hS h hs hpop e.1).1 hk, rfl⟩
  obtain ⟨c, hc, hc'⟩ := hch
  obtain ⟨e, hem, rfl⟩ := List.mem_map.1 hc
  have hx : (⟨Hct.fromInt e.1, Score.scoreOf (Score.excitedProportions h) (Hct.fromInt e.1)⟩ : Score.ScoredHct 𝔻) ∈ Score.scored true h := by
    unfold Score.scored
    simp only
    rw [List.mem_mergeSort]
    refine List.mem_map.2 ⟨Hct.fromInt e.1, List.mem_filter.2 ⟨?_, (keeps_nan hS h hs hpop e.1).2 hc'⟩, rfl⟩
    rw [h2]
    exact List.mem_map.2 ⟨e, hem, rfl⟩
  have hne : Score.pickAll d (Score.scored true h) [] ≠ [] := by
    rcases (Score.pickAll_ok d (Score.scored true h) [] List.Pairwise.nil).2 _ hx with h | ⟨t, h, -⟩ <;> exact List.ne_nil_of_mem h
  have hch : Score.choose (desired.getD 4) (Score.scored true h) = (Score.pickAll d (Score.scored true h) []).take (max 1 (desired.getD 4)).toNat := he
  have hne' : Score.choose (desired.getD 4) (Score.scored true h) ≠ [] := by
    rw [hch, ne_eq, List.take_eq_nil_iff]
    rintro (h | h)
    · omega
    · exact hne h
  have hout : out = (Score.choose (desired.getD 4) (Score.scored true h)).map Hct.toInt := by
    rw [← hout]
    cases hcc : Score.choose (desired.getD 4) (Score.scored true h) with
    | nil => exact absurd hcc hne'
    | cons a b =>
      have : Score.choose (desired.getD 4) (Score.scored ((some true : Option Bool).getD true) h) = a :: b := hcc
      rw [this]; rfl
  rw [hout]
  refine ⟨by simpa using hne', ?_⟩
  intro c hcm
  obtain ⟨y, hy, rfl⟩ := List.mem_map.1 hcm
  obtain ⟨z, hz', rfl⟩ := List.mem_map.1 ((choose_sublist (desired.getD 4) (Score.scored true h)).1.subset hy)
  obtain ⟨c, c1, c2, c3⟩ := hmem z hz'
  rw [c3]
  refine ⟨c1, c2, fun hq => ?_⟩
  have := (hq rfl).2
  unfold shareBy at this
  rw [hp, Int.cast_zero, div_zero] at this
  exact lt_irrefl _ this

/-- Pure blue has enough chroma for the filter. -/
theorem blue_passes (hS : L.Sound) (hT : L.TempOk) : 5 ≤ chromaC L 0xFF0000FF := by
  obtain ⟨-, hc, -⟩ := cam_near hS hT (argb := 0xFF0000FF) (by unfold NotBlack; decide)
  obtain ⟨v', iv, hv⟩ := hc.rl
  have hv := abs_le.1 hv
  have ev : Dbl.val (Cam16.fromInt 0xFF0000FF : Cam16 𝔻).chroma = v' := iv.2
  rw [← ev] at hv
  have hb := chroma_blue
  have e : chromaC L 0xFF0000FF = Dbl.val (Cam16.fromInt 0xFF0000FF : Cam16 𝔻).chroma := rfl
  rw [e]
  generalize Dbl.val (Cam16.fromInt 0xFF0000FF : Cam16 𝔻).chroma = v at *
  generalize (Cam16.fromInt 0xFF0000FF : Cam16 ℝ).chroma = t at *
  linarith [hv.1]

/-- The hypotheses of `c53_binary64_zero_counts` can be met: a map that says blue occurs 0 times, with a correctly rounding library. -/
example : ∃ L : Libm, Score.score (F64 L) [(0xFF0000FF, 0)] (some 1) none none = some [0xFF0000FF] := by
  obtain ⟨L, hS, hT, -, hZ⟩ := hue_sound_exists
  obtain ⟨out, h⟩ := c52_binary64_no_panic hS hT hZ [(0xFF0000FF, 0)] (some 1) none none
  obtain ⟨h1, h2⟩ := c53_binary64_zero_counts hS hT hZ (by simp) ⟨0xFF0000FF, by simp, blue_passes hS hT⟩ h
  refine ⟨L, ?_⟩
  have hsp := c52_length [(0xFF0000FF, 0)] (some 1) none none out h
  match out, h1, h2, h with
  | [a], _, h2, h => rw [h, List.mem_singleton.1 (h2 a (by simp)).1]
  | a :: b :: _, _, _, _ => simp at hsp; omega

/-- The hypotheses can be met: a map of two colours, with a correctly rounding library. -/
example : ∃ L : Libm, ∃ out, Score.score (F64 L) [(0xFFFF0000, 3), (0xFF0000FF, 1)] (some 2) none none = some out ∧
    Counts [(0xFFFF0000, 3), (0xFF0000FF, 1)] ∧
    (∃ best rest, out = best :: rest ∧ best ∈ [(0xFFFF0000, 3), (0xFF0000FF, 1)].map Prod.fst) ∧
    out.Pairwise fun a b => 15 - 1 / 10 ^ 13 ≤ hueDistance (hueC L a) (hueC L b) := by
  obtain ⟨L, hS, hT, -, hZ⟩ := hue_sound_exists
  have hc : Counts [(0xFFFF0000, 3), (0xFF0000FF, 1)] := ⟨by decide, by decide, by decide⟩
  obtain ⟨out, h⟩ := c52_binary64_no_panic hS hT hZ [(0xFFFF0000, 3), (0xFF0000FF, 1)] (some 2) none none
  have hq : (0.01 : ℝ) + 1 / 10 ^ 9 < shareBy (hueC L) [(0xFFFF0000, 3), (0xFF0000FF, 1)] 0xFF0000FF := by
    obtain ⟨-, hh, -⟩ := hueC_range hS hT hZ 0xFF0000FF
    unfold shareBy
    have hN : Neighbours ⌊hueC L 0xFF0000FF + 1 / 2⌋ ⌊hueC L 0xFF0000FF⌋ := by
      have a1 := Int.floor_le (hueC L 0xFF0000FF)
      have a2 := Int.lt_floor_add_one (hueC L 0xFF0000FF)
      have b1 := Int.floor_le (hueC L 0xFF0000FF + 1 / 2)
      have b2 := Int.lt_floor_add_one (hueC L 0xFF0000FF + 1 / 2)
      have c1 : ⌊hueC L 0xFF0000FF⌋ < ⌊hueC L 0xFF0000FF + 1 / 2⌋ + 1 := by
        have : (⌊hueC L 0xFF0000FF⌋ : ℝ) < ⌊hueC L 0xFF0000FF + 1 / 2⌋ + 1 := by linarith
        exact_mod_cast this
      have c2 : ⌊hueC L 0xFF0000FF + 1 / 2⌋ < ⌊hueC L 0xFF0000FF⌋ + 2 := by
        have : (⌊hueC L 0xFF0000FF + 1 / 2⌋ : ℝ) < ⌊hueC L 0xFF0000FF⌋ + 2 := by linarith
        exact_mod_cast this
      unfold Neighbours
      omega
    have hp : 1 ≤ populationNearBy (hueC L) [(0xFFFF0000, 3), (0xFF0000FF, 1)] ⌊hueC L 0xFF0000FF + 1 / 2⌋ := by
      unfold populationNearBy
      simp only [List.map_cons, List.map_nil, List.sum_cons, List.sum_nil, if_pos hN]
      split_ifs <;> norm_num
    have hp' : (1 : ℝ) ≤ populationNearBy (hueC L) [(0xFFFF0000, 3), (0xFF0000FF, 1)] ⌊hueC L 0xFF0000FF + 1 / 2⌋ := by exact_mod_cast hp
    have ht : population [(0xFFFF0000, 3), (0xFF0000FF, 1)] = 4 := by decide
    rw [ht]
    generalize (populationNearBy (hueC L) [(0xFFFF0000, 3), (0xFF0000FF, 1)] ⌊hueC L 0xFF0000FF + 1 / 2⌋ : ℝ) = P at *
    norm_num
    linarith
  obtain ⟨best, rest, h1, h2, -⟩ := c54_binary64_first hS hT hZ hc h ⟨0xFF0000FF, by simp, fun _ => ⟨blue_passes hS hT, hq⟩⟩
  exact ⟨L, out, h, hc, ⟨best, rest, h1, h2⟩, c53_binary64_spacing hS hT hZ hc h⟩

end Mcu.Props.Binary64
