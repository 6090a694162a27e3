import Verif.Lemmas.F64KMeansStates

/-! C73 and C75 in binary64: what the k-means quantizer reports. -/

namespace Mcu.Props.Binary64

open Mcu.Ieee Lemmas MathUtils ColorUtils QuantizerWsmeans Spec Props

variable {L : Libm}

local notation "𝔻" => F64 L

/-- C73 in binary64, for images of at most a hundred million pixels: the pixels can be put into at most `maxColors` clusters such
that every pixel is mapped to a colour whose channels are within one of those of the exact mean in L*a*b* of its cluster, and every
returned colour is such a colour, with the number of pixels of the cluster as its population. -/
theorem c73_binary64_means (hL : L.PowOk) (pixels : List Int) (maxColors : Int) (starting : List Int) (iterations : Option Int)
    (picks : List Nat) (r : Result)
    (hp : ValidPicks (min maxColors (countPixels pixels).length - starting.length) (countPixels pixels).length picks)
    (hq : quantize 𝔻 pixels maxColors starting iterations (some true) picks = some r) (hi : 1 ≤ iterations.getD 5)
    (hlen : pixels.length ≤ 10 ^ 8) :
    ∃ clusterOf : Int → Nat, (∀ p ∈ pixels, (clusterOf p : Int) < maxColors) ∧
      (∀ p ∈ pixels, ∃ color, r.inputPixelToClusterPixel.lookup p = some color ∧
        ChannelsNear color (labMeanColor (pixels.filter fun q => clusterOf q = clusterOf p))) ∧
      ∀ color population : Int, (color, population) ∈ r.colorToCount → ∃ p ∈ pixels,
        r.inputPixelToClusterPixel.lookup p = some color ∧
        population = (pixels.filter fun q => clusterOf q = clusterOf p).length ∧
        ChannelsNear color (labMeanColor (pixels.filter fun q => clusterOf q = clusterOf p)) := by
  by_cases hm : 0 < maxColors
  swap
  · -- no clusters: no pixels
    have hne : pixels = [] := by
      by_contra hne
      have hpos : 0 < (countPixels pixels).length := by
        obtain ⟨p, hpx⟩ := List.exists_mem_of_ne_nil _ hne
        have := List.length_pos_of_mem ((countPixels_keys pixels p).2 hpx)
        rwa [List.length_map] at this
      have : quantize 𝔻 pixels maxColors starting iterations (some true) picks = none := by
        unfold quantize
        simp only
        rw [if_pos]
        simp only [List.length_map]
        omega
      rw [this] at hq
      cases hq
    subst hne
    obtain ⟨hcol, -⟩ := quantize_after hq
    refine ⟨fun _ => 0, by simp, by simp, ?_⟩
    intro color population he
    exfalso
    rw [hcol] at he
    have hk : (min maxColors ((countPixels []).length : Int)).toNat = 0 := by
      have : ((countPixels []).length : Int) = 0 := by decide
      omega
    rw [hk] at he
    simp [collect] at he
  obtain ⟨clusterOf, -, h1, centre, h2, h3, h4⟩ := clusters_after (F := 𝔻) pixels maxColors starting iterations picks r hp hq hi hm
  have near : ∀ p ∈ pixels, ChannelsNear (pointToInt (centre (clusterOf p))) (labMeanColor (pixels.filter fun q => clusterOf q = clusterOf p)) := by
    intro p hpx
    rw [h4 p hpx]
    exact centre_near hL pixels hlen (fun q => decide (clusterOf q = clusterOf p))
      (List.ne_nil_of_mem (List.mem_filter.2 ⟨hpx, by simp⟩))
  refine ⟨clusterOf, h1, fun p hpx => ⟨_, h2 p hpx, near p hpx⟩, ?_⟩
  intro color population he
  obtain ⟨p, hpx, e1, e2⟩ := h3 color population he
  refine ⟨p, hpx, ?_, e1, ?_⟩
  · rw [e2]; exact h2 p hpx
  · rw [e2]; exact near p hpx

/-- C75 in binary64 (and any other arithmetic), if different clusters are given different colours: every population is the number of
the pixels mapped to the colour, and the populations add up to the number of pixels.  Missing: clusters whose centres round to the
same colour. -/
theorem c75_any_separate_partial {F : Type} [Fl F] (pixels : List Int) (maxColors : Int) (starting : List Int) (iterations : Option Int)
    (picks : List Nat) (r : Result)
    (hp : ValidPicks (min maxColors (countPixels pixels).length - starting.length) (countPixels pixels).length picks)
    (hq : quantize F pixels maxColors starting iterations (some true) picks = some r) (hi : 1 ≤ iterations.getD 5) (hm : 0 < maxColors)
    (hsep : ∀ p ∈ pixels, ∀ q ∈ pixels, r.inputPixelToClusterPixel.lookup p = r.inputPixelToClusterPixel.lookup q →
      clusterAfter F pixels maxColors starting picks (iterations.getD 5).toNat p =
        clusterAfter F pixels maxColors starting picks (iterations.getD 5).toNat q) :
    (∀ color population, (color, population) ∈ r.colorToCount →
      population = (pixels.countP fun p => r.inputPixelToClusterPixel.lookup p == some color : Nat)) ∧
    (r.colorToCount.map Prod.snd).sum = pixels.length := by
  obtain ⟨clusterOf, h0, -, centre, hmap, hcol, -⟩ := clusters_after pixels maxColors starting iterations picks r hp hq hi hm
  have hpop : ∀ color population : Int, (color, population) ∈ r.colorToCount →
      population = (pixels.countP fun p => r.inputPixelToClusterPixel.lookup p == some color : Nat) := by
    intro color population he
    obtain ⟨p, hpx, hpo, hco⟩ := hcol color population he
    rw [hpo, List.countP_eq_length_filter]
    congr 2
    refine List.filter_congr fun q hqx => ?_
    rw [Bool.eq_iff_iff, decide_eq_true_iff, beq_iff_eq]
    have hpc : r.inputPixelToClusterPixel.lookup p = some color := by rw [hmap p hpx, hco]
    constructor
    · intro h
      rw [hmap q hqx, h, ← hco]
    · intro h
      rw [h0, h0]
      exact hsep q hqx p hpx (h.trans hpc.symm)
  refine ⟨hpop, ?_⟩
  have h1 : r.colorToCount.map Prod.snd = (r.colorToCount.map Prod.fst).map fun c =>
      ((pixels.countP fun p => r.inputPixelToClusterPixel.lookup p == some c : Nat) : Int) := by
    rw [List.map_map]
    exact List.map_congr_left fun e he => hpop e.1 e.2 he
  rw [h1]
  obtain ⟨-, hkeys, -, hret⟩ := c50_map pixels maxColors starting iterations picks r hp hq
  refine sum_classes pixels _ (c50_colors pixels maxColors starting iterations (some true) picks r hp hq).1
    (fun p => r.inputPixelToClusterPixel.lookup p) ?_
  intro p hpx
  have hl := hmap p hpx
  exact ⟨_, hret hi _ (mem_of_lookup hl), hl⟩

/-- An image and a starting point that meet the hypotheses of C73: the result exists. -/
example : ValidPicks (min 3 (countPixels skipImage).length - ([grey 0, grey 10, grey 4] : List Int).length)
    (countPixels skipImage).length [] ∧ (quantize 𝔻 skipImage 3 [grey 0, grey 10, grey 4] none (some true) []).isSome = true ∧
    skipImage.length ≤ 10 ^ 8 := by
  refine ⟨⟨by decide, List.nodup_nil, by simp⟩, ?_, by decide⟩
  rw [quantize_state _ _ (by norm_num)]
  rfl

/-- C74 violated in binary64: there is an image which k-means maps, however many rounds are allowed, in such a way that a colour goes
to a returned colour although another returned colour is nearer. -/
theorem c74_binary64_violated (hL : L.PowOk) : ∃ (pixels starting : List Int) (r : Result),
    (∀ rounds : Int, 1 ≤ rounds → quantize 𝔻 pixels 3 starting (some rounds) (some true) [] = some r) ∧
    ∃ p ∈ pixels, ∃ c, r.inputPixelToClusterPixel.lookup p = some c ∧ ∃ d ∈ r.colorToCount.map Prod.fst,
      sqDist (labFromArgb p) (labFromArgb d) < sqDist (labFromArgb p) (labFromArgb c) := by
  refine ⟨farImage, [dark 0 0 0, dark 9 9 9, dark 4 4 4], ⟨[(dark 1 1 1, 3), (dark 9 9 9, 1), (dark 4 4 4, 1)],
      [(dark 0 0 0, dark 1 1 1), (dark 9 9 9, dark 9 9 9), (dark 4 4 4, dark 4 4 4), (dark 3 3 3, dark 1 1 1)]⟩, ?_, dark 3 3 3, by decide,
      dark 1 1 1, rfl, dark 4 4 4, by decide, ?_⟩
  · intro rounds h
    obtain ⟨n, rfl⟩ : ∃ n : Nat, rounds = ((n + 1 : Nat) : Int) := ⟨(rounds - 1).toNat, by omega⟩
    exact far_result hL n
  · rw [lab_dark 1 1 1 (by norm_num) (by norm_num) (by norm_num) (by norm_num) (by norm_num) (by norm_num),
      lab_dark 3 3 3 (by norm_num) (by norm_num) (by norm_num) (by norm_num) (by norm_num) (by norm_num),
      lab_dark 4 4 4 (by norm_num) (by norm_num) (by norm_num) (by norm_num) (by norm_num) (by norm_num)]
    norm_num [darkLab, sqDist]

/-- C75 violated in binary64: there is an image for which the populations do not add up to the number of pixels, however many rounds are
allowed. -/
theorem c75_binary64_violated (hL : L.PowOk) : ∃ (pixels starting : List Int) (r : Result),
    (∀ rounds : Int, 1 ≤ rounds → quantize 𝔻 pixels 2 starting (some rounds) (some true) [] = some r) ∧
    (r.colorToCount.map Prod.snd).sum < pixels.length ∧
    ∃ color population, (color, population) ∈ r.colorToCount ∧
      population ≠ (pixels.countP fun p => r.inputPixelToClusterPixel.lookup p == some color : Nat) := by
  refine ⟨pairImage, [dark 4 4 4, dark 2 2 2], ⟨[(dark 3 3 3, 5)], [(dark 4 3 3, dark 3 3 3), (dark 2 3 3, dark 3 3 3),
      (dark 3 3 4, dark 3 3 3), (dark 3 3 2, dark 3 3 3), (dark 1 4 3, dark 3 3 3), (dark 5 2 3, dark 3 3 3)]⟩, ?_, by decide,
    dark 3 3 3, 5, by decide, by decide⟩
  intro rounds h
  obtain ⟨n, rfl⟩ : ∃ n : Nat, rounds = ((n + 1 : Nat) : Int) := ⟨(rounds - 1).toNat, by omega⟩
  exact pair_result hL n

end Mcu.Props.Binary64
