import Verif.Lemmas.Nearest
import Verif.Props.Wsmeans
import Verif.Props.Color

/-! C72 to C75: what the rounds of the weighted k-means quantizer achieve. -/

namespace Mcu.Props

open ColorUtils Mcu.Spec Mcu.QuantizerWsmeans

section anyArithmetic

variable {F : Type} [Fl F]

/-- The centres to start from: the given colours, filled up by colours of the image. -/
def startCentres (F : Type) [Fl F] (pixels : List Int) (maxColors : Int) (starting : List Int) (picks : List Nat) : List (Vec3 F) :=
  if min maxColors ((countPixels pixels).length : Int) - starting.length > 0 then
    starting.map pointFromInt ++
      picks.map (fun i => (((countPixels pixels).map Prod.fst).map pointFromInt).getD i ⟨0.0, 0.0, 0.0⟩)
  else starting.map pointFromInt

/-- The state of the quantizer when it stops, if at most `n` rounds are allowed. -/
def stateAfter (F : Type) [Fl F] (pixels : List Int) (maxColors : Int) (starting : List Int) (picks : List Nat) (n : Nat) :
    KState F :=
  let k := (min maxColors ((countPixels pixels).length : Int)).toNat
  kLoop k (((countPixels pixels).map Prod.fst).map pointFromInt) ((countPixels pixels).map Prod.snd) n true
    { clusters := startCentres F pixels maxColors starting picks
      clusterIndices := (List.range (countPixels pixels).length).map (· % k)
      distMatrix := List.replicate k ((List.range k).map fun (j : Nat) => ⟨0.0, j⟩)
      pixelCountSums := List.replicate k 0 }

/-- The number of the cluster that a colour of the image is in when the quantizer stops. -/
def clusterAfter (F : Type) [Fl F] (pixels : List Int) (maxColors : Int) (starting : List Int) (picks : List Nat) (n : Nat)
    (color : Int) : Nat :=
  (stateAfter F pixels maxColors starting picks n).clusterIndices.getD (((countPixels pixels).map Prod.fst).idxOf color) 0

/-- The centre of that cluster. -/
def centreAfter (F : Type) [Fl F] (pixels : List Int) (maxColors : Int) (starting : List Int) (picks : List Nat) (n : Nat)
    (color : Int) : Vec3 F :=
  (stateAfter F pixels maxColors starting picks n).clusters.getD (clusterAfter F pixels maxColors starting picks n color)
    ⟨0.0, 0.0, 0.0⟩

/-- The result is read off that state. -/
theorem quantize_after {pixels : List Int} {maxColors : Int} {starting : List Int} {iterations : Option Int}
    {returnMap : Option Bool} {picks : List Nat} {r : Result}
    (hq : quantize F pixels maxColors starting iterations returnMap picks = some r) :
    r.colorToCount = collect ((stateAfter F pixels maxColors starting picks (iterations.getD 5).toNat).clusters.take
        (min maxColors ((countPixels pixels).length : Int)).toNat)
      (stateAfter F pixels maxColors starting picks (iterations.getD 5).toNat).pixelCountSums ∧
    r.inputPixelToClusterPixel = if returnMap.getD false then
      (((countPixels pixels).map Prod.fst).zip
        (stateAfter F pixels maxColors starting picks (iterations.getD 5).toNat).clusterIndices).map fun (p, ci) =>
          (p, pointToInt ((stateAfter F pixels maxColors starting picks (iterations.getD 5).toNat).clusters.getD ci ⟨0.0, 0.0, 0.0⟩))
      else [] := by
  by_cases h : min maxColors ((countPixels pixels).length : Int) < 0 ∨
      (min maxColors ((countPixels pixels).length : Int) = 0 ∧ (countPixels pixels).length ≠ 0)
  · unfold quantize at hq
    simp only [List.length_map] at hq
    rw [if_pos h] at hq
    cases hq
  · unfold quantize at hq
    simp only [List.length_map] at hq
    rw [if_neg h] at hq
    have hr := (Option.some.inj hq).symm
    exact ⟨congrArg Result.colorToCount hr, congrArg Result.inputPixelToClusterPixel hr⟩

/-- The loop starts from a good state. -/
theorem start_inv {pixels : List Int} {maxColors : Int} {starting : List Int} {picks : List Nat}
    (hp : ValidPicks (min maxColors (countPixels pixels).length - starting.length) (countPixels pixels).length picks)
    (hm : 0 < maxColors) :
    KInv (min maxColors ((countPixels pixels).length : Int)).toNat
      (((countPixels pixels).map Prod.fst).map (pointFromInt (F := F))).length
      ({ clusters := startCentres F pixels maxColors starting picks
         clusterIndices := (List.range (countPixels pixels).length).map (· % (min maxColors ((countPixels pixels).length : Int)).toNat)
         distMatrix := List.replicate (min maxColors ((countPixels pixels).length : Int)).toNat
          ((List.range (min maxColors ((countPixels pixels).length : Int)).toNat).map fun (j : Nat) => ⟨0.0, j⟩)
         pixelCountSums := List.replicate (min maxColors ((countPixels pixels).length : Int)).toNat 0 } : KState F) := by
  refine ⟨by simp, ?_, ?_⟩
  · intro i hi
    obtain ⟨j, hj, rfl⟩ := List.mem_map.1 hi
    have := List.mem_range.1 hj
    exact Nat.mod_lt _ (by omega)
  · show _ ≤ (startCentres F pixels maxColors starting picks).length
    unfold startCentres
    have := hp.1
    split_ifs with hg
    · rw [List.length_append, List.length_map, List.length_map]; omega
    · rw [List.length_map]; omega

theorem stateAfter_inv {pixels : List Int} {maxColors : Int} {starting : List Int} {picks : List Nat}
    (hp : ValidPicks (min maxColors (countPixels pixels).length - starting.length) (countPixels pixels).length picks)
    (hm : 0 < maxColors) (n : Nat) :
    KInv (min maxColors ((countPixels pixels).length : Int)).toNat (countPixels pixels).length
      (stateAfter F pixels maxColors starting picks n) := by
  have := (kLoop_ok (F := F) _ (((countPixels pixels).map Prod.fst).map pointFromInt) ((countPixels pixels).map Prod.snd)
    (by simp) (countPixels_pos pixels) n true _ (start_inv hp hm) (by simp)).1
  rw [List.length_map, List.length_map] at this
  exact this

end anyArithmetic

/-- Points, counts and clusters listed by the colours of the image. -/
theorem triples_eq {F : Type} (pixels : List Int) (idx : List Nat) (hl : idx.length = (countPixels pixels).length) (P : Int → Vec3 F) :
    ((((countPixels pixels).map Prod.fst).map P).zip ((countPixels pixels).map Prod.snd)).zip idx =
      (countPixels pixels).map fun e => ((P e.1, e.2), idx.getD (((countPixels pixels).map Prod.fst).idxOf e.1) 0) := by
  have hn := countPixels_nodup pixels
  apply List.ext_getElem
  · simp [hl]
  · intro i h1 h2
    rw [List.length_map] at h2
    have hi : ((countPixels pixels).map Prod.fst).idxOf (countPixels pixels)[i].1 = i := by
      have := hn.idxOf_getElem i (by rw [List.length_map]; exact h2)
      rwa [List.getElem_map] at this
    simp only [List.getElem_zip, List.getElem_map]
    rw [hi, List.getD_eq_getElem?_getD, List.getElem?_eq_getElem (by omega), Option.getD_some]

/-- Summing over the pixels by way of the multiplicities. -/
theorem sum_pixels (pixels : List Int) (f : Int → ℝ) :
    ((countPixels pixels).map fun e => f e.1 * (e.2 : ℝ)).sum = (pixels.map f).sum := by
  rw [Finset.sum_list_map_count pixels f]
  have h1 : ((countPixels pixels).map fun e => f e.1 * (e.2 : ℝ)) =
      ((countPixels pixels).map Prod.fst).map fun c => pixels.count c • f c := by
    rw [List.map_map]
    refine List.map_congr_left fun e he => ?_
    have := ((countPixels_mem pixels e.1 e.2).1 he).2
    simp only [Function.comp, nsmul_eq_mul]
    rw [this, mul_comm]
    push_cast
    rfl
  rw [h1, ← List.sum_toFinset _ (countPixels_nodup pixels)]
  refine Finset.sum_congr ?_ fun _ _ => rfl
  ext c
  rw [List.mem_toFinset, List.mem_toFinset, countPixels_keys]

theorem sum_filter (l : List Int) (c : Int → Bool) (f : Int → ℝ) :
    (l.map fun p => if c p = true then f p else 0).sum = ((l.filter c).map f).sum := by
  induction l with
  | nil => rfl
  | cons x rest ih =>
    rw [List.map_cons, List.sum_cons, ih]
    by_cases h : c x = true
    · rw [if_pos h, List.filter_cons_of_pos h, List.map_cons, List.sum_cons]
    · rw [if_neg h, List.filter_cons_of_neg h, zero_add]

/-- The cost of the state is the cost of representing the image by the centres. -/
theorem imageCost_eq (pixels : List Int) (maxColors : Int) (starting : List Int) (picks : List Nat)
    (hp : ValidPicks (min maxColors (countPixels pixels).length - starting.length) (countPixels pixels).length picks)
    (hm : 0 < maxColors) (n : Nat) :
    stateCost (((countPixels pixels).map Prod.fst).map pointFromInt) ((countPixels pixels).map Prod.snd)
      (stateAfter ℝ pixels maxColors starting picks n) =
      imageCost pixels (centreAfter ℝ pixels maxColors starting picks n) := by
  have inv := stateAfter_inv (F := ℝ) hp hm n
  unfold stateCost clusterCost imageCost
  rw [triples_eq pixels _ inv.indicesLength, List.map_map, ← sum_pixels]
  congr 1
  refine List.map_congr_left fun e _ => ?_
  simp only [Function.comp, centreAfter, clusterAfter, origin_eq]
  rw [mul_comm]
  rfl

/-- C72: allowing more rounds never makes the clustering worse: the sum over all pixels of the squared distance in L*a*b* to the
centre of the pixel's cluster does not increase. -/
theorem c72_cost (pixels : List Int) (maxColors : Int) (starting : List Int) (picks : List Nat)
    (hp : ValidPicks (min maxColors (countPixels pixels).length - starting.length) (countPixels pixels).length picks)
    (hm : 0 < maxColors) (n m : Nat) (h : n ≤ m) :
    imageCost pixels (centreAfter ℝ pixels maxColors starting picks m) ≤
      imageCost pixels (centreAfter ℝ pixels maxColors starting picks n) := by
  rw [← imageCost_eq pixels maxColors starting picks hp hm, ← imageCost_eq pixels maxColors starting picks hp hm]
  obtain ⟨d, rfl⟩ := Nat.exists_eq_add_of_le h
  exact kLoop_more _ _ _ (by simp) (countPixels_pos pixels) n d true _ (start_inv hp hm)

/-- C72: the centres are what the quantizer reports: a colour of the image is mapped to the 8-bit colour of its centre. -/
theorem c72_map {F : Type} [Fl F] (pixels : List Int) (maxColors : Int) (starting : List Int) (iterations : Option Int)
    (picks : List Nat) (r : Result)
    (hp : ValidPicks (min maxColors (countPixels pixels).length - starting.length) (countPixels pixels).length picks)
    (hm : 0 < maxColors) (hq : quantize F pixels maxColors starting iterations (some true) picks = some r) (p : Int)
    (hpx : p ∈ pixels) :
    r.inputPixelToClusterPixel.lookup p =
      some (pointToInt (centreAfter F pixels maxColors starting picks (iterations.getD 5).toNat p)) := by
  obtain ⟨-, hmap⟩ := quantize_after hq
  have hkn := (c50_map pixels maxColors starting iterations picks r hp hq).1
  have inv := stateAfter_inv (F := F) hp hm (iterations.getD 5).toNat
  refine lookup_of_mem (e := (p, _)) hkn ?_
  rw [hmap]
  refine List.mem_map.2 ⟨(p, clusterAfter F pixels maxColors starting picks (iterations.getD 5).toNat p), ?_, rfl⟩
  have hmem := (countPixels_keys pixels p).2 hpx
  have hlt := List.idxOf_lt_length_of_mem hmem
  rw [List.mem_iff_getElem]
  have hil := inv.indicesLength
  have hlt2 := hlt
  rw [List.length_map] at hlt2
  refine ⟨((countPixels pixels).map Prod.fst).idxOf p, by rw [List.length_zip]; omega, ?_⟩
  rw [List.getElem_zip, List.getElem_idxOf]
  unfold clusterAfter
  rw [List.getD_eq_getElem?_getD, List.getElem?_eq_getElem (by omega), Option.getD_some]

theorem inCluster_eq (pixels : List Int) (idx : List Nat) (hl : idx.length = (countPixels pixels).length) (f : Vec3 ℝ → ℝ) (j : Nat) :
    inCluster (((((countPixels pixels).map Prod.fst).map pointFromInt).zip ((countPixels pixels).map Prod.snd)).zip idx) f j =
      ((pixels.filter fun p => idx.getD (((countPixels pixels).map Prod.fst).idxOf p) 0 = j).map
        fun p => f (labFromArgb p)).sum := by
  rw [triples_eq pixels idx hl]
  unfold inCluster
  rw [List.map_map, ← sum_filter, ← sum_pixels]
  congr 1
  refine List.map_congr_left fun e _ => ?_
  simp only [Function.comp, decide_eq_true_eq]
  split_ifs
  · rfl
  · rw [zero_mul]

/-- What is reported, in terms of the clusters. -/
theorem means_after (pixels : List Int) (maxColors : Int) (starting : List Int) (iterations : Option Int)
    (picks : List Nat) (r : Result)
    (hp : ValidPicks (min maxColors (countPixels pixels).length - starting.length) (countPixels pixels).length picks)
    (hq : quantize ℝ pixels maxColors starting iterations (some true) picks = some r) (hi : 1 ≤ iterations.getD 5)
    (hm : 0 < maxColors) :
    (∀ p ∈ pixels, (clusterAfter ℝ pixels maxColors starting picks (iterations.getD 5).toNat p : Int) < maxColors) ∧
      (∀ p ∈ pixels, r.inputPixelToClusterPixel.lookup p =
        some (labMeanColor (pixels.filter fun q => clusterAfter ℝ pixels maxColors starting picks (iterations.getD 5).toNat q =
          clusterAfter ℝ pixels maxColors starting picks (iterations.getD 5).toNat p))) ∧
      ∀ color population : Int, (color, population) ∈ r.colorToCount → ∃ p ∈ pixels,
        population = (pixels.filter fun q => clusterAfter ℝ pixels maxColors starting picks (iterations.getD 5).toNat q =
          clusterAfter ℝ pixels maxColors starting picks (iterations.getD 5).toNat p).length ∧
        color = labMeanColor (pixels.filter fun q => clusterAfter ℝ pixels maxColors starting picks (iterations.getD 5).toNat q =
          clusterAfter ℝ pixels maxColors starting picks (iterations.getD 5).toNat p) := by
  have hn : 0 < (iterations.getD 5).toNat := by omega
  have inv := stateAfter_inv (F := ℝ) hp hm (iterations.getD 5).toNat
  have hmap := c72_map pixels maxColors starting iterations picks r hp hm hq
  have hcent := kLoop_centres (F := ℝ) _ (((countPixels pixels).map Prod.fst).map pointFromInt) ((countPixels pixels).map Prod.snd)
    (by simp) (countPixels_pos pixels) (iterations.getD 5).toNat true _ (start_inv hp hm) (fun _ => hn) (by simp)
  have hsums := (kLoop_ok (F := ℝ) _ (((countPixels pixels).map Prod.fst).map pointFromInt) ((countPixels pixels).map Prod.snd)
    (by simp) (countPixels_pos pixels) (iterations.getD 5).toNat true _ (start_inv hp hm) (by simp)).2
  obtain ⟨hcol, -⟩ := quantize_after hq
  change ∃ rest, (stateAfter ℝ pixels maxColors starting picks (iterations.getD 5).toNat).clusters =
    List.zipWith centroid (componentSums _ _ _ (stateAfter ℝ pixels maxColors starting picks (iterations.getD 5).toNat).clusterIndices)
      (countSums _ _ (stateAfter ℝ pixels maxColors starting picks (iterations.getD 5).toNat).clusterIndices) ++ rest at hcent
  replace hsums : (stateAfter ℝ pixels maxColors starting picks (iterations.getD 5).toNat).pixelCountSums =
      countSums (min maxColors ((countPixels pixels).length : Int)).toNat ((countPixels pixels).map Prod.snd)
        (stateAfter ℝ pixels maxColors starting picks (iterations.getD 5).toNat).clusterIndices := by
    rcases hsums with ⟨h, -⟩ | h
    · omega
    · exact h
  set k := (min maxColors ((countPixels pixels).length : Int)).toNat with hk
  have hcl : ∀ p ∈ pixels, clusterAfter ℝ pixels maxColors starting picks (iterations.getD 5).toNat p < k := by
    intro p hpx
    have hlt := List.idxOf_lt_length_of_mem ((countPixels_keys pixels p).2 hpx)
    rw [List.length_map] at hlt
    unfold clusterAfter
    have hil := inv.indicesLength
    rw [List.getD_eq_getElem?_getD, List.getElem?_eq_getElem (by omega), Option.getD_some]
    exact inv.indicesLt _ (List.getElem_mem _)
  unfold centreAfter at hmap
  unfold clusterAfter at hmap hcl ⊢
  generalize stateAfter ℝ pixels maxColors starting picks (iterations.getD 5).toNat = s at *
  obtain ⟨rest, hcent⟩ := hcent
  set clusterOf : Int → Nat := fun p => s.clusterIndices.getD (((countPixels pixels).map Prod.fst).idxOf p) 0 with hco
  -- counts and centres of the clusters
  have hcount : ∀ j, ((s.pixelCountSums.getD j 0 : Int) : ℝ) = ((pixels.filter fun q => clusterOf q = j).length : ℝ) := by
    intro j
    rw [hsums, countSums_eq k (((countPixels pixels).map Prod.fst).map pointFromInt) _ s.clusterIndices (by simp) inv.indicesLt,
      inCluster_eq pixels s.clusterIndices inv.indicesLength]
    simp [hco]
  have hmean : ∀ j < k, (pixels.filter fun q => clusterOf q = j) ≠ [] →
      s.clusters.getD j ⟨0, 0, 0⟩ = meanLab (pixels.filter fun q => clusterOf q = j) := by
    intro j hj hne
    have hlen := List.length_pos_of_ne_nil hne
    have hone : inCluster (((((countPixels pixels).map Prod.fst).map pointFromInt).zip ((countPixels pixels).map Prod.snd)).zip
        s.clusterIndices) (fun _ => 1) j = ((pixels.filter fun q => clusterOf q = j).length : ℝ) := by
      rw [inCluster_eq pixels s.clusterIndices inv.indicesLength]
      simp [hco]
    rw [hcent, centres_eq k _ _ s.clusterIndices (by simp) (by simp [inv.indicesLength]) (countPixels_pos pixels) inv.indicesLt
      rest j hj (by rw [hone]; exact_mod_cast hlen.ne'), hone,
      inCluster_eq pixels s.clusterIndices inv.indicesLength, inCluster_eq pixels s.clusterIndices inv.indicesLength,
      inCluster_eq pixels s.clusterIndices inv.indicesLength]
    rfl
  have hself : ∀ p ∈ pixels, (pixels.filter fun q => clusterOf q = clusterOf p) ≠ [] := by
    intro p hpx
    exact List.ne_nil_of_mem (List.mem_filter.2 ⟨hpx, by simp⟩)
  refine ⟨?_, ?_, ?_⟩
  · intro p hpx
    have h := hcl p hpx
    show ((s.clusterIndices.getD (((countPixels pixels).map Prod.fst).idxOf p) 0 : Nat) : Int) < maxColors
    omega
  · intro p hpx
    rw [hmap p hpx, origin_eq]
    show some (pointToInt (s.clusters.getD (clusterOf p) ⟨0, 0, 0⟩)) = _
    rw [hmean _ (hcl p hpx) (hself p hpx)]
    rfl
  · intro color population he
    have hsl := (countSums_ok k ((countPixels pixels).map Prod.snd) s.clusterIndices (by simp [inv.indicesLength]) inv.indicesLt
      (countPixels_pos pixels))
    rw [← hsums] at hsl
    obtain ⟨c1, -, c3, -⟩ := hsl
    obtain ⟨-, -, -, -, -, -, c7⟩ := collect_ok ((s.clusters.take k).zip s.pixelCountSums) []
      (fun p hp => c3 _ (List.of_mem_zip hp).2) List.nodup_nil (by simp)
    rw [← collect_eq, ← hcol] at c7
    rcases c7 _ he with h | ⟨⟨c, m⟩, hcn, hne, heq⟩
    · cases h
    · obtain ⟨j, hj, hgj⟩ := List.mem_iff_getElem.1 hcn
      have hkl := inv.clustersLength
      rw [List.length_zip, List.length_take] at hj
      rw [List.getElem_zip, List.getElem_take] at hgj
      have hcj : s.clusters.getD j ⟨0, 0, 0⟩ = c := by
        rw [List.getD_eq_getElem?_getD, List.getElem?_eq_getElem (by omega), Option.getD_some]
        exact (Prod.mk.inj hgj).1
      have hmj : s.pixelCountSums.getD j 0 = m := by
        rw [List.getD_eq_getElem?_getD, List.getElem?_eq_getElem (by omega), Option.getD_some]
        exact (Prod.mk.inj hgj).2
      have hm2 := hcount j
      rw [hmj] at hm2
      have hm3 : m = ((pixels.filter fun q => clusterOf q = j).length : Int) := by exact_mod_cast hm2
      have hne2 : (pixels.filter fun q => clusterOf q = j) ≠ [] := by
        intro h0
        rw [h0] at hm3
        exact hne (by simpa using hm3)
      obtain ⟨p, hpf⟩ := List.exists_mem_of_ne_nil _ hne2
      obtain ⟨hpx, hpj⟩ := List.mem_filter.1 hpf
      have hpj : clusterOf p = j := by simpa using hpj
      refine ⟨p, hpx, ?_, ?_⟩
      · show population = ((pixels.filter fun q => clusterOf q = clusterOf p).length : Int)
        rw [hpj, ← hm3]; exact (Prod.mk.inj heq).2
      · show color = labMeanColor (pixels.filter fun q => clusterOf q = clusterOf p)
        rw [hpj, (Prod.mk.inj heq).1, ← hcj, hmean j (by omega) hne2]; rfl

/-- C73: the clusters.  If at least one round is allowed, the colours of the image fall into at most `maxColors` clusters such that
every colour is mapped to the mean in L*a*b* of all pixels of its cluster, rounded to eight bits, and every reported colour is such a
mean, reported with the number of pixels of the cluster. -/
theorem c73_means (pixels : List Int) (maxColors : Int) (starting : List Int) (iterations : Option Int)
    (picks : List Nat) (r : Result)
    (hp : ValidPicks (min maxColors (countPixels pixels).length - starting.length) (countPixels pixels).length picks)
    (hq : quantize ℝ pixels maxColors starting iterations (some true) picks = some r) (hi : 1 ≤ iterations.getD 5) :
    ∃ clusterOf : Int → Nat, (∀ p ∈ pixels, (clusterOf p : Int) < maxColors) ∧
      (∀ p ∈ pixels, r.inputPixelToClusterPixel.lookup p =
        some (labMeanColor (pixels.filter fun q => clusterOf q = clusterOf p))) ∧
      ∀ color population : Int, (color, population) ∈ r.colorToCount → ∃ p ∈ pixels,
        population = (pixels.filter fun q => clusterOf q = clusterOf p).length ∧
        color = labMeanColor (pixels.filter fun q => clusterOf q = clusterOf p) := by
  by_cases hm : 0 < maxColors
  swap
  · -- no clusters: no pixels
    have h0 : pixels = [] := by
      by_contra hne
      have : quantize ℝ pixels maxColors starting iterations (some true) picks = none := by
        rw [c50_panics_iff]
        rcases lt_or_eq_of_le (not_lt.1 hm) with h | h
        · exact Or.inl h
        · exact Or.inr ⟨h, hne⟩
      rw [this] at hq
      cases hq
    subst h0
    have hl := (c50_length [] maxColors starting iterations (some true) picks r hp hq).2
    have hc : r.colorToCount = [] := List.eq_nil_of_length_eq_zero (by simpa using hl)
    refine ⟨fun _ => 0, by simp, by simp, ?_⟩
    intro color population he
    rw [hc] at he
    cases he
  exact ⟨_, means_after pixels maxColors starting iterations picks r hp hq hi hm⟩

/-! ### C74 -/

/-- The result, as long as at least one colour is asked for. -/
theorem quantize_state {F : Type} [Fl F] (pixels : List Int) (maxColors : Int) (hm : 0 < maxColors) (starting : List Int)
    (iterations : Option Int) (returnMap : Option Bool) (picks : List Nat) :
    quantize F pixels maxColors starting iterations returnMap picks =
      some ⟨collect ((stateAfter F pixels maxColors starting picks (iterations.getD 5).toNat).clusters.take
          (min maxColors ((countPixels pixels).length : Int)).toNat)
        (stateAfter F pixels maxColors starting picks (iterations.getD 5).toNat).pixelCountSums,
      if returnMap.getD false then
        (((countPixels pixels).map Prod.fst).zip
          (stateAfter F pixels maxColors starting picks (iterations.getD 5).toNat).clusterIndices).map fun (p, ci) =>
            (p, pointToInt ((stateAfter F pixels maxColors starting picks (iterations.getD 5).toNat).clusters.getD ci ⟨0.0, 0.0, 0.0⟩))
        else []⟩ := by
  cases hq : quantize F pixels maxColors starting iterations returnMap picks with
  | none => rw [c50_panics_iff] at hq; omega
  | some r =>
    obtain ⟨h1, h2⟩ := quantize_after hq
    rw [← h1, ← h2]

theorem pointToInt_dark (v : Int) (h0 : 0 ≤ v) (h1 : v ≤ 10) : pointToInt (darkPoint v) = grey v := by
  rw [← dark_point v h0 h1]
  unfold pointToInt pointFromInt
  exact c13_lab_identity _ (by unfold grey; omega)

/-- An image in which a colour is not mapped to the nearest returned colour: black twice, and the greys 10, 4 and 3. -/
def skipImage : List Int := [grey 0, grey 0, grey 10, grey 4, grey 3]

theorem skip_state (n : Nat) :
    (stateAfter ℝ skipImage 3 [grey 0, grey 10, grey 4] [] (n + 1)).clusters = [darkPoint 1, darkPoint 10, darkPoint 4] ∧
    (stateAfter ℝ skipImage 3 [grey 0, grey 10, grey 4] [] (n + 1)).clusterIndices = [0, 1, 2, 0] ∧
    (stateAfter ℝ skipImage 3 [grey 0, grey 10, grey 4] [] (n + 1)).pixelCountSums = [3, 1, 1] := by
  have hpt : ((countPixels skipImage).map Prod.fst).map (pointFromInt (F := ℝ)) = skipPoints := by
    show [pointFromInt (grey 0), pointFromInt (grey 10), pointFromInt (grey 4), pointFromInt (grey 3)] = skipPoints
    rw [dark_point 0 (by norm_num) (by norm_num), dark_point 10 (by norm_num) (by norm_num), dark_point 4 (by norm_num) (by norm_num),
      dark_point 3 (by norm_num) (by norm_num)]
    norm_num [skipPoints]
  have hst : startCentres ℝ skipImage 3 [grey 0, grey 10, grey 4] [] = [darkPoint 0, darkPoint 10, darkPoint 4] := by
    show [pointFromInt (grey 0), pointFromInt (grey 10), pointFromInt (grey 4)] = _
    rw [dark_point 0 (by norm_num) (by norm_num), dark_point 10 (by norm_num) (by norm_num), dark_point 4 (by norm_num) (by norm_num)]
    norm_num
  unfold stateAfter
  simp only
  rw [hpt, hst]
  have hk : (min (3:Int) ((countPixels skipImage).length : Int)).toNat = 3 := by decide
  have hcounts : (countPixels skipImage).map Prod.snd = [2, 1, 1, 1] := by decide
  have hidx : (List.range (countPixels skipImage).length).map (· % 3) = [0, 1, 2, 0] := by decide
  rw [hk, hcounts, hidx, kLoop_succ]
  simp only [Bool.not_true, Bool.and_false, Bool.false_eq_true, if_false]
  obtain ⟨n1, n2, n3, n4, n5⟩ := skip_next
    { clusters := [darkPoint 0, darkPoint 10, darkPoint 4], clusterIndices := [0, 1, 2, 0],
      distMatrix := List.replicate 3 ((List.range 3).map fun (j : Nat) => ⟨0.0, j⟩), pixelCountSums := List.replicate 3 0 }
    rfl rfl rfl rfl
  obtain ⟨s1, s2, s3⟩ := kLoop_settled 3 skipPoints [2, 1, 1, 1] n _
    ⟨by rw [n2]; rfl, by rw [n2]; simp, by rw [n1]; rfl⟩
    (skip_stay _ 1 (by norm_num) (le_refl _) n1 n2 n4 n5)
  exact ⟨s1.trans n1, s2.trans n2, s3.trans n3⟩

/-- What comes out, starting from black and the greys 10 and 4. -/
theorem skip_result (n : Nat) : quantize ℝ skipImage 3 [grey 0, grey 10, grey 4] (some (n + 1 : Nat)) (some true) [] =
    some ⟨[(grey 1, 3), (grey 10, 1), (grey 4, 1)],
      [(grey 0, grey 1), (grey 10, grey 10), (grey 4, grey 4), (grey 3, grey 1)]⟩ := by
  rw [quantize_state _ _ (by norm_num)]
  have hn : ((some ((n + 1 : Nat) : Int)).getD 5).toNat = n + 1 := by simp
  rw [hn]
  obtain ⟨h1, h2, h3⟩ := skip_state n
  have p1 := pointToInt_dark 1 (by norm_num) (by norm_num)
  have p10 := pointToInt_dark 10 (by norm_num) (by norm_num)
  have p4 := pointToInt_dark 4 (by norm_num) (by norm_num)
  norm_num at p1 p10 p4
  rw [h1, h2, h3]
  have hk : (min (3:Int) ((countPixels skipImage).length : Int)).toNat = 3 := by decide
  rw [hk]
  have hkeys : (countPixels skipImage).map Prod.fst = [grey 0, grey 10, grey 4, grey 3] := by decide
  rw [hkeys]
  congr 2
  · show ([darkPoint 1, darkPoint 10, darkPoint 4].zip [3, 1, 1]).foldl collectStep [] = _
    simp only [List.zip_cons_cons, List.zip_nil_left, List.foldl_cons, List.foldl_nil, collectStep, p1, p10, p4]
    rfl
  · simp only [Option.getD_some, if_true, List.zip_cons_cons, List.zip_nil_left, List.map_cons, List.map_nil, List.getD_cons_zero,
      List.getD_cons_succ, p1, p10, p4]

example : ValidPicks (min 3 (countPixels skipImage).length - ([grey 0, grey 10, grey 4] : List Int).length)
    (countPixels skipImage).length [] := ⟨by decide, List.nodup_nil, by simp⟩

/-- An image for which two clusters get the same centre: the greys 2, 3 and 4. -/
def twinImage : List Int := [grey 2, grey 3, grey 4]

theorem twin_state (n : Nat) :
    (stateAfter ℝ twinImage 2 [grey 3, grey 3] [] (n + 1)).clusters = [darkPoint 3, darkPoint 3] ∧
    (stateAfter ℝ twinImage 2 [grey 3, grey 3] [] (n + 1)).clusterIndices = [0, 1, 0] ∧
    (stateAfter ℝ twinImage 2 [grey 3, grey 3] [] (n + 1)).pixelCountSums = [2, 1] := by
  have hpt : ((countPixels twinImage).map Prod.fst).map (pointFromInt (F := ℝ)) = [darkPoint 2, darkPoint 3, darkPoint 4] := by
    show [pointFromInt (grey 2), pointFromInt (grey 3), pointFromInt (grey 4)] = _
    rw [dark_point 2 (by norm_num) (by norm_num), dark_point 3 (by norm_num) (by norm_num), dark_point 4 (by norm_num) (by norm_num)]
    norm_num
  have hst : startCentres ℝ twinImage 2 [grey 3, grey 3] [] = [darkPoint 3, darkPoint 3] := by
    show [pointFromInt (grey 3), pointFromInt (grey 3)] = _
    rw [dark_point 3 (by norm_num) (by norm_num)]
    norm_num
  unfold stateAfter
  simp only
  rw [hpt, hst]
  have hk : (min (2:Int) ((countPixels twinImage).length : Int)).toNat = 2 := by decide
  have hcounts : (countPixels twinImage).map Prod.snd = [1, 1, 1] := by decide
  have hidx : (List.range (countPixels twinImage).length).map (· % 2) = [0, 1, 0] := by decide
  rw [hk, hcounts, hidx, kLoop_succ]
  simp only [Bool.not_true, Bool.and_false, Bool.false_eq_true, if_false]
  obtain ⟨n1, n2, n3⟩ := same_next
    { clusters := [darkPoint 3, darkPoint 3], clusterIndices := [0, 1, 0],
      distMatrix := List.replicate 2 ((List.range 2).map fun (j : Nat) => ⟨0.0, j⟩), pixelCountSums := List.replicate 2 0 }
    rfl rfl
  obtain ⟨s1, s2, s3⟩ := kLoop_settled 2 [darkPoint 2, darkPoint 3, darkPoint 4] [1, 1, 1] n _
    ⟨by rw [n2]; rfl, by rw [n2]; simp, by rw [n1]; rfl⟩ (same_stay _ n1 n2)
  exact ⟨s1.trans n1, s2.trans n2, s3.trans n3⟩

theorem twin_result (n : Nat) : quantize ℝ twinImage 2 [grey 3, grey 3] (some (n + 1 : Nat)) (some true) [] =
    some ⟨[(grey 3, 2)], [(grey 2, grey 3), (grey 3, grey 3), (grey 4, grey 3)]⟩ := by
  rw [quantize_state _ _ (by norm_num)]
  have hn : ((some ((n + 1 : Nat) : Int)).getD 5).toNat = n + 1 := by simp
  rw [hn]
  obtain ⟨h1, h2, h3⟩ := twin_state n
  have p3 := pointToInt_dark 3 (by norm_num) (by norm_num)
  norm_num at p3
  rw [h1, h2, h3]
  have hk : (min (2:Int) ((countPixels twinImage).length : Int)).toNat = 2 := by decide
  have hkeys : (countPixels twinImage).map Prod.fst = [grey 2, grey 3, grey 4] := by decide
  rw [hk, hkeys]
  congr 2
  · show ([darkPoint 3, darkPoint 3].zip [2, 1]).foldl collectStep [] = _
    simp only [List.zip_cons_cons, List.zip_nil_left, List.foldl_cons, List.foldl_nil, collectStep, p3]
    rfl
  · simp only [Option.getD_some, if_true, List.zip_cons_cons, List.zip_nil_left, List.map_cons, List.map_nil, List.getD_cons_zero,
      List.getD_cons_succ, p3]

/-- C74 violated: there is an image which k-means maps, however many rounds are allowed, in such a way that a colour goes to a returned
colour although another returned colour is nearer. -/
theorem c74_violated : ∃ (pixels starting : List Int) (r : Result),
    (∀ rounds : Int, 1 ≤ rounds → quantize ℝ pixels 3 starting (some rounds) (some true) [] = some r) ∧
    ∃ p ∈ pixels, ∃ c, r.inputPixelToClusterPixel.lookup p = some c ∧ ∃ d ∈ r.colorToCount.map Prod.fst,
      sqDist (labFromArgb p) (labFromArgb d) < sqDist (labFromArgb p) (labFromArgb c) := by
  refine ⟨skipImage, [grey 0, grey 10, grey 4], ⟨[(grey 1, 3), (grey 10, 1), (grey 4, 1)],
    [(grey 0, grey 1), (grey 10, grey 10), (grey 4, grey 4), (grey 3, grey 1)]⟩, ?_, grey 3, by decide, grey 1, rfl, grey 4, by decide, ?_⟩
  · intro rounds h
    obtain ⟨n, rfl⟩ : ∃ n : Nat, rounds = ((n + 1 : Nat) : Int) := ⟨(rounds - 1).toNat, by omega⟩
    exact skip_result n
  · have h1 := dark_point 1 (by norm_num) (by norm_num)
    have h3 := dark_point 3 (by norm_num) (by norm_num)
    have h4 := dark_point 4 (by norm_num) (by norm_num)
    unfold pointFromInt at h1 h3 h4
    rw [h1, h3, h4, dark_dist, dark_dist]
    exact mul_lt_mul_of_pos_right (by norm_num) darkStep_pos

/-- C74, for at most two colours: when one more round does not move any centre, every colour of the image is in a cluster whose centre is
nearest to it.  Missing: for three and more colours this fails, see `c74_violated`. -/
theorem c74_two_partial (pixels : List Int) (maxColors : Int) (starting : List Int) (picks : List Nat)
    (hp : ValidPicks (min maxColors (countPixels pixels).length - starting.length) (countPixels pixels).length picks)
    (h0 : 0 < maxColors) (h2 : maxColors ≤ 2) (n : Nat) (hn : 0 < n)
    (hstop : ∀ p ∈ pixels, centreAfter ℝ pixels maxColors starting picks (n + 1) p = centreAfter ℝ pixels maxColors starting picks n p)
    (p q : Int) (hpx : p ∈ pixels) (hqx : q ∈ pixels) :
    sqDist (labFromArgb p) (centreAfter ℝ pixels maxColors starting picks n p) ≤
      sqDist (labFromArgb p) (centreAfter ℝ pixels maxColors starting picks n q) := by
  have hcost : imageCost pixels (centreAfter ℝ pixels maxColors starting picks n) ≤
      imageCost pixels (centreAfter ℝ pixels maxColors starting picks (n + 1)) := by
    unfold imageCost
    refine le_of_eq (congrArg List.sum (List.map_congr_left fun p hp => ?_))
    rw [hstop p hp]
  rw [← imageCost_eq pixels maxColors starting picks hp h0, ← imageCost_eq pixels maxColors starting picks hp h0] at hcost
  set k := (min maxColors ((countPixels pixels).length : Int)).toNat with hk
  have hk2 : k ≤ 2 := by omega
  set points : List (Vec3 ℝ) := ((countPixels pixels).map Prod.fst).map pointFromInt with hpts
  obtain ⟨s, hI, inv, hnone, hc, hx⟩ := kLoop_stop k points ((countPixels pixels).map Prod.snd) (by simp [hpts])
    (countPixels_pos pixels) (fun s => k = 2 → TwoRows s.distMatrix)
    (by
      intro s hs h
      have := (two_rows s.clusters s.distMatrix (hs h)).1
      show TwoRows ((List.range k).foldl (matrixRow s.clusters k) s.distMatrix)
      rw [h]; exact this)
    n true _ (start_inv hp h0)
    (by
      intro h
      show TwoRows (List.replicate k ((List.range k).map fun (j : Nat) => ⟨0.0, j⟩))
      rw [h]
      exact ⟨_, _, _, _, rfl, by norm_num⟩)
    (fun _ => hn) hcost
  change (stateAfter ℝ pixels maxColors starting picks n).clusters = s.clusters at hc
  change (stateAfter ℝ pixels maxColors starting picks n).clusterIndices = s.clusterIndices at hx
  have hlook : ∀ p ∈ pixels, ∃ h : ((countPixels pixels).map Prod.fst).idxOf p < s.clusterIndices.length,
      clusterAfter ℝ pixels maxColors starting picks n p = s.clusterIndices[((countPixels pixels).map Prod.fst).idxOf p] := by
    intro p hp
    have hlt := List.idxOf_lt_length_of_mem ((countPixels_keys pixels p).2 hp)
    have hil := inv.indicesLength
    have hpl : points.length = ((countPixels pixels).map Prod.fst).length := by rw [hpts, List.length_map]
    refine ⟨by omega, ?_⟩
    unfold clusterAfter
    rw [hx, List.getD_eq_getElem?_getD, List.getElem?_eq_getElem (by omega), Option.getD_some]
  obtain ⟨hip, hcp⟩ := hlook p hpx
  obtain ⟨hiq, hcq⟩ := hlook q hqx
  have hpk : clusterAfter ℝ pixels maxColors starting picks n p < k := by rw [hcp]; exact inv.indicesLt _ (List.getElem_mem _)
  have hqk : clusterAfter ℝ pixels maxColors starting picks n q < k := by rw [hcq]; exact inv.indicesLt _ (List.getElem_mem _)
  unfold centreAfter
  rw [hc, origin_eq]
  by_cases hk1 : k = 2
  · rw [hk1] at hpk hqk hnone
    refine two_nearest s (hI hk1) _ _ hpk ?_ _ hqk
    unfold assign at hnone
    rw [List.all_map, List.all_eq_true] at hnone
    have hmem : (labFromArgb p, clusterAfter ℝ pixels maxColors starting picks n p) ∈ points.zip (measured 2 s).clusterIndices := by
      rw [List.mem_iff_getElem]
      have hpl : points.length = ((countPixels pixels).map Prod.fst).length := by rw [hpts, List.length_map]
      have hil := inv.indicesLength
      refine ⟨((countPixels pixels).map Prod.fst).idxOf p, by
        rw [List.length_zip]
        show _ < min _ s.clusterIndices.length
        omega, ?_⟩
      rw [List.getElem_zip]
      refine Prod.ext ?_ hcp.symm
      show points[_] = _
      simp only [hpts, List.getElem_map]
      have hlt : ((countPixels pixels).map Prod.fst).idxOf p < ((countPixels pixels).map Prod.fst).length := by omega
      have := List.getElem_idxOf hlt
      rw [List.getElem_map] at this
      rw [this]
      rfl
    have := hnone _ hmem
    rw [Function.comp] at this
    exact Option.isNone_iff_eq_none.1 this
  · have : clusterAfter ℝ pixels maxColors starting picks n p = clusterAfter ℝ pixels maxColors starting picks n q := by omega
    rw [this]

example : ∃ (pixels : List Int) (starting : List Int), (∀ n, 0 < n → ∀ p ∈ pixels,
    centreAfter ℝ pixels 2 starting [] (n + 1) p = centreAfter ℝ pixels 2 starting [] n p) ∧ pixels.dedup.length = 3 :=
  ⟨twinImage, [grey 3, grey 3], fun n hn p _ => by
    obtain ⟨m, rfl⟩ : ∃ m, n = m + 1 := ⟨n - 1, by omega⟩
    obtain ⟨a1, a2, -⟩ := twin_state (m + 1)
    obtain ⟨b1, b2, -⟩ := twin_state m
    unfold centreAfter clusterAfter
    rw [a1, a2, b1, b2], by decide⟩

/-! ### C75 -/

/-- C75 violated: there is an image for which the populations do not add up to the number of pixels, however many rounds are allowed. -/
theorem c75_violated : ∃ (pixels starting : List Int) (r : Result),
    (∀ rounds : Int, 1 ≤ rounds → quantize ℝ pixels 2 starting (some rounds) (some true) [] = some r) ∧
    (r.colorToCount.map Prod.snd).sum < pixels.length ∧
    ∃ color population, (color, population) ∈ r.colorToCount ∧
      population ≠ (pixels.countP fun p => r.inputPixelToClusterPixel.lookup p == some color : Nat) := by
  refine ⟨twinImage, [grey 3, grey 3], ⟨[(grey 3, 2)], [(grey 2, grey 3), (grey 3, grey 3), (grey 4, grey 3)]⟩, ?_, by decide,
    grey 3, 2, by decide, by decide⟩
  intro rounds h
  obtain ⟨n, rfl⟩ : ∃ n : Nat, rounds = ((n + 1 : Nat) : Int) := ⟨(rounds - 1).toNat, by omega⟩
  exact twin_result n

theorem sum_indicator (ks : List Int) (c : Int) : (ks.map fun k => if (some c == some k) = true then (1:Int) else 0).sum = ks.count c := by
  induction ks with
  | nil => rfl
  | cons k rest ih =>
    rw [List.map_cons, List.sum_cons, ih, List.count_cons]
    by_cases h : k = c
    · subst h; simp; omega
    · have : ¬ c = k := fun h' => h h'.symm
      simp [h, this]

theorem sum_classes (pixels ks : List Int) (hn : ks.Nodup) (g : Int → Option Int) (h : ∀ p ∈ pixels, ∃ c ∈ ks, g p = some c) :
    (ks.map fun c => (pixels.countP (fun p => g p == some c) : Int)).sum = pixels.length := by
  induction pixels with
  | nil => simp
  | cons p rest ih =>
    have hr := ih fun q hq => h q (List.mem_cons_of_mem _ hq)
    obtain ⟨c, hc, hg⟩ := h p List.mem_cons_self
    have : ∀ k, ((p :: rest).countP (fun p => g p == some k) : Int) =
        (rest.countP (fun p => g p == some k) : Int) + (if (some c == some k) = true then (1:Int) else 0) := by
      intro k
      rw [List.countP_cons, hg]
      push_cast
      rfl
    simp only [this]
    rw [List.sum_map_add, hr, sum_indicator, List.count_eq_one_of_mem hn hc]
    simp

/-- C75, if different clusters are given different colours: every population is the number of the pixels mapped to the colour, and the
populations add up to the number of pixels.  Missing: clusters whose centres round to the same colour, see `c75_violated`. -/
theorem c75_separate_partial (pixels : List Int) (maxColors : Int) (starting : List Int) (iterations : Option Int)
    (picks : List Nat) (r : Result)
    (hp : ValidPicks (min maxColors (countPixels pixels).length - starting.length) (countPixels pixels).length picks)
    (hq : quantize ℝ pixels maxColors starting iterations (some true) picks = some r) (hi : 1 ≤ iterations.getD 5) (hm : 0 < maxColors)
    (hsep : ∀ p ∈ pixels, ∀ q ∈ pixels, r.inputPixelToClusterPixel.lookup p = r.inputPixelToClusterPixel.lookup q →
      clusterAfter ℝ pixels maxColors starting picks (iterations.getD 5).toNat p =
        clusterAfter ℝ pixels maxColors starting picks (iterations.getD 5).toNat q) :
    (∀ color population, (color, population) ∈ r.colorToCount →
      population = (pixels.countP fun p => r.inputPixelToClusterPixel.lookup p == some color : Nat)) ∧
    (r.colorToCount.map Prod.snd).sum = pixels.length := by
  obtain ⟨-, hmap, hcol⟩ := means_after pixels maxColors starting iterations picks r hp hq hi hm
  have hpop : ∀ color population : Int, (color, population) ∈ r.colorToCount →
      population = (pixels.countP fun p => r.inputPixelToClusterPixel.lookup p == some color : Nat) := by
    intro color population he
    obtain ⟨p, hpx, hpo, hco⟩ := hcol color population he
    rw [hpo, List.countP_eq_length_filter]
    congr 2
    refine List.filter_congr fun q hqx => ?_
    rw [Bool.eq_iff_iff, decide_eq_true_iff, beq_iff_eq]
    have hpc : r.inputPixelToClusterPixel.lookup p = some color := by rw [hmap p hpx, hco]
    constructor
    · intro h
      rw [hmap q hqx, h, ← hco]
    · intro h
      exact hsep q hqx p hpx (h.trans hpc.symm)
  refine ⟨hpop, ?_⟩
  have h1 : r.colorToCount.map Prod.snd = (r.colorToCount.map Prod.fst).map fun c =>
      ((pixels.countP fun p => r.inputPixelToClusterPixel.lookup p == some c : Nat) : Int) := by
    rw [List.map_map]
    exact List.map_congr_left fun e he => hpop e.1 e.2 he
  rw [h1]
  obtain ⟨-, hkeys, -, hret⟩ := c50_map pixels maxColors starting iterations picks r hp hq
  refine sum_classes pixels _ (c50_colors pixels maxColors starting iterations (some true) picks r hp hq).1
    (fun p => r.inputPixelToClusterPixel.lookup p) ?_
  intro p hpx
  have hl := hmap p hpx
  exact ⟨_, hret hi _ (mem_of_lookup hl), hl⟩

/-- The image of `c74_violated` meets the hypothesis. -/
example (r : Result) (hq : quantize ℝ skipImage 3 [grey 0, grey 10, grey 4] none (some true) [] = some r) :
    ∀ p ∈ skipImage, ∀ q ∈ skipImage, r.inputPixelToClusterPixel.lookup p = r.inputPixelToClusterPixel.lookup q →
      clusterAfter ℝ skipImage 3 [grey 0, grey 10, grey 4] [] 5 p = clusterAfter ℝ skipImage 3 [grey 0, grey 10, grey 4] [] 5 q := by
  have hr : some r = _ := hq.symm.trans (skip_result 4)
  have hr := Option.some.inj hr
  obtain ⟨-, h2, -⟩ := skip_state 4
  unfold clusterAfter
  rw [hr, h2]
  decide

end Mcu.Props
