import Verif.Lemmas.Wsmeans
import Verif.Props.Wu
import Mathlib.Algebra.BigOperators.Group.List.Basic

/-! C50, C51: the weighted k-means quantizer and its composition with the Wu quantizer.

Everything about k-means holds for any arithmetic (`F` is any implementation of the operations), any
starting clusters, any number of rounds and any choice of the random indices. -/

namespace Mcu.Props

open ColorUtils Mcu.Spec Mcu.QuantizerWsmeans

section anyArithmetic

variable {F : Type} [Fl F]

/-- C50: the quantizer panics exactly when asked for a negative number of colours, or for no colours
of a nonempty image. -/
theorem c50_panics_iff (pixels : List Int) (maxColors : Int) (starting : List Int) (iterations : Option Int)
    (returnMap : Option Bool) (picks : List Nat) :
    quantize F pixels maxColors starting iterations returnMap picks = none ↔
      maxColors < 0 ∨ (maxColors = 0 ∧ pixels ≠ []) := by
  have hlen : ((countPixels pixels).map Prod.fst).length = 0 ↔ pixels = [] := by
    constructor
    · intro h
      cases pixels with
      | nil => rfl
      | cons p rest =>
        have := (countPixels_keys (p :: rest) p).2 List.mem_cons_self
        rw [List.eq_nil_of_length_eq_zero h] at this
        simp at this
    · rintro rfl; rfl
  unfold quantize
  simp only [List.length_map] at hlen ⊢
  split_ifs with h
  · simp only [true_iff]
    rcases h with h | ⟨h1, h2⟩
    · left; omega
    · rcases lt_trichotomy maxColors 0 with hm | hm | hm
      · exact Or.inl hm
      · exact Or.inr ⟨hm, fun he => h2 (hlen.2 he)⟩
      · omega
  · simp only [false_iff]
    rintro (hm | ⟨hm, hp⟩)
    · exact h (Or.inl (by omega))
    · exact h (Or.inr ⟨by omega, fun he => hp (hlen.1 he)⟩)

/-- What a successful run computes. -/
theorem quantize_some {pixels : List Int} {maxColors : Int} {starting : List Int} {iterations : Option Int}
    {returnMap : Option Bool} {picks : List Nat} {r : Result}
    (hp : ValidPicks (min maxColors (countPixels pixels).length - starting.length) (countPixels pixels).length picks)
    (hq : quantize F pixels maxColors starting iterations returnMap picks = some r) :
    ∃ s : KState F, ∃ k : Nat, (k : Int) = min maxColors (countPixels pixels).length ∧
      KInv k (countPixels pixels).length s ∧
      (((iterations.getD 5).toNat = 0 ∧ s.pixelCountSums = List.replicate k 0) ∨
        s.pixelCountSums = countSums k ((countPixels pixels).map Prod.snd) s.clusterIndices) ∧
      r.colorToCount = collect (s.clusters.take k) s.pixelCountSums ∧
      r.inputPixelToClusterPixel = if returnMap.getD false then
        (((countPixels pixels).map Prod.fst).zip s.clusterIndices).map fun (p, ci) =>
          (p, pointToInt (s.clusters.getD ci ⟨0.0, 0.0, 0.0⟩)) else [] := by
  have hpos := countPixels_pos pixels
  by_cases h : min maxColors ((countPixels pixels).length : Int) < 0 ∨
      (min maxColors ((countPixels pixels).length : Int) = 0 ∧ (countPixels pixels).length ≠ 0)
  · unfold quantize at hq
    simp only [List.length_map] at hq
    rw [if_pos h] at hq
    cases hq
  · unfold quantize at hq
    simp only [List.length_map] at hq
    rw [if_neg h] at hq
    push Not at h
    obtain ⟨h1, h2⟩ := h
    have hr := (Option.some.inj hq).symm
    clear hq
    set k : Nat := (min maxColors ((countPixels pixels).length : Int)).toNat with hk
    have hkz : (k : Int) = min maxColors (countPixels pixels).length := by omega
    generalize hcl : (if min maxColors ((countPixels pixels).length : Int) - starting.length > 0 then
        starting.map (pointFromInt (F := F)) ++
          picks.map (fun i => (((countPixels pixels).map Prod.fst).map (pointFromInt (F := F))).getD i ⟨0.0, 0.0, 0.0⟩)
        else starting.map pointFromInt) = clusters at hr
    have hcll : k ≤ clusters.length := by
      rw [← hcl]
      have := hp.1
      split_ifs with hg
      · rw [List.length_append, List.length_map, List.length_map]; omega
      · rw [List.length_map]; omega
    generalize hs0 : ({ clusters := clusters
                        clusterIndices := (List.range (countPixels pixels).length).map (· % k)
                        distMatrix := List.replicate k ((List.range k).map fun (j : Nat) => ⟨0.0, j⟩)
                        pixelCountSums := List.replicate k 0 } : KState F) = s0 at hr
    have hinv : KInv k (((countPixels pixels).map Prod.fst).map (pointFromInt (F := F))).length s0 := by
      rw [← hs0]
      refine ⟨by simp, ?_, hcll⟩
      intro i hi
      obtain ⟨j, hj, rfl⟩ := List.mem_map.1 hi
      have := List.mem_range.1 hj
      exact Nat.mod_lt _ (by omega)
    obtain ⟨l1, l2⟩ := kLoop_ok k _ ((countPixels pixels).map Prod.snd) (by simp) hpos
      (iterations.getD 5).toNat true s0 hinv (by simp)
    refine ⟨_, k, hkz, ?_, ?_, congrArg Result.colorToCount hr, congrArg Result.inputPixelToClusterPixel hr⟩
    · simpa using l1
    · rcases l2 with ⟨l2, l3⟩ | l2
      · exact Or.inl ⟨l2, by rw [l3, ← hs0]⟩
      · exact Or.inr l2

/-- The facts about `colorToCount`. -/
theorem quantize_colors {pixels : List Int} {maxColors : Int} {starting : List Int} {iterations : Option Int}
    {returnMap : Option Bool} {picks : List Nat} {r : Result}
    (hp : ValidPicks (min maxColors (countPixels pixels).length - starting.length) (countPixels pixels).length picks)
    (hq : quantize F pixels maxColors starting iterations returnMap picks = some r) :
    (r.colorToCount.map Prod.fst).Nodup ∧ (∀ e ∈ r.colorToCount, Opaque32 e.1 ∧ 0 < e.2) ∧
    (r.colorToCount.length : Int) ≤ min maxColors (countPixels pixels).length ∧
    (r.colorToCount.map Prod.snd).sum ≤ pixels.length := by
  obtain ⟨s, k, hk, inv, hs, hc, -⟩ := quantize_some hp hq
  have hsums : s.pixelCountSums.length = k ∧ s.pixelCountSums.sum ≤ pixels.length ∧ ∀ c ∈ s.pixelCountSums, 0 ≤ c := by
    rcases hs with ⟨-, hs⟩ | hs
    · rw [hs]
      refine ⟨by simp, by simp, ?_⟩
      intro c hc
      rw [(List.mem_replicate.1 hc).2]
    · obtain ⟨c1, c2, c3, -⟩ := countSums_ok k ((countPixels pixels).map Prod.snd) s.clusterIndices
        (by simp [inv.indicesLength]) inv.indicesLt (countPixels_pos pixels)
      rw [hs]
      exact ⟨c1, by rw [c2, countPixels_sum], c3⟩
  obtain ⟨s1, s2, s3⟩ := hsums
  have hzl : ((s.clusters.take k).zip s.pixelCountSums).length = k := by
    rw [List.length_zip, List.length_take, s1]
    have := inv.clustersLength
    omega
  have hzs : ((s.clusters.take k).zip s.pixelCountSums).map Prod.snd = s.pixelCountSums := by
    apply List.map_snd_zip
    rw [List.length_take, s1]
    have := inv.clustersLength
    omega
  obtain ⟨c1, c2, c3, c4, -⟩ := collect_ok ((s.clusters.take k).zip s.pixelCountSums) []
    (fun p hp => s3 _ (List.of_mem_zip hp).2) List.nodup_nil (by simp)
  rw [← collect_eq, ← hc] at c1 c2 c3 c4
  refine ⟨c1, c2, ?_, ?_⟩
  · rw [hzl] at c3; simp at c3; omega
  · rw [hzs] at c4; simp at c4; omega

/-- C50: at most as many colours as asked for, and at most as many as the image has. -/
theorem c50_length (pixels : List Int) (maxColors : Int) (starting : List Int) (iterations : Option Int)
    (returnMap : Option Bool) (picks : List Nat) (r : Result)
    (hp : ValidPicks (min maxColors (countPixels pixels).length - starting.length) (countPixels pixels).length picks)
    (hq : quantize F pixels maxColors starting iterations returnMap picks = some r) :
    (r.colorToCount.length : Int) ≤ maxColors ∧ r.colorToCount.length ≤ pixels.dedup.length := by
  have h := (quantize_colors hp hq).2.2.1
  have : (countPixels pixels).length = pixels.dedup.length := by
    rw [← List.length_map (f := Prod.fst)]
    apply List.Perm.length_eq
    refine (List.perm_ext_iff_of_nodup (countPixels_nodup pixels) (List.nodup_dedup pixels)).2 fun a => ?_
    rw [countPixels_keys, List.mem_dedup]
  omega

/-- C50: the colours are pairwise different, opaque, and have positive populations that together do not
exceed the number of pixels. -/
theorem c50_colors (pixels : List Int) (maxColors : Int) (starting : List Int) (iterations : Option Int)
    (returnMap : Option Bool) (picks : List Nat) (r : Result)
    (hp : ValidPicks (min maxColors (countPixels pixels).length - starting.length) (countPixels pixels).length picks)
    (hq : quantize F pixels maxColors starting iterations returnMap picks = some r) :
    (r.colorToCount.map Prod.fst).Nodup ∧ (∀ e ∈ r.colorToCount, Opaque32 e.1) ∧
    (∀ e ∈ r.colorToCount, 0 < e.2) ∧ (r.colorToCount.map Prod.snd).sum ≤ pixels.length := by
  obtain ⟨h1, h2, h3, h4⟩ := quantize_colors hp hq
  exact ⟨h1, fun e he => (h2 e he).1, fun e he => (h2 e he).2, h4⟩

/-- The colour of a cluster that has points is returned. -/
theorem cluster_returned {pixels : List Int} {iterations : Option Int} {r : Result} {s : KState F} {k : Nat}
    (inv : KInv k (countPixels pixels).length s)
    (hs : ((iterations.getD 5).toNat = 0 ∧ s.pixelCountSums = List.replicate k 0) ∨
        s.pixelCountSums = countSums k ((countPixels pixels).map Prod.snd) s.clusterIndices)
    (hc : r.colorToCount = collect (s.clusters.take k) s.pixelCountSums) (hi : 1 ≤ iterations.getD 5)
    (ci : Nat) (hci : ci ∈ s.clusterIndices) :
    pointToInt (s.clusters.getD ci ⟨0.0, 0.0, 0.0⟩) ∈ r.colorToCount.map Prod.fst := by
  have hlt := inv.indicesLt ci hci
  have hcl := inv.clustersLength
  rcases hs with ⟨h0, -⟩ | hs
  · omega
  · obtain ⟨c1, c2, c3, c4⟩ := countSums_ok k ((countPixels pixels).map Prod.snd) s.clusterIndices
      (by simp [inv.indicesLength]) inv.indicesLt (countPixels_pos pixels)
    rw [← hs] at c1 c2 c3 c4
    obtain ⟨-, -, -, -, -, c6, -⟩ := collect_ok ((s.clusters.take k).zip s.pixelCountSums) []
      (fun p hp => c3 _ (List.of_mem_zip hp).2) List.nodup_nil (by simp)
    rw [← collect_eq, ← hc] at c6
    have h4 := c4 ci hci
    have hl2 : ci < s.pixelCountSums.length := by omega
    rw [List.getD_eq_getElem?_getD, List.getElem?_eq_getElem hl2, Option.getD_some] at h4
    have hmem : (s.clusters[ci]'(by omega), s.pixelCountSums[ci]) ∈ (s.clusters.take k).zip s.pixelCountSums := by
      rw [List.mem_iff_getElem]
      refine ⟨ci, by rw [List.length_zip, List.length_take]; omega, by simp⟩
    have := c6 _ hmem (by simp only; omega)
    rw [List.getD_eq_getElem?_getD, List.getElem?_eq_getElem (by omega), Option.getD_some]
    exact this

/-- C50: if asked for, the map sends every colour of the image, and nothing else, to an opaque colour;
if at least one round was allowed, that colour is one of the returned ones. -/
theorem c50_map (pixels : List Int) (maxColors : Int) (starting : List Int) (iterations : Option Int)
    (picks : List Nat) (r : Result)
    (hp : ValidPicks (min maxColors (countPixels pixels).length - starting.length) (countPixels pixels).length picks)
    (hq : quantize F pixels maxColors starting iterations (some true) picks = some r) :
    (r.inputPixelToClusterPixel.map Prod.fst).Nodup ∧
    (∀ p, p ∈ r.inputPixelToClusterPixel.map Prod.fst ↔ p ∈ pixels) ∧
    (∀ e ∈ r.inputPixelToClusterPixel, Opaque32 e.2) ∧
    (1 ≤ iterations.getD 5 → ∀ e ∈ r.inputPixelToClusterPixel, e.2 ∈ r.colorToCount.map Prod.fst) := by
  obtain ⟨s, k, hk, inv, hs, hc, hm⟩ := quantize_some hp hq
  have hm : r.inputPixelToClusterPixel = (((countPixels pixels).map Prod.fst).zip s.clusterIndices).map fun (p, ci) =>
      (p, pointToInt (s.clusters.getD ci ⟨0.0, 0.0, 0.0⟩)) := by
    rw [hm]; rfl
  have hkeys : r.inputPixelToClusterPixel.map Prod.fst = (countPixels pixels).map Prod.fst := by
    rw [hm, List.map_map]
    exact List.map_fst_zip (by rw [List.length_map, inv.indicesLength])
  refine ⟨by rw [hkeys]; exact countPixels_nodup pixels, fun p => by rw [hkeys]; exact countPixels_keys pixels p, ?_, ?_⟩
  · intro e he
    rw [hm] at he
    obtain ⟨⟨p, ci⟩, -, rfl⟩ := List.mem_map.1 he
    exact opaque_rgb _ _ _
  · intro hi e he
    rw [hm] at he
    obtain ⟨⟨p, ci⟩, hpc, rfl⟩ := List.mem_map.1 he
    exact cluster_returned inv hs hc hi ci (List.of_mem_zip hpc).2

/-- C50: an image gives at least one colour, if at least one round was allowed. -/
theorem c50_nonempty (pixels : List Int) (maxColors : Int) (starting : List Int) (iterations : Option Int)
    (returnMap : Option Bool) (picks : List Nat) (r : Result)
    (hp : ValidPicks (min maxColors (countPixels pixels).length - starting.length) (countPixels pixels).length picks)
    (hq : quantize F pixels maxColors starting iterations returnMap picks = some r)
    (hi : 1 ≤ iterations.getD 5) (hn : pixels ≠ []) : r.colorToCount ≠ [] := by
  obtain ⟨s, k, hk, inv, hs, hc, -⟩ := quantize_some hp hq
  obtain ⟨p, hpm⟩ := List.exists_mem_of_ne_nil pixels hn
  have hpos : 0 < s.clusterIndices.length := by
    rw [inv.indicesLength, ← List.length_map (f := Prod.fst)]
    exact List.length_pos_of_mem ((countPixels_keys pixels p).2 hpm)
  have := cluster_returned inv hs hc hi _ (List.getElem_mem hpos)
  intro h0
  rw [h0] at this
  cases this

/-- C50: with no rounds allowed there are no colours at all. -/
theorem c50_no_rounds (pixels : List Int) (maxColors : Int) (starting : List Int) (iterations : Int)
    (hi : iterations ≤ 0) (returnMap : Option Bool) (picks : List Nat) (r : Result)
    (hq : quantize F pixels maxColors starting (some iterations) returnMap picks = some r) :
    r.colorToCount = [] := by
  have hz : iterations.toNat = 0 := by omega
  unfold quantize at hq
  simp only [Option.getD_some, hz, kLoop] at hq
  by_cases h : min maxColors (((countPixels pixels).map Prod.fst).map (pointFromInt (F := F))).length < 0 ∨
      (min maxColors (((countPixels pixels).map Prod.fst).map (pointFromInt (F := F))).length = 0 ∧
        (((countPixels pixels).map Prod.fst).map (pointFromInt (F := F))).length ≠ 0)
  · rw [if_pos h] at hq; cases hq
  · rw [if_neg h] at hq
    have := congrArg Result.colorToCount (Option.some.inj hq)
    simp only at this
    rw [← this, collect_eq]
    generalize (min maxColors _ : Int).toNat = k
    have : ∀ (cs : List (Vec3 F)) (n : Nat), (cs.zip (List.replicate n (0:Int))).foldl collectStep [] = [] := by
      intro cs
      induction cs with
      | nil => intro n; rfl
      | cons c cs ih =>
        intro n
        cases n with
        | zero => rfl
        | succ n =>
          rw [List.replicate_succ, List.zip_cons_cons, List.foldl_cons]
          exact ih n
    exact this _ _

theorem countPixels_perm (pixels : List Int) : ((countPixels pixels).map Prod.fst).Perm pixels.dedup :=
  (List.perm_ext_iff_of_nodup (countPixels_nodup pixels) (List.nodup_dedup pixels)).2 fun a => by
    rw [countPixels_keys, List.mem_dedup]

/-- Counting pixels by way of the multiplicities. -/
theorem countP_pixels (pixels : List Int) (P : Int → Bool) :
    ((countPixels pixels).map fun e => if P e.1 then e.2 else 0).sum = (pixels.countP P : Int) := by
  rw [← List.sum_map_count_dedup_filter_eq_countP]
  have h1 : ((pixels.dedup.filter P).map fun x => pixels.count x).sum =
      ((((countPixels pixels).map Prod.fst).filter P).map fun x => pixels.count x).sum :=
    (((countPixels_perm pixels).symm.filter P).map _).sum_eq
  rw [h1]
  have : ∀ l : List (Int × Int), (∀ e ∈ l, e.2 = pixels.count e.1) →
      (l.map fun e => if P e.1 then e.2 else 0).sum = (((l.map Prod.fst).filter P).map fun x => pixels.count x).sum := by
    intro l
    induction l with
    | nil => intro _; rfl
    | cons e rest ih =>
      intro h
      have he := h e List.mem_cons_self
      have hr := ih fun x hx => h x (List.mem_cons_of_mem _ hx)
      rw [List.map_cons, List.sum_cons, List.map_cons, hr]
      by_cases hp : P e.1 = true
      · rw [if_pos hp, List.filter_cons_of_pos hp, List.map_cons, List.sum_cons, Nat.cast_add, he]
      · rw [if_neg hp, List.filter_cons_of_neg hp, zero_add]
  exact this _ fun e he => ((countPixels_mem pixels e.1 e.2).1 he).2

/-- C50: the population of a returned colour is not more than the number of pixels mapped to it. -/
theorem c50_population (pixels : List Int) (maxColors : Int) (starting : List Int) (iterations : Option Int)
    (picks : List Nat) (r : Result)
    (hp : ValidPicks (min maxColors (countPixels pixels).length - starting.length) (countPixels pixels).length picks)
    (hq : quantize F pixels maxColors starting iterations (some true) picks = some r)
    (color population : Int) (he : (color, population) ∈ r.colorToCount) :
    population ≤ (pixels.countP fun p => r.inputPixelToClusterPixel.lookup p == some color : Nat) := by
  have hkn := (c50_map pixels maxColors starting iterations picks r hp hq).1
  obtain ⟨s, k, hk, inv, hs, hc, hm⟩ := quantize_some hp hq
  have hm : r.inputPixelToClusterPixel = (((countPixels pixels).map Prod.fst).zip s.clusterIndices).map fun (p, ci) =>
      (p, pointToInt (s.clusters.getD ci ⟨0.0, 0.0, 0.0⟩)) := by
    rw [hm]; rfl
  have hcl := inv.clustersLength
  rcases hs with ⟨-, hs⟩ | hs
  · -- no rounds: no colours
    have hz : ∀ p ∈ (s.clusters.take k).zip s.pixelCountSums, p.2 = 0 := by
      intro p hp
      have := (List.of_mem_zip hp).2
      rw [hs] at this
      exact (List.mem_replicate.1 this).2
    obtain ⟨-, -, -, -, -, -, c7⟩ := collect_ok ((s.clusters.take k).zip s.pixelCountSums) []
      (fun p hp => by rw [hz p hp]) List.nodup_nil (by simp)
    rw [← collect_eq, ← hc] at c7
    rcases c7 _ he with h | ⟨p, hp, hne, -⟩
    · cases h
    · exact absurd (hz p hp) hne
  · obtain ⟨c1, -, c3, -⟩ := countSums_ok k ((countPixels pixels).map Prod.snd) s.clusterIndices
      (by simp [inv.indicesLength]) inv.indicesLt (countPixels_pos pixels)
    rw [← hs] at c1 c3
    obtain ⟨-, -, -, -, -, -, c7⟩ := collect_ok ((s.clusters.take k).zip s.pixelCountSums) []
      (fun p hp => c3 _ (List.of_mem_zip hp).2) List.nodup_nil (by simp)
    rw [← collect_eq, ← hc] at c7
    rcases c7 _ he with h | ⟨⟨c, n⟩, hcn, -, heq⟩
    · cases h
    · obtain ⟨i, hi, hgi⟩ := List.mem_iff_getElem.1 hcn
      rw [List.length_zip, List.length_take] at hi
      have hcol : color = pointToInt c := (Prod.mk.inj heq).1
      have hpop : population = n := (Prod.mk.inj heq).2
      have hci : s.clusters.getD i ⟨0.0, 0.0, 0.0⟩ = c := by
        have := congrArg Prod.fst hgi
        simp only [List.getElem_zip, List.getElem_take] at this
        rw [List.getD_eq_getElem?_getD, List.getElem?_eq_getElem (by omega), Option.getD_some]
        exact this
      have hni : s.pixelCountSums.getD i 0 = n := by
        have := congrArg Prod.snd hgi
        simp only [List.getElem_zip] at this
        rw [List.getD_eq_getElem?_getD, List.getElem?_eq_getElem (by omega), Option.getD_some]
        exact this
      have hz : ∀ p ∈ ((countPixels pixels).map Prod.snd).zip s.clusterIndices, p.2 < (List.replicate k (0:Int)).length := by
        intro p hp
        rw [List.length_replicate]
        exact inv.indicesLt _ (List.of_mem_zip hp).2
      have h3 := (countSums_fold (((countPixels pixels).map Prod.snd).zip s.clusterIndices) (List.replicate k 0) hz).2.2 i
      have hsum : n = ((((countPixels pixels).map Prod.snd).zip s.clusterIndices).map fun p => if p.2 = i then p.1 else 0).sum := by
        rw [← hni, hs]
        unfold countSums
        rw [h3, List.getD_eq_getElem?_getD, List.getElem?_replicate]
        split_ifs <;> simp
      rw [hpop, hsum, ← countP_pixels]
      -- compare term by term
      have hlook : ∀ e ci, (e, ci) ∈ (countPixels pixels).zip s.clusterIndices →
          r.inputPixelToClusterPixel.lookup e.1 = some (pointToInt (s.clusters.getD ci ⟨0.0, 0.0, 0.0⟩)) := by
        intro e ci hmem
        refine lookup_of_mem (e := (e.1, pointToInt (s.clusters.getD ci ⟨0.0, 0.0, 0.0⟩))) hkn ?_
        rw [hm]
        refine List.mem_map.2 ⟨(e.1, ci), ?_, rfl⟩
        obtain ⟨j, hj, hje⟩ := List.mem_iff_getElem.1 hmem
        rw [List.length_zip] at hj
        rw [List.mem_iff_getElem]
        refine ⟨j, by rw [List.length_zip, List.length_map]; omega, ?_⟩
        simp only [List.getElem_zip] at hje
        simp only [List.getElem_zip, List.getElem_map]
        rw [(Prod.mk.inj hje).1, (Prod.mk.inj hje).2]
      have hpos : ∀ e ∈ countPixels pixels, 0 < e.2 := fun e he => countPixels_pos pixels e.2 (List.mem_map_of_mem he)
      have main : ∀ (l : List (Int × Int)) (ix : List Nat), l.length = ix.length → (∀ e ∈ l, 0 < e.2) →
          (∀ e ci, (e, ci) ∈ l.zip ix →
            r.inputPixelToClusterPixel.lookup e.1 = some (pointToInt (s.clusters.getD ci ⟨0.0, 0.0, 0.0⟩))) →
          (((l.map Prod.snd).zip ix).map fun p => if p.2 = i then p.1 else 0).sum ≤
            (l.map fun e => if (r.inputPixelToClusterPixel.lookup e.1 == some color) = true then e.2 else 0).sum := by
        intro l
        induction l with
        | nil => intro ix _ _ _; simp
        | cons e rest ih =>
          intro ix hl hp hlk
          cases ix with
          | nil => simp at hl
          | cons x ix =>
            have hrec := ih ix (by simpa using hl) (fun e he => hp e (List.mem_cons_of_mem _ he))
              (fun e ci h => hlk e ci (List.mem_cons_of_mem _ h))
            have h0 := hp e List.mem_cons_self
            simp only [List.map_cons, List.zip_cons_cons, List.sum_cons]
            by_cases hx : x = i
            · have h1 := hlk e x List.mem_cons_self
              rw [hx, hci, ← hcol] at h1
              rw [if_pos hx, h1]
              simp only [BEq.rfl, if_true]
              omega
            · rw [if_neg hx]
              split_ifs <;> omega
      exact main _ _ inv.indicesLength.symm hpos hlook

end anyArithmetic

/-! ### The composition -/

section
variable {F : Type} [Fl F]

/-- C51: the composition panics exactly when asked for no colours, whatever the order in which the hash
maps are iterated. -/
theorem c51_panics_iff [WuArith F] (pixels : List Int) (maxColors : Int) (returnMap : Option Bool) (entries : List (Int × Int))
    (starts : List Int → List Int) (picks : List Nat) (h : CountsOf pixels entries) :
    celebi F pixels maxColors returnMap entries starts picks = none ↔ maxColors ≤ 0 := by
  unfold celebi
  cases hw : QuantizerWu.quantizeEntries F entries maxColors with
  | none => exact ⟨fun _ => (c47_panics_iff (F := F) pixels entries h maxColors).1 hw, fun _ => rfl⟩
  | some wu =>
    have hm : 0 < maxColors := by
      by_contra hc
      rw [(c47_panics_iff (F := F) pixels entries h maxColors).2 (not_lt.1 hc)] at hw
      cases hw
    simp only
    rw [c50_panics_iff]
    omega

/-- The choices of one run of the composition: the colours found by the Wu quantizer are listed in some
order, and the k-means quantizer draws the clusters that are missing. -/
def CelebiChoices (F : Type) [Fl F] (pixels : List Int) (maxColors : Int) (entries : List (Int × Int))
    (starts : List Int → List Int) (picks : List Nat) : Prop :=
  CountsOf pixels entries ∧ (∀ l, (starts l).Perm l) ∧
  ∀ wu, QuantizerWu.quantizeEntries F entries maxColors = some wu →
    ValidPicks (min maxColors pixels.dedup.length - wu.length) pixels.dedup.length picks

/-- C51: at most `maxColors` colours, all opaque and different, at least one for a nonempty image, with
positive populations adding up to at most the number of pixels. -/
theorem c51_colors (pixels : List Int) (maxColors : Int) (returnMap : Option Bool) (entries : List (Int × Int))
    (starts : List Int → List Int) (picks : List Nat) (h : CelebiChoices F pixels maxColors entries starts picks)
    (r : Result) (hq : celebi F pixels maxColors returnMap entries starts picks = some r) :
    (r.colorToCount.length : Int) ≤ maxColors ∧ (r.colorToCount.map Prod.fst).Nodup ∧
    (∀ e ∈ r.colorToCount, Opaque32 e.1) ∧ (∀ e ∈ r.colorToCount, 0 < e.2) ∧
    (r.colorToCount.map Prod.snd).sum ≤ pixels.length ∧ (pixels ≠ [] → r.colorToCount ≠ []) := by
  obtain ⟨h1, h2, h3⟩ := h
  unfold celebi at hq
  cases hw : QuantizerWu.quantizeEntries F entries maxColors with
  | none => rw [hw] at hq; cases hq
  | some wu =>
    rw [hw] at hq
    simp only at hq
    have hlen : (countPixels pixels).length = pixels.dedup.length := by
      rw [← List.length_map (f := Prod.fst)]; exact (countPixels_perm pixels).length_eq
    have hv : ValidPicks (min maxColors (countPixels pixels).length - (starts wu).length) (countPixels pixels).length picks := by
      rw [hlen, (h2 wu).length_eq]; exact h3 wu hw
    obtain ⟨a1, a2, a3, a4⟩ := c50_colors _ _ _ _ _ _ r hv hq
    exact ⟨(c50_length _ _ _ _ _ _ r hv hq).1, a1, a2, a3, a4,
      c50_nonempty _ _ _ _ _ _ r hv hq (by norm_num)⟩

/-- C51: on request every colour of the image is mapped to one of the returned colours. -/
theorem c51_map (pixels : List Int) (maxColors : Int) (entries : List (Int × Int))
    (starts : List Int → List Int) (picks : List Nat) (h : CelebiChoices F pixels maxColors entries starts picks)
    (r : Result) (hq : celebi F pixels maxColors (some true) entries starts picks = some r) (p : Int) (hp : p ∈ pixels) :
    ∃ color population, r.inputPixelToClusterPixel.lookup p = some color ∧ (color, population) ∈ r.colorToCount ∧
      population ≤ (pixels.countP fun p => r.inputPixelToClusterPixel.lookup p == some color : Nat) := by
  obtain ⟨h1, h2, h3⟩ := h
  unfold celebi at hq
  cases hw : QuantizerWu.quantizeEntries F entries maxColors with
  | none => rw [hw] at hq; cases hq
  | some wu =>
    rw [hw] at hq
    simp only [Option.getD_some] at hq
    have hlen : (countPixels pixels).length = pixels.dedup.length := by
      rw [← List.length_map (f := Prod.fst)]; exact (countPixels_perm pixels).length_eq
    have hv : ValidPicks (min maxColors (countPixels pixels).length - (starts wu).length) (countPixels pixels).length picks := by
      rw [hlen, (h2 wu).length_eq]; exact h3 wu hw
    obtain ⟨m1, m2, m3, m4⟩ := c50_map _ _ _ _ _ r hv hq
    obtain ⟨⟨p', color⟩, he, rfl⟩ := List.mem_map.1 ((m2 p).2 hp)
    obtain ⟨⟨color', population⟩, hc, hce⟩ := List.mem_map.1 (m4 (by norm_num) _ he)
    simp only at hce
    subst hce
    exact ⟨color', population, lookup_of_mem m1 he, hc, c50_population _ _ _ _ _ r hv hq _ _ hc⟩

end

/-- An image of three colours, two of them asked for, and one starting cluster given: the quantizer
succeeds, so the hypotheses of the theorems above are met. -/
example : ∃ r, ValidPicks (min 2 (countPixels [0xFFFF0000, 0xFF00FF00, 0xFFFF0000, 0x0000FF]).length - [0xFF123456].length)
      (countPixels [0xFFFF0000, 0xFF00FF00, 0xFFFF0000, 0x0000FF]).length [1] ∧
    quantize ℝ [0xFFFF0000, 0xFF00FF00, 0xFFFF0000, 0x0000FF] 2 [0xFF123456] none (some true) [1] = some r := by
  cases h : quantize ℝ [0xFFFF0000, 0xFF00FF00, 0xFFFF0000, 0x0000FF] 2 [0xFF123456] none (some true) [1] with
  | none => rw [c50_panics_iff] at h; omega
  | some r => exact ⟨r, by unfold ValidPicks; decide, rfl⟩

/-- Likewise for the composition, over exact reals and over binary64 numbers alike. -/
example (F : Type) [Fl F] [WuArith F] : ∃ picks r, CelebiChoices F [0xFFFF0000, 0xFF00FF00] 1 (QuantizerMap.quantize [0xFFFF0000, 0xFF00FF00]) id picks ∧
    celebi F [0xFFFF0000, 0xFF00FF00] 1 (some true) (QuantizerMap.quantize [0xFFFF0000, 0xFF00FF00]) id picks = some r := by
  refine ⟨[], ?_⟩
  have hco : CountsOf [0xFFFF0000, 0xFF00FF00] (QuantizerMap.quantize [0xFFFF0000, 0xFF00FF00]) := List.Perm.refl _
  cases h : celebi F [0xFFFF0000, 0xFF00FF00] 1 (some true) (QuantizerMap.quantize [0xFFFF0000, 0xFF00FF00]) id [] with
  | none => rw [c51_panics_iff _ _ _ _ _ _ hco] at h; omega
  | some r =>
    refine ⟨r, ⟨hco, fun l => List.Perm.refl l, ?_⟩, rfl⟩
    intro wu hw
    have hne := c47_nonempty _ _ hco 1 wu hw 0xFFFF0000 (by simp) (by decide)
    have : 0 < wu.length := List.length_pos_of_ne_nil hne
    refine ⟨?_, by simp, by simp⟩
    have hd : ([0xFFFF0000, 0xFF00FF00] : List Int).dedup.length = 2 := by decide
    rw [hd]
    simp only [List.length_nil]
    omega

end Mcu.Props
