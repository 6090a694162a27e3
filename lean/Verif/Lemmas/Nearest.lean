import Verif.Lemmas.KMeans
import Verif.Lemmas.Srgb
import Mathlib.Tactic.FieldSimp
import Mathlib.Tactic.IntervalCases

/-! Lemmas about the choice of a cluster in k-means, and about the L*a*b* coordinates of very dark greys. -/

namespace Mcu.QuantizerWsmeans

open Mcu.Spec Mcu.Props Mcu.Lemmas ColorUtils

/-- Twice a distance: a centre that is far from the own centre is not closer than the own centre. -/
theorem prune_sound {p c d : Vec3 ℝ} (h : 4 * sqDist p c ≤ sqDist c d) : sqDist p c ≤ sqDist p d := by
  unfold sqDist at *
  nlinarith [sq_nonneg (p.x0 - c.x0 + (p.x0 - d.x0)), sq_nonneg (p.x1 - c.x1 + (p.x1 - d.x1)),
    sq_nonneg (p.x2 - c.x2 + (p.x2 - d.x2))]

/-- When a point stays. -/
theorem bestCluster_none_iff (clusters : List (Vec3 ℝ)) (row : List (DistanceAndIndex ℝ)) (k : Nat) (p : Vec3 ℝ) (prev : Nat) :
    bestCluster clusters row k p prev = none ↔
      ∀ j < k, 4 * sqDist p (clusters.getD prev ⟨0, 0, 0⟩) ≤ (row.getD j ⟨0, 0⟩).distance ∨
        sqDist p (clusters.getD prev ⟨0, 0, 0⟩) ≤ sqDist p (clusters.getD j ⟨0, 0, 0⟩) := by
  have e0 : (0.0:ℝ) = 0 := by norm_num
  have e4 : (4.0:ℝ) = 4 := by norm_num
  have key : ∀ (l : List Nat),
      ((l.foldl (fun (best : ℝ × Option Nat) j =>
        if (row.getD j ⟨0.0, 0⟩).distance ≥ 4.0 * pointDistance p (clusters.getD prev ⟨0.0, 0.0, 0.0⟩) then best
        else
          let distance := pointDistance p (clusters.getD j ⟨0.0, 0.0, 0.0⟩)
          if distance < best.1 then (distance, some j) else best)
          (pointDistance p (clusters.getD prev ⟨0.0, 0.0, 0.0⟩), none)).2 = none ↔
        ∀ j ∈ l, 4 * sqDist p (clusters.getD prev ⟨0, 0, 0⟩) ≤ (row.getD j ⟨0, 0⟩).distance ∨
          sqDist p (clusters.getD prev ⟨0, 0, 0⟩) ≤ sqDist p (clusters.getD j ⟨0, 0, 0⟩)) := by
    have hsome : ∀ (l : List Nat) (best : ℝ × Option Nat), best.2 ≠ none →
        (l.foldl (fun (best : ℝ × Option Nat) j =>
        if (row.getD j ⟨0.0, 0⟩).distance ≥ 4.0 * pointDistance p (clusters.getD prev ⟨0.0, 0.0, 0.0⟩) then best
        else
          let distance := pointDistance p (clusters.getD j ⟨0.0, 0.0, 0.0⟩)
          if distance < best.1 then (distance, some j) else best) best).2 ≠ none := by
      intro l
      induction l with
      | nil => intro best h; exact h
      | cons x rest ih =>
        intro best h
        rw [List.foldl_cons]
        apply ih
        simp only
        split_ifs
        · exact h
        · simp
        · exact h
    intro l
    induction l with
    | nil => simp
    | cons x rest ih =>
      rw [List.foldl_cons]
      simp only [List.mem_cons, forall_eq_or_imp]
      by_cases hs : (row.getD x ⟨0.0, 0⟩).distance ≥ 4.0 * pointDistance p (clusters.getD prev ⟨0.0, 0.0, 0.0⟩)
      · rw [if_pos hs, ih]
        rw [distance_eq, origin_eq, e0, e4] at hs
        exact ⟨fun h => ⟨Or.inl hs, h⟩, fun h => h.2⟩
      · rw [if_neg hs]
        by_cases hd : pointDistance p (clusters.getD x ⟨0.0, 0.0, 0.0⟩) < pointDistance p (clusters.getD prev ⟨0.0, 0.0, 0.0⟩)
        · rw [if_pos hd]
          constructor
          · intro h; exact absurd h (hsome rest _ (by simp))
          · rintro ⟨h, -⟩
            rw [distance_eq, origin_eq, e0, e4] at hs
            rw [distance_eq, distance_eq, origin_eq] at hd
            rcases h with h | h
            · exact absurd h hs
            · exact absurd hd (not_lt.2 h)
        · rw [if_neg hd, ih]
          rw [distance_eq, distance_eq, origin_eq] at hd
          exact ⟨fun h => ⟨Or.inr (not_lt.1 hd), h⟩, fun h => h.2⟩
  have := key (List.range k)
  simp only [List.mem_range] at this
  exact this

/-- The order of the rows of the matrix. -/
theorem leDI_iff (a b : DistanceAndIndex ℝ) :
    (!ltDI b a) = true ↔ a.distance < b.distance ∨ (a.distance = b.distance ∧ a.index ≤ b.index) := by
  unfold ltDI
  have hb : (b.distance == a.distance) = true ↔ b.distance = a.distance := by simp [fl_beq]
  rw [Bool.not_eq_true', Bool.or_eq_false_iff, decide_eq_false_iff_not, not_lt, ← Bool.not_eq_true, Bool.and_eq_true, hb]
  rw [decide_eq_true_iff]
  constructor
  · rintro ⟨h1, h2⟩
    rcases lt_or_eq_of_le h1 with h | h
    · exact Or.inl h
    · exact Or.inr ⟨h, not_lt.1 fun hc => h2 ⟨h.symm, hc⟩⟩
  · rintro (h | ⟨h1, h2⟩)
    · exact ⟨h.le, fun hc => absurd hc.1 h.ne'⟩
    · exact ⟨h1.le, fun hc => absurd hc.2 (not_lt.2 h2)⟩

theorem sorted_row (row : List (DistanceAndIndex ℝ)) :
    (row.mergeSort (fun a b => !ltDI b a)).Pairwise (fun a b => a.distance ≤ b.distance) := by
  refine (List.pairwise_mergeSort ?_ ?_ row).imp ?_
  · intro a b c h1 h2
    rw [leDI_iff] at *
    rcases h1 with h1 | ⟨h1, h1'⟩ <;> rcases h2 with h2 | ⟨h2, h2'⟩
    · exact Or.inl (h1.trans h2)
    · exact Or.inl (h2 ▸ h1)
    · exact Or.inl (h1 ▸ h2)
    · exact Or.inr ⟨h1.trans h2, h1'.trans h2'⟩
  · intro a b
    rw [Bool.or_eq_true, leDI_iff, leDI_iff]
    rcases lt_trichotomy a.distance b.distance with h | h | h
    · exact Or.inl (Or.inl h)
    · rcases le_total a.index b.index with h' | h'
      · exact Or.inl (Or.inr ⟨h, h'⟩)
      · exact Or.inr (Or.inr ⟨h.symm, h'⟩)
    · exact Or.inr (Or.inl h)
  · intro a b h
    rw [leDI_iff] at h
    rcases h with h | h
    · exact h.le
    · exact h.1.le

/-! ### Very dark greys -/

/-- An opaque grey. -/
def grey (v : Int) : Int := 0xFF000000 + v * 0x010101

/-- The L*a*b* coordinates of the darkest grey but black. -/
noncomputable def darkUnit : Vec3 ℝ := labFromArgb (grey 1)

theorem dark_coords (v : Int) (h0 : 0 ≤ v) (h1 : v ≤ 10) :
    (labFromArgb (grey v) : Vec3 ℝ) =
      ⟨24389 / 27 * ((0.2126 + 0.7152 + 0.0722) * (v / 255 / 12.92 * 100) / 100),
        500 * (24389 / 27 * ((0.41233895 + 0.35762064 + 0.18051042) * (v / 255 / 12.92 * 100) / 95.047) -
          24389 / 27 * ((0.2126 + 0.7152 + 0.0722) * (v / 255 / 12.92 * 100) / 100)) / 116,
        200 * (24389 / 27 * ((0.2126 + 0.7152 + 0.0722) * (v / 255 / 12.92 * 100) / 100) -
          24389 / 27 * ((0.01932141 + 0.11916382 + 0.95034478) * (v / 255 / 12.92 * 100) / 108.883)) / 116⟩ := by
  have hr : redFromArgb (grey v) = v := by interval_cases v <;> rfl
  have hg : greenFromArgb (grey v) = v := by interval_cases v <;> rfl
  have hb : blueFromArgb (grey v) = v := by interval_cases v <;> rfl
  have hv : (v : ℝ) ≤ 10 := by exact_mod_cast h1
  simp only [labFromArgb, hr, hg, hb, linearized_small h1, srgbToXyz, whitePointD65]
  rw [labF_of_le (by norm_num; linarith), labF_of_le (by norm_num; linarith), labF_of_le (by norm_num; linarith)]
  simp only [Vec3.mk.injEq]
  refine ⟨?_, ?_, ?_⟩ <;> norm_num <;> ring

theorem dark_eq (v : Int) (h0 : 0 ≤ v) (h1 : v ≤ 10) :
    (labFromArgb (grey v) : Vec3 ℝ) = ⟨v * darkUnit.x0, v * darkUnit.x1, v * darkUnit.x2⟩ := by
  unfold darkUnit
  rw [dark_coords v h0 h1, dark_coords 1 (by norm_num) (by norm_num)]
  simp only [Vec3.mk.injEq, Int.cast_one]
  refine ⟨?_, ?_, ?_⟩ <;> ring

/-- The squared distance of neighbouring dark greys. -/
noncomputable def darkStep : ℝ := darkUnit.x0 ^ 2 + darkUnit.x1 ^ 2 + darkUnit.x2 ^ 2

theorem darkStep_pos : 0 < darkStep := by
  have : 0 < darkUnit.x0 := by
    unfold darkUnit
    rw [dark_coords 1 (by norm_num) (by norm_num)]
    norm_num
  unfold darkStep
  positivity

/-- A point on the line of the dark greys. -/
noncomputable def darkPoint (t : ℝ) : Vec3 ℝ := ⟨t * darkUnit.x0, t * darkUnit.x1, t * darkUnit.x2⟩

theorem dark_dist (s t : ℝ) : sqDist (darkPoint s) (darkPoint t) = (s - t) ^ 2 * darkStep := by
  unfold sqDist darkPoint darkStep
  ring

theorem dark_point (v : Int) (h0 : 0 ≤ v) (h1 : v ≤ 10) : (pointFromInt (grey v) : Vec3 ℝ) = darkPoint v := dark_eq v h0 h1

/-- Once no point moves, nothing changes. -/
theorem kLoop_settled {F : Type} [Fl F] (k : Nat) (points : List (Vec3 F)) (counts : List Int) (n : Nat) (s : KState F)
    (h : KInv k points.length s) (hn : (assign (measured k s) k points).all Option.isNone = true) :
    (kLoop k points counts n false s).clusters = s.clusters ∧
    (kLoop k points counts n false s).clusterIndices = s.clusterIndices ∧
    (kLoop k points counts n false s).pixelCountSums = s.pixelCountSums := by
  cases n with
  | zero => exact ⟨rfl, rfl, rfl⟩
  | succ n =>
    rw [kLoop_succ, if_pos (by rw [hn]; rfl)]
    exact ⟨rfl, moved_none h hn, rfl⟩

/-! ### Two clusters with the same centre -/

theorem same_stay (s : KState ℝ) (hc : s.clusters = [darkPoint 3, darkPoint 3]) (hi : s.clusterIndices = [0, 1, 0]) :
    (assign (measured 2 s) 2 [darkPoint 2, darkPoint 3, darkPoint 4]).all Option.isNone = true := by
  have h : ∀ row p prev, prev < 2 → bestCluster [darkPoint 3, darkPoint 3] row 2 p prev = none := by
    intro row p prev hp
    rw [bestCluster_none_iff]
    intro j hj
    refine Or.inr (le_of_eq ?_)
    interval_cases j <;> interval_cases prev <;> rfl
  unfold assign
  show ((List.zip [darkPoint 2, darkPoint 3, darkPoint 4] s.clusterIndices).map fun (p, prev) =>
    bestCluster s.clusters ((measured 2 s).distMatrix.getD prev []) 2 p prev).all Option.isNone = true
  rw [hc, hi]
  simp [h]

theorem same_next (s : KState ℝ) (hc : s.clusters = [darkPoint 3, darkPoint 3]) (hi : s.clusterIndices = [0, 1, 0]) :
    (nextState 2 [darkPoint 2, darkPoint 3, darkPoint 4] [1, 1, 1] s).clusters = [darkPoint 3, darkPoint 3] ∧
    (nextState 2 [darkPoint 2, darkPoint 3, darkPoint 4] [1, 1, 1] s).clusterIndices = [0, 1, 0] ∧
    (nextState 2 [darkPoint 2, darkPoint 3, darkPoint 4] [1, 1, 1] s).pixelCountSums = [2, 1] := by
  have hinv : KInv 2 [darkPoint 2, darkPoint 3, darkPoint 4].length s := ⟨by rw [hi]; rfl, by rw [hi]; simp, by rw [hc]; rfl⟩
  have hm : movedIndices 2 [darkPoint 2, darkPoint 3, darkPoint 4] s = [0, 1, 0] := by
    rw [moved_none hinv (same_stay s hc hi), hi]
  have e0 : (0.0:ℝ) = 0 := by norm_num
  refine ⟨?_, hm, ?_⟩
  · unfold nextState
    simp only [hm, hc]
    simp [componentSums, countSums, List.replicate, List.modify, List.modifyTailIdx, List.modifyTailIdx.go, centroid, darkPoint, e0,
      fl_ofInt]
    refine ⟨?_, ?_, ?_⟩ <;> ring
  · unfold nextState
    simp only [hm]
    rfl

/-! ### Three clusters, and a point that is not moved to the nearest one -/

theorem row0_three (clusters : List (Vec3 ℝ)) (m : List (List (DistanceAndIndex ℝ))) (hm : m.length = 3)
    (h0 : (m.getD 0 []).length = 3) :
    ((List.range 3).foldl (matrixRow clusters 3) m).length = 3 ∧
    (((List.range 3).foldl (matrixRow clusters 3) m).getD 0 []).length = 3 ∧
    sqDist (clusters.getD 0 ⟨0, 0, 0⟩) (clusters.getD 1 ⟨0, 0, 0⟩) ≤
      ((((List.range 3).foldl (matrixRow clusters 3) m).getD 0 []).getD 2 ⟨0, 0⟩).distance := by
  obtain ⟨r0, r1, r2, rfl⟩ := List.length_eq_three.1 hm
  obtain ⟨a, b, c, h⟩ := List.length_eq_three.1 h0
  have h : r0 = [a, b, c] := h
  subst h
  have hrow : ((List.range 3).foldl (matrixRow clusters 3) [[a, b, c], r1, r2]).getD 0 [] =
      [a, ⟨pointDistance (clusters.getD 0 ⟨0.0, 0.0, 0.0⟩) (clusters.getD 1 ⟨0.0, 0.0, 0.0⟩), 1⟩,
        ⟨pointDistance (clusters.getD 0 ⟨0.0, 0.0, 0.0⟩) (clusters.getD 2 ⟨0.0, 0.0, 0.0⟩), 2⟩].mergeSort (fun a b => !ltDI b a) := rfl
  refine ⟨by rfl, ?_, ?_⟩
  · rw [hrow, List.length_mergeSort]; rfl
  · rw [hrow]
    generalize hL : [a, ⟨pointDistance (clusters.getD 0 ⟨0.0, 0.0, 0.0⟩) (clusters.getD 1 ⟨0.0, 0.0, 0.0⟩), 1⟩,
        ⟨pointDistance (clusters.getD 0 ⟨0.0, 0.0, 0.0⟩) (clusters.getD 2 ⟨0.0, 0.0, 0.0⟩), 2⟩] = L
    have hs := sorted_row L
    have hlen : (L.mergeSort (fun a b => !ltDI b a)).length = 3 := by rw [List.length_mergeSort, ← hL]; rfl
    have hmem : (⟨pointDistance (clusters.getD 0 ⟨0.0, 0.0, 0.0⟩) (clusters.getD 1 ⟨0.0, 0.0, 0.0⟩), 1⟩ : DistanceAndIndex ℝ) ∈
        L.mergeSort (fun a b => !ltDI b a) := by
      rw [List.mem_mergeSort, ← hL]; simp
    obtain ⟨x, y, z, hx⟩ := List.length_eq_three.1 hlen
    rw [hx] at hs hmem ⊢
    rw [← distance_eq, ← origin_eq]
    have : ([x, y, z].getD 2 ⟨0, 0⟩).distance = z.distance := rfl
    rw [this]
    simp only [List.pairwise_cons, List.mem_cons, List.not_mem_nil, or_false, forall_eq_or_imp, forall_eq] at hs hmem
    rcases hmem with h | h | h
    · have := hs.1.2; rw [← h] at this; exact this
    · have := hs.2.1; rw [← h] at this; exact this
    · rw [← h]

/-- Points, with the pixels black, black, 10, 4, 3. -/
noncomputable def skipPoints : List (Vec3 ℝ) := [darkPoint 0, darkPoint 10, darkPoint 4, darkPoint 3]

theorem skip_stay (s : KState ℝ) (t : ℝ) (ht0 : 0 ≤ t) (ht1 : t ≤ 1) (hc : s.clusters = [darkPoint t, darkPoint 10, darkPoint 4])
    (hi : s.clusterIndices = [0, 1, 2, 0]) (hm : s.distMatrix.length = 3) (h0 : (s.distMatrix.getD 0 []).length = 3) :
    (assign (measured 3 s) 3 skipPoints).all Option.isNone = true := by
  have hpos := darkStep_pos
  obtain ⟨-, -, hrow⟩ := row0_three s.clusters s.distMatrix hm h0
  rw [hc] at hrow
  change sqDist (darkPoint t) (darkPoint 10) ≤ _ at hrow
  rw [dark_dist] at hrow
  have b0 : ∀ row, bestCluster [darkPoint t, darkPoint 10, darkPoint 4] row 3 (darkPoint 0) 0 = none := by
    intro row
    rw [bestCluster_none_iff]
    intro j hj
    refine Or.inr ?_
    interval_cases j
    · exact le_refl _
    · show sqDist (darkPoint 0) (darkPoint t) ≤ sqDist (darkPoint 0) (darkPoint 10)
      rw [dark_dist, dark_dist]
      exact mul_le_mul_of_nonneg_right (by nlinarith) hpos.le
    · show sqDist (darkPoint 0) (darkPoint t) ≤ sqDist (darkPoint 0) (darkPoint 4)
      rw [dark_dist, dark_dist]
      exact mul_le_mul_of_nonneg_right (by nlinarith) hpos.le
  have b1 : ∀ row, bestCluster [darkPoint t, darkPoint 10, darkPoint 4] row 3 (darkPoint 10) 1 = none := by
    intro row
    rw [bestCluster_none_iff]
    intro j hj
    refine Or.inr ?_
    show sqDist (darkPoint 10) (darkPoint 10) ≤ _
    rw [dark_dist, sub_self]
    simpa using sqDist_nonneg _ _
  have b2 : ∀ row, bestCluster [darkPoint t, darkPoint 10, darkPoint 4] row 3 (darkPoint 4) 2 = none := by
    intro row
    rw [bestCluster_none_iff]
    intro j hj
    refine Or.inr ?_
    show sqDist (darkPoint 4) (darkPoint 4) ≤ _
    rw [dark_dist, sub_self]
    simpa using sqDist_nonneg _ _
  have b3 : bestCluster [darkPoint t, darkPoint 10, darkPoint 4] ((measured 3 s).distMatrix.getD 0 []) 3 (darkPoint 3) 0 = none := by
    rw [bestCluster_none_iff]
    intro j hj
    interval_cases j
    · exact Or.inr (le_refl _)
    · right
      show sqDist (darkPoint 3) (darkPoint t) ≤ sqDist (darkPoint 3) (darkPoint 10)
      rw [dark_dist, dark_dist]
      exact mul_le_mul_of_nonneg_right (by nlinarith) hpos.le
    · left
      show 4 * sqDist (darkPoint 3) (darkPoint t) ≤ _
      unfold measured
      rw [hc]
      refine le_trans ?_ hrow
      rw [dark_dist, ← mul_assoc]
      exact mul_le_mul_of_nonneg_right (by nlinarith) hpos.le
  unfold assign
  show ((List.zip skipPoints s.clusterIndices).map fun (p, prev) =>
    bestCluster s.clusters ((measured 3 s).distMatrix.getD prev []) 3 p prev).all Option.isNone = true
  rw [hc, hi]
  simp only [skipPoints, List.zip_cons_cons, List.zip_nil_left, List.map_cons, List.map_nil, b0, b1, b2, b3]
  rfl

theorem skip_next (s : KState ℝ) (hc : s.clusters = [darkPoint 0, darkPoint 10, darkPoint 4])
    (hi : s.clusterIndices = [0, 1, 2, 0]) (hm : s.distMatrix.length = 3) (h0 : (s.distMatrix.getD 0 []).length = 3) :
    (nextState 3 skipPoints [2, 1, 1, 1] s).clusters = [darkPoint 1, darkPoint 10, darkPoint 4] ∧
    (nextState 3 skipPoints [2, 1, 1, 1] s).clusterIndices = [0, 1, 2, 0] ∧
    (nextState 3 skipPoints [2, 1, 1, 1] s).pixelCountSums = [3, 1, 1] ∧
    (nextState 3 skipPoints [2, 1, 1, 1] s).distMatrix.length = 3 ∧
    ((nextState 3 skipPoints [2, 1, 1, 1] s).distMatrix.getD 0 []).length = 3 := by
  have hinv : KInv 3 skipPoints.length s := ⟨by rw [hi]; rfl, by rw [hi]; simp, by rw [hc]; rfl⟩
  have hmv : movedIndices 3 skipPoints s = [0, 1, 2, 0] := by
    rw [moved_none hinv (skip_stay s 0 (le_refl _) (by norm_num) hc hi hm h0), hi]
  have e0 : (0.0:ℝ) = 0 := by norm_num
  obtain ⟨r1, r2, -⟩ := row0_three s.clusters s.distMatrix hm h0
  refine ⟨?_, hmv, ?_, r1, r2⟩
  · unfold nextState
    simp only [hmv, hc]
    simp [skipPoints, componentSums, countSums, List.replicate, List.modify, List.modifyTailIdx, List.modifyTailIdx.go, centroid, darkPoint, e0,
      fl_ofInt]
  · unfold nextState
    simp only [hmv]
    rfl

/-! ### Two clusters -/

/-- The first entry of the first row is zero. -/
def TwoRows (m : List (List (DistanceAndIndex ℝ))) : Prop :=
  ∃ a b c d : DistanceAndIndex ℝ, m = [[a, b], [c, d]] ∧ a.distance = 0

theorem two_rows (clusters : List (Vec3 ℝ)) (m : List (List (DistanceAndIndex ℝ))) (h : TwoRows m) :
    TwoRows ((List.range 2).foldl (matrixRow clusters 2) m) ∧
    ∀ i < 2, ∀ j < 2, i ≠ j → ((((List.range 2).foldl (matrixRow clusters 2) m).getD i []).getD j ⟨0, 0⟩).distance ≤
      sqDist (clusters.getD i ⟨0, 0, 0⟩) (clusters.getD j ⟨0, 0, 0⟩) := by
  obtain ⟨a, b, c, d, rfl, ha⟩ := h
  set D := pointDistance (clusters.getD 0 ⟨0.0, 0.0, 0.0⟩) (clusters.getD 1 ⟨0.0, 0.0, 0.0⟩) with hD
  have hDe : D = sqDist (clusters.getD 0 ⟨0, 0, 0⟩) (clusters.getD 1 ⟨0, 0, 0⟩) := by rw [hD, distance_eq, origin_eq]
  have hD0 : 0 ≤ D := by rw [hDe]; exact sqDist_nonneg _ _
  have hm : (List.range 2).foldl (matrixRow clusters 2) [[a, b], [c, d]] =
      [[a, ⟨D, 1⟩].mergeSort (fun a b => !ltDI b a), [⟨D, 0⟩, d].mergeSort (fun a b => !ltDI b a)] := rfl
  have s1 := sorted_row [a, ⟨D, 1⟩]
  have s2 := sorted_row [⟨D, 0⟩, d]
  have p1 := List.mergeSort_perm [a, ⟨D, 1⟩] (fun a b => !ltDI b a)
  have p2 := List.mergeSort_perm [⟨D, 0⟩, d] (fun a b => !ltDI b a)
  rw [hm]
  generalize [a, ⟨D, 1⟩].mergeSort (fun a b => !ltDI b a) = l1 at *
  generalize [⟨D, 0⟩, d].mergeSort (fun a b => !ltDI b a) = l2 at *
  obtain ⟨x, y, rfl⟩ := List.length_eq_two.1 p1.length_eq
  obtain ⟨z, w, rfl⟩ := List.length_eq_two.1 p2.length_eq
  have hx : x.distance ≤ y.distance := by simpa using s1
  have hz : z.distance ≤ w.distance := by simpa using s2
  have mx : x = a ∨ x = ⟨D, 1⟩ := by simpa using p1.subset (show x ∈ [x, y] by simp)
  have my : y = a ∨ y = ⟨D, 1⟩ := by simpa using p1.subset (show y ∈ [x, y] by simp)
  have ma : a = x ∨ a = y := by simpa using p1.symm.subset (show a ∈ [a, ⟨D, 1⟩] by simp)
  have mD : (⟨D, 0⟩ : DistanceAndIndex ℝ) = z ∨ (⟨D, 0⟩ : DistanceAndIndex ℝ) = w := by
    simpa using p2.symm.subset (show (⟨D, 0⟩ : DistanceAndIndex ℝ) ∈ [⟨D, 0⟩, d] by simp)
  have hx0 : x.distance = 0 := by
    rcases ma with h | h
    · rw [← h, ha]
    · rw [← h, ha] at hx
      rcases mx with h' | h'
      · rw [h', ha]
      · rw [h'] at hx ⊢; exact le_antisymm hx hD0
  have hy : y.distance ≤ D := by
    rcases my with h | h
    · rw [h, ha]; exact hD0
    · rw [h]
  have hzD : z.distance ≤ D := by
    rcases mD with h | h
    · rw [← h]
    · rw [← h] at hz; exact hz
  refine ⟨⟨x, y, z, w, rfl, hx0⟩, ?_⟩
  intro i hi j hj hij
  interval_cases i <;> interval_cases j
  · exact absurd rfl hij
  · show y.distance ≤ _; rw [← hDe]; exact hy
  · show z.distance ≤ _
    have : sqDist (clusters.getD 1 ⟨0, 0, 0⟩) (clusters.getD 0 ⟨0, 0, 0⟩) =
        sqDist (clusters.getD 0 ⟨0, 0, 0⟩) (clusters.getD 1 ⟨0, 0, 0⟩) := by unfold sqDist; ring
    rw [this, ← hDe]; exact hzD
  · exact absurd rfl hij

/-- With two clusters, a point that stays is nowhere nearer. -/
theorem two_nearest (s : KState ℝ) (hr : TwoRows s.distMatrix) (p : Vec3 ℝ) (prev : Nat) (hp : prev < 2)
    (h : bestCluster s.clusters ((measured 2 s).distMatrix.getD prev []) 2 p prev = none) (j : Nat) (hj : j < 2) :
    sqDist p (s.clusters.getD prev ⟨0, 0, 0⟩) ≤ sqDist p (s.clusters.getD j ⟨0, 0, 0⟩) := by
  by_cases hjp : prev = j
  · rw [hjp]
  rw [bestCluster_none_iff] at h
  rcases h j hj with h | h
  · exact prune_sound (h.trans ((two_rows s.clusters s.distMatrix hr).2 prev hp j hj hjp))
  · exact h

/-- Moving a point costs strictly less. -/
theorem moves_lt (s : KState ℝ) (k : Nat) (points : List (Vec3 ℝ)) (counts : List Int) (hpos : ∀ c ∈ counts, 0 < c)
    (hl : counts.length = points.length)
    (hn : (assign s k points).all Option.isNone = false) :
    clusterCost s.clusters points counts (newIndices (assign s k points) s.clusterIndices) <
      clusterCost s.clusters points counts s.clusterIndices := by
  have hle := fun (points : List (Vec3 ℝ)) (counts : List Int) (h : ∀ c ∈ counts, 0 < c) (old : List Nat) =>
    moves_le { s with clusterIndices := old } k points counts h
  unfold clusterCost newIndices assign at *
  generalize s.clusterIndices = old at *
  induction points generalizing counts old with
  | nil => simp at hn
  | cons p points ih =>
    cases counts with
    | nil => simp at hl
    | cons c counts =>
      cases old with
      | nil => simp at hn
      | cons o old =>
        simp only [List.zip_cons_cons, List.map_cons, List.sum_cons, List.all_cons] at hn ⊢
        have hc : (0:ℝ) < c := by exact_mod_cast hpos c List.mem_cons_self
        have hrest : ∀ x ∈ counts, 0 < x := fun x hx => hpos x (List.mem_cons_of_mem _ hx)
        obtain ⟨hb1, hb2⟩ := bestCluster_le s.clusters (s.distMatrix.getD o []) k p o
        cases hb : bestCluster s.clusters (s.distMatrix.getD o []) k p o with
        | none =>
          rw [hb] at hn
          have h := ih counts hrest (by simpa using hl) old (by simpa using hn)
          exact add_lt_add_of_le_of_lt (le_refl _) h
        | some j =>
          have h1 := mul_lt_mul_of_pos_left (hb2 j hb) hc
          exact add_lt_add_of_lt_of_le h1 (hle points counts hrest old)

/-- When one more round changes nothing, it has come to a state in which no point moves. -/
theorem kLoop_stop (k : Nat) (points : List (Vec3 ℝ)) (counts : List Int) (hl : counts.length = points.length)
    (hpos : ∀ c ∈ counts, 0 < c) (I : KState ℝ → Prop)
    (hI : ∀ s, I s → I (nextState k points counts s)) (n : Nat) : ∀ (first : Bool) (s : KState ℝ), KInv k points.length s → I s →
      (first = true → 0 < n) →
      stateCost points counts (kLoop k points counts n first s) ≤ stateCost points counts (kLoop k points counts (n + 1) first s) →
      ∃ s' : KState ℝ, I s' ∧ KInv k points.length s' ∧ (assign (measured k s') k points).all Option.isNone = true ∧
        (kLoop k points counts n first s).clusters = s'.clusters ∧
        (kLoop k points counts n first s).clusterIndices = s'.clusterIndices := by
  induction n with
  | zero =>
    intro first s h hs hf hc
    have hff : first = false := by
      cases first with
      | false => rfl
      | true => exact absurd (hf rfl) (by omega)
    subst hff
    refine ⟨s, hs, h, ?_, rfl, rfl⟩
    by_contra hn
    rw [Bool.not_eq_true] at hn
    rw [kLoop_succ, hn] at hc
    obtain ⟨n1, n2⟩ := newIndices_ok (measured_inv h) points rfl
    have h1 := recentre_le k points counts (movedIndices k points s) hl n1 hpos n2 s.clusters (s.clusters.drop k)
    have h2 := moves_lt (measured k s) k points counts hpos hl hn
    have h3 : stateCost points counts s ≤ stateCost points counts (nextState k points counts s) := hc
    exact absurd (lt_of_le_of_lt h1 h2) (not_lt.2 h3)
  | succ n ih =>
    intro first s h hs hf hc
    rw [kLoop_succ]
    rw [kLoop_succ, kLoop_succ] at hc
    by_cases hstop : ((assign (measured k s) k points).all Option.isNone && !first) = true
    · rw [if_pos hstop]
      rw [Bool.and_eq_true] at hstop
      exact ⟨s, hs, h, hstop.1, rfl, moved_none h hstop.1⟩
    · rw [if_neg hstop]
      rw [if_neg hstop, if_neg hstop] at hc
      exact ih false _ (nextState_inv hl hpos h) (hI s hs) (by simp) hc

end Mcu.QuantizerWsmeans
