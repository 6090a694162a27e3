import Verif.Lemmas.Wsmeans
import Verif.Lemmas.Real
import Verif.Spec.KMeans
import Mathlib.Tactic.Linarith
import Mathlib.Tactic.Positivity
import Mathlib.Algebra.BigOperators.Group.Finset.Basic
import Mathlib.Algebra.Order.BigOperators.Group.Finset

/-! Lemmas about the k-means loop over the reals: the cost, and the centres as means. -/

namespace Mcu.QuantizerWsmeans

open Mcu.Spec Mcu.Props ColorUtils

theorem distance_eq (a b : Vec3 ℝ) : pointDistance a b = sqDist a b := by
  unfold pointDistance sqDist
  ring

theorem sqDist_nonneg (a b : Vec3 ℝ) : 0 ≤ sqDist a b := by unfold sqDist; positivity

theorem origin_eq : (⟨0.0, 0.0, 0.0⟩ : Vec3 ℝ) = ⟨0, 0, 0⟩ := by norm_num

/-- A move never goes to a farther centre. -/
theorem bestCluster_le (clusters : List (Vec3 ℝ)) (row : List (DistanceAndIndex ℝ)) (k : Nat) (p : Vec3 ℝ) (prev : Nat) :
    sqDist p (clusters.getD ((bestCluster clusters row k p prev).getD prev) ⟨0, 0, 0⟩) ≤
      sqDist p (clusters.getD prev ⟨0, 0, 0⟩) ∧
    ∀ j, bestCluster clusters row k p prev = some j →
      sqDist p (clusters.getD j ⟨0, 0, 0⟩) < sqDist p (clusters.getD prev ⟨0, 0, 0⟩) := by
  have key : ∀ (l : List Nat) (best : ℝ × Option Nat), best.1 ≤ sqDist p (clusters.getD prev ⟨0, 0, 0⟩) →
      (∀ i, best.2 = some i → best.1 = sqDist p (clusters.getD i ⟨0, 0, 0⟩) ∧
        best.1 < sqDist p (clusters.getD prev ⟨0, 0, 0⟩)) →
      ∀ i, (l.foldl (fun (best : ℝ × Option Nat) j =>
        if (row.getD j ⟨0.0, 0⟩).distance ≥ 4.0 * pointDistance p (clusters.getD prev ⟨0.0, 0.0, 0.0⟩) then best
        else
          let distance := pointDistance p (clusters.getD j ⟨0.0, 0.0, 0.0⟩)
          if distance < best.1 then (distance, some j) else best) best).2 = some i →
        sqDist p (clusters.getD i ⟨0, 0, 0⟩) < sqDist p (clusters.getD prev ⟨0, 0, 0⟩) := by
    intro l
    induction l with
    | nil => intro best _ h2 i hi; obtain ⟨a, b⟩ := h2 i hi; rw [← a]; exact b
    | cons x rest ih =>
      intro best h1 h2
      rw [List.foldl_cons]
      simp only
      split_ifs with hs hd
      · exact ih best h1 h2
      · have hx : pointDistance p (clusters.getD x ⟨0.0, 0.0, 0.0⟩) = sqDist p (clusters.getD x ⟨0, 0, 0⟩) := by
          rw [distance_eq, origin_eq]
        refine ih (_, some x) (hd.le.trans h1) ?_
        intro i hi
        obtain rfl := Option.some.inj hi
        exact ⟨hx, hd.trans_le h1⟩
      · exact ih best h1 h2
  have hmove : ∀ j, bestCluster clusters row k p prev = some j →
      sqDist p (clusters.getD j ⟨0, 0, 0⟩) < sqDist p (clusters.getD prev ⟨0, 0, 0⟩) := by
    intro j hj
    refine key (List.range k) (pointDistance p (clusters.getD prev ⟨0.0, 0.0, 0.0⟩), none) ?_ (fun i hi => by cases hi) j hj
    rw [distance_eq, origin_eq]
  refine ⟨?_, hmove⟩
  cases h : bestCluster clusters row k p prev with
  | none => exact le_refl _
  | some j => exact (hmove j h).le

/-! ### Sums by cluster -/

theorem componentSums_fold (pairs : List ((Vec3 ℝ × Int) × Nat)) (sums : List (Vec3 ℝ))
    (h : ∀ p ∈ pairs, p.2 < sums.length) (i : Nat) :
    (pairs.foldl (fun sums ((p, c), ci) => sums.modify ci fun s =>
      ⟨s.x0 + p.x0 * Fl.ofInt c, s.x1 + p.x1 * Fl.ofInt c, s.x2 + p.x2 * Fl.ofInt c⟩) sums).getD i ⟨0, 0, 0⟩ =
      ⟨(sums.getD i ⟨0, 0, 0⟩).x0 + (pairs.map fun t : (Vec3 ℝ × Int) × Nat => if t.2 = i then t.1.1.x0 * (t.1.2 : ℝ) else 0).sum,
        (sums.getD i ⟨0, 0, 0⟩).x1 + (pairs.map fun t : (Vec3 ℝ × Int) × Nat => if t.2 = i then t.1.1.x1 * (t.1.2 : ℝ) else 0).sum,
        (sums.getD i ⟨0, 0, 0⟩).x2 + (pairs.map fun t : (Vec3 ℝ × Int) × Nat => if t.2 = i then t.1.1.x2 * (t.1.2 : ℝ) else 0).sum⟩ := by
  induction pairs generalizing sums with
  | nil => simp
  | cons t rest ih =>
    obtain ⟨⟨p, c⟩, ci⟩ := t
    have hci : ci < sums.length := h ((p, c), ci) List.mem_cons_self
    rw [List.foldl_cons, ih _ (fun q hq => by
      rw [List.length_modify]; exact h q (List.mem_cons_of_mem _ hq))]
    simp only [List.map_cons, List.sum_cons, fl_ofInt]
    by_cases he : ci = i
    · subst he
      rw [getD_modify_self _ _ _ _ hci, if_pos rfl, if_pos rfl, if_pos rfl]
      simp only [Vec3.mk.injEq]
      refine ⟨?_, ?_, ?_⟩ <;> ring
    · rw [getD_modify_ne _ _ _ _ _ he, if_neg he, if_neg he, if_neg he]
      simp

/-- Counts and components of the points in a cluster. -/
noncomputable def inCluster (T : List ((Vec3 ℝ × Int) × Nat)) (f : Vec3 ℝ → ℝ) (i : Nat) : ℝ :=
  (T.map fun t => if t.2 = i then f t.1.1 * (t.1.2 : ℝ) else 0).sum

theorem componentSums_eq (k : Nat) (points : List (Vec3 ℝ)) (counts : List Int) (indices : List Nat)
    (hk : ∀ i ∈ indices, i < k) (i : Nat) (hi : i < k) :
    (componentSums k points counts indices).getD i ⟨0, 0, 0⟩ =
      ⟨inCluster ((points.zip counts).zip indices) Vec3.x0 i, inCluster ((points.zip counts).zip indices) Vec3.x1 i,
        inCluster ((points.zip counts).zip indices) Vec3.x2 i⟩ := by
  have e0 : (0.0:ℝ) = 0 := by norm_num
  unfold componentSums inCluster
  rw [componentSums_fold _ _ (fun p hp => by
    rw [List.length_replicate]; exact hk _ (List.of_mem_zip hp).2) i]
  have hr : (List.replicate k (⟨0.0, 0.0, 0.0⟩ : Vec3 ℝ)).getD i ⟨0, 0, 0⟩ = ⟨0, 0, 0⟩ := by
    rw [List.getD_eq_getElem?_getD, List.getElem?_replicate, if_pos hi, Option.getD_some, origin_eq]
  rw [hr]
  simp

theorem countSums_eq (k : Nat) (points : List (Vec3 ℝ)) (counts : List Int) (indices : List Nat)
    (hl : counts.length = points.length) (hk : ∀ i ∈ indices, i < k) (i : Nat) :
    (((countSums k counts indices).getD i 0 : Int) : ℝ) = inCluster ((points.zip counts).zip indices) (fun _ => 1) i := by
  have hz : ∀ p ∈ counts.zip indices, p.2 < (List.replicate k (0:Int)).length := by
    intro p hp
    rw [List.length_replicate]
    exact hk _ (List.of_mem_zip hp).2
  have h3 := (countSums_fold (counts.zip indices) (List.replicate k 0) hz).2.2 i
  have hrep : (List.replicate k (0:Int)).getD i 0 = 0 := by
    rw [List.getD_eq_getElem?_getD, List.getElem?_replicate]
    split_ifs <;> rfl
  unfold countSums inCluster
  rw [h3, hrep, zero_add]
  clear h3 hz hrep hk
  induction points generalizing counts indices with
  | nil =>
    have : counts = [] := List.length_eq_zero_iff.1 (by simpa using hl)
    simp [this]
  | cons p points ih =>
    cases counts with
    | nil => simp at hl
    | cons c counts =>
      cases indices with
      | nil => simp
      | cons x indices =>
        simp only [List.zip_cons_cons, List.map_cons, List.sum_cons]
        rw [Int.cast_add, ih counts indices (by simpa using hl)]
        split_ifs <;> simp

/-- A sum over all points is a sum over the clusters. -/
theorem sum_by_cluster (T : List ((Vec3 ℝ × Int) × Nat)) (k : Nat) (hk : ∀ t ∈ T, t.2 < k) (g : (Vec3 ℝ × Int) → Nat → ℝ) :
    (T.map fun t => g t.1 t.2).sum = ∑ j ∈ Finset.range k, (T.map fun t => if t.2 = j then g t.1 j else 0).sum := by
  induction T with
  | nil => simp
  | cons t rest ih =>
    simp only [List.map_cons, List.sum_cons]
    rw [Finset.sum_add_distrib, ← ih fun x hx => hk x (List.mem_cons_of_mem _ hx), Finset.sum_ite_eq,
      if_pos (Finset.mem_range.2 (hk t List.mem_cons_self))]

/-- The sum of weighted squared deviations from a number. -/
theorem deviations (T : List ((Vec3 ℝ × Int) × Nat)) (f : Vec3 ℝ → ℝ) (i : Nat) (m : ℝ) :
    (T.map fun t => if t.2 = i then (t.1.2 : ℝ) * (f t.1.1 - m) ^ 2 else 0).sum =
      inCluster T (fun p => f p ^ 2) i - 2 * m * inCluster T f i + m ^ 2 * inCluster T (fun _ => 1) i := by
  unfold inCluster
  induction T with
  | nil => simp
  | cons t rest ih =>
    simp only [List.map_cons, List.sum_cons]
    rw [ih]
    split_ifs <;> ring

theorem inCluster_one_nonneg (T : List ((Vec3 ℝ × Int) × Nat)) (hc : ∀ t ∈ T, 0 < t.1.2) (i : Nat) :
    0 ≤ inCluster T (fun _ => 1) i := by
  unfold inCluster
  refine List.sum_nonneg ?_
  intro x hx
  obtain ⟨t, ht, rfl⟩ := List.mem_map.1 hx
  have : (0:ℝ) < t.1.2 := by exact_mod_cast hc t ht
  split_ifs <;> linarith

theorem inCluster_zero (T : List ((Vec3 ℝ × Int) × Nat)) (hc : ∀ t ∈ T, 0 < t.1.2) (i : Nat)
    (h : inCluster T (fun _ => 1) i = 0) (f : Vec3 ℝ → ℝ) : inCluster T f i = 0 := by
  induction T with
  | nil => simp [inCluster]
  | cons t rest ih =>
    have hr : ∀ t ∈ rest, 0 < t.1.2 := fun x hx => hc x (List.mem_cons_of_mem _ hx)
    have h1 := inCluster_one_nonneg rest hr i
    have h0 : (0:ℝ) < t.1.2 := by exact_mod_cast hc t List.mem_cons_self
    have e : ∀ g : Vec3 ℝ → ℝ, inCluster (t :: rest) g i = (if t.2 = i then g t.1.1 * t.1.2 else 0) + inCluster rest g i := by
      intro g; unfold inCluster; rw [List.map_cons, List.sum_cons]
    rw [e] at h ⊢
    by_cases ht : t.2 = i
    · rw [if_pos ht] at h; linarith
    · rw [if_neg ht] at h ⊢
      rw [ih hr (by linarith)]
      simp

/-- The mean minimises the sum of weighted squared deviations. -/
theorem mean_minimal (T : List ((Vec3 ℝ × Int) × Nat)) (hc : ∀ t ∈ T, 0 < t.1.2) (f : Vec3 ℝ → ℝ) (i : Nat) (m c : ℝ)
    (hm : inCluster T (fun _ => 1) i ≠ 0 → c = inCluster T f i / inCluster T (fun _ => 1) i) :
    (T.map fun t => if t.2 = i then (t.1.2 : ℝ) * (f t.1.1 - c) ^ 2 else 0).sum ≤
      (T.map fun t => if t.2 = i then (t.1.2 : ℝ) * (f t.1.1 - m) ^ 2 else 0).sum := by
  rw [deviations, deviations]
  by_cases h : inCluster T (fun _ => 1) i = 0
  · rw [h, inCluster_zero T hc i h f]
    linarith
  · have hn := inCluster_one_nonneg T hc i
    have hp : 0 < inCluster T (fun _ => 1) i := lt_of_le_of_ne hn (Ne.symm h)
    have hS : inCluster T f i = c * inCluster T (fun _ => 1) i := by rw [hm h]; field_simp
    rw [hS]
    nlinarith [mul_nonneg hn (sq_nonneg (m - c))]

theorem componentSums_length {F : Type} [Fl F] (k : Nat) (points : List (Vec3 F)) (counts : List Int) (indices : List Nat) :
    (componentSums k points counts indices).length = k := by
  unfold componentSums
  have : ∀ (l : List ((Vec3 F × Int) × Nat)) (sums : List (Vec3 F)),
      (l.foldl (fun sums ((p, c), ci) => sums.modify ci fun s =>
        ⟨s.x0 + p.x0 * Fl.ofInt c, s.x1 + p.x1 * Fl.ofInt c, s.x2 + p.x2 * Fl.ofInt c⟩) sums).length = sums.length := by
    intro l
    induction l with
    | nil => intro sums; rfl
    | cons x rest ih2 => intro sums; rw [List.foldl_cons, ih2, List.length_modify]
  rw [this, List.length_replicate]

/-- The new centres are the means. -/
theorem centres_eq (k : Nat) (points : List (Vec3 ℝ)) (counts : List Int) (indices : List Nat)
    (hl : counts.length = points.length) (hil : indices.length = points.length) (hpos : ∀ c ∈ counts, 0 < c)
    (hk : ∀ i ∈ indices, i < k) (rest : List (Vec3 ℝ)) (j : Nat) (hj : j < k)
    (hne : inCluster ((points.zip counts).zip indices) (fun _ => 1) j ≠ 0) :
    (List.zipWith centroid (componentSums k points counts indices) (countSums k counts indices) ++ rest).getD j ⟨0, 0, 0⟩ =
      ⟨inCluster ((points.zip counts).zip indices) Vec3.x0 j / inCluster ((points.zip counts).zip indices) (fun _ => 1) j,
        inCluster ((points.zip counts).zip indices) Vec3.x1 j / inCluster ((points.zip counts).zip indices) (fun _ => 1) j,
        inCluster ((points.zip counts).zip indices) Vec3.x2 j / inCluster ((points.zip counts).zip indices) (fun _ => 1) j⟩ := by
  have hcl := componentSums_length k points counts indices
  have hsl := (countSums_ok k counts indices (by omega) hk hpos).1
  have hs := componentSums_eq k points counts indices hk j hj
  have hc := countSums_eq k points counts indices hl hk j
  have hjl : j < (List.zipWith centroid (componentSums k points counts indices) (countSums k counts indices)).length := by
    rw [List.length_zipWith, hcl, hsl]; omega
  rw [List.getD_eq_getElem?_getD, List.getElem?_append_left hjl, List.getElem?_eq_getElem hjl, Option.getD_some,
    List.getElem_zipWith]
  rw [List.getD_eq_getElem?_getD, List.getElem?_eq_getElem (by omega), Option.getD_some] at hs hc
  have hc0 : (countSums k counts indices)[j]'(by omega) ≠ 0 := by
    intro h0
    rw [h0] at hc
    exact hne (by rw [← hc]; norm_num)
  unfold centroid
  rw [if_neg hc0, hs, fl_ofInt, hc]

/-- The new centres cost no more than any others, for the same clusters. -/
theorem recentre_le (k : Nat) (points : List (Vec3 ℝ)) (counts : List Int) (indices : List Nat)
    (hl : counts.length = points.length) (hil : indices.length = points.length) (hpos : ∀ c ∈ counts, 0 < c)
    (hk : ∀ i ∈ indices, i < k) (clusters rest : List (Vec3 ℝ)) :
    clusterCost (List.zipWith centroid (componentSums k points counts indices) (countSums k counts indices) ++ rest)
      points counts indices ≤ clusterCost clusters points counts indices := by
  have hcentre := centres_eq k points counts indices hl hil hpos hk rest
  unfold clusterCost
  set T := (points.zip counts).zip indices with hT
  set new := List.zipWith centroid (componentSums k points counts indices) (countSums k counts indices) ++ rest with hnew
  have hTk : ∀ t ∈ T, t.2 < k := fun t ht => hk _ (List.of_mem_zip ht).2
  have hTc : ∀ t ∈ T, 0 < t.1.2 := fun t ht => hpos _ (List.of_mem_zip (List.of_mem_zip ht).1).2
  show (T.map fun t => (t.1.2 : ℝ) * sqDist t.1.1 (new.getD t.2 ⟨0, 0, 0⟩)).sum ≤
    (T.map fun t => (t.1.2 : ℝ) * sqDist t.1.1 (clusters.getD t.2 ⟨0, 0, 0⟩)).sum
  rw [sum_by_cluster T k hTk fun pc j => (pc.2 : ℝ) * sqDist pc.1 (new.getD j ⟨0, 0, 0⟩),
    sum_by_cluster T k hTk fun pc j => (pc.2 : ℝ) * sqDist pc.1 (clusters.getD j ⟨0, 0, 0⟩)]
  refine Finset.sum_le_sum fun j hj => ?_
  rw [Finset.mem_range] at hj
  have split3 : ∀ v : Vec3 ℝ, (T.map fun t => if t.2 = j then (t.1.2 : ℝ) * sqDist t.1.1 v else 0).sum =
      (T.map fun t => if t.2 = j then (t.1.2 : ℝ) * (t.1.1.x0 - v.x0) ^ 2 else 0).sum +
      (T.map fun t => if t.2 = j then (t.1.2 : ℝ) * (t.1.1.x1 - v.x1) ^ 2 else 0).sum +
      (T.map fun t => if t.2 = j then (t.1.2 : ℝ) * (t.1.1.x2 - v.x2) ^ 2 else 0).sum := by
    intro v
    rw [← List.sum_map_add, ← List.sum_map_add]
    congr 1
    refine List.map_congr_left fun t _ => ?_
    unfold sqDist
    split_ifs <;> ring
  rw [split3, split3]
  have hm := hcentre j hj
  have m0 := mean_minimal T hTc Vec3.x0 j (clusters.getD j ⟨0, 0, 0⟩).x0 (new.getD j ⟨0, 0, 0⟩).x0 (fun h => by rw [hm h])
  have m1 := mean_minimal T hTc Vec3.x1 j (clusters.getD j ⟨0, 0, 0⟩).x1 (new.getD j ⟨0, 0, 0⟩).x1 (fun h => by rw [hm h])
  have m2 := mean_minimal T hTc Vec3.x2 j (clusters.getD j ⟨0, 0, 0⟩).x2 (new.getD j ⟨0, 0, 0⟩).x2 (fun h => by rw [hm h])
  linarith

/-- Moving points costs no more, for the same centres. -/
theorem moves_le (s : KState ℝ) (k : Nat) (points : List (Vec3 ℝ)) (counts : List Int) (hpos : ∀ c ∈ counts, 0 < c) :
    clusterCost s.clusters points counts (newIndices (assign s k points) s.clusterIndices) ≤
      clusterCost s.clusters points counts s.clusterIndices := by
  unfold clusterCost newIndices assign
  generalize s.clusterIndices = old
  induction points generalizing counts old with
  | nil => simp
  | cons p points ih =>
    cases counts with
    | nil => simp
    | cons c counts =>
      cases old with
      | nil => simp
      | cons o old =>
        simp only [List.zip_cons_cons, List.map_cons, List.sum_cons]
        have h := ih counts (fun x hx => hpos x (List.mem_cons_of_mem _ hx)) old
        have hc : (0:ℝ) ≤ c := by exact_mod_cast (hpos c List.mem_cons_self).le
        have hb := mul_le_mul_of_nonneg_left (bestCluster_le s.clusters (s.distMatrix.getD o []) k p o).1 hc
        exact add_le_add hb h

/-! ### The loop -/

section anyArithmetic

variable {F : Type} [Fl F]

/-- The state with the matrix of this round. -/
def measured (k : Nat) (s : KState F) : KState F :=
  { s with distMatrix := (List.range k).foldl (matrixRow s.clusters k) s.distMatrix }

/-- The clusters of the points after the moves of this round. -/
def movedIndices (k : Nat) (points : List (Vec3 F)) (s : KState F) : List Nat :=
  newIndices (assign (measured k s) k points) s.clusterIndices

/-- The state after one full round. -/
def nextState (k : Nat) (points : List (Vec3 F)) (counts : List Int) (s : KState F) : KState F :=
  { clusters := (List.zipWith centroid (componentSums k points counts (movedIndices k points s))
      (countSums k counts (movedIndices k points s))) ++ s.clusters.drop k
    clusterIndices := movedIndices k points s
    distMatrix := (measured k s).distMatrix
    pixelCountSums := countSums k counts (movedIndices k points s) }

theorem kLoop_succ (k : Nat) (points : List (Vec3 F)) (counts : List Int) (n : Nat) (first : Bool) (s : KState F) :
    kLoop k points counts (n + 1) first s =
      if (assign (measured k s) k points).all Option.isNone && !first then
        { measured k s with clusterIndices := movedIndices k points s }
      else kLoop k points counts n false (nextState k points counts s) := rfl

theorem measured_inv {k m : Nat} {s : KState F} (h : KInv k m s) : KInv k m (measured k s) :=
  ⟨h.indicesLength, h.indicesLt, h.clustersLength⟩

theorem moved_none {k : Nat} {points : List (Vec3 F)} {s : KState F} (h : KInv k points.length s)
    (hn : (assign (measured k s) k points).all Option.isNone = true) : movedIndices k points s = s.clusterIndices := by
  refine newIndices_none _ _ hn ?_
  unfold assign
  simp [h.indicesLength, measured]

theorem nextState_inv {k : Nat} {points : List (Vec3 F)} {counts : List Int} (hl : counts.length = points.length)
    (hpos : ∀ c ∈ counts, 0 < c) {s : KState F} (h : KInv k points.length s) :
    KInv k points.length (nextState k points counts s) := by
  obtain ⟨n1, n2⟩ := newIndices_ok (measured_inv h) points rfl
  refine ⟨n1, n2, ?_⟩
  show k ≤ (List.zipWith _ _ _ ++ _).length
  rw [List.length_append, List.length_zipWith, componentSums_length,
    (countSums_ok k counts (movedIndices k points s) (by rw [hl]; exact n1.symm) n2 hpos).1]
  omega

/-- After at least one round the centres are those of the final clusters. -/
theorem kLoop_centres (k : Nat) (points : List (Vec3 F)) (counts : List Int) (hl : counts.length = points.length)
    (hpos : ∀ c ∈ counts, 0 < c) (n : Nat) : ∀ (first : Bool) (s : KState F), KInv k points.length s →
      (first = true → 0 < n) →
      (first = false → ∃ rest, s.clusters = List.zipWith centroid (componentSums k points counts s.clusterIndices)
        (countSums k counts s.clusterIndices) ++ rest) →
      ∃ rest, (kLoop k points counts n first s).clusters =
        List.zipWith centroid (componentSums k points counts (kLoop k points counts n first s).clusterIndices)
          (countSums k counts (kLoop k points counts n first s).clusterIndices) ++ rest := by
  induction n with
  | zero =>
    intro first s _ h1 h2
    refine h2 ?_
    cases first with
    | false => rfl
    | true => exact absurd (h1 rfl) (by omega)
  | succ n ih =>
    intro first s h h1 h2
    rw [kLoop_succ]
    split_ifs with hc
    · rw [Bool.and_eq_true] at hc
      have hf : first = false := by simpa using hc.2
      obtain ⟨rest, hr⟩ := h2 hf
      refine ⟨rest, ?_⟩
      show s.clusters = List.zipWith centroid (componentSums k points counts (movedIndices k points s))
        (countSums k counts (movedIndices k points s)) ++ rest
      rw [moved_none h hc.1]
      exact hr
    · exact ih false _ (nextState_inv hl hpos h) (by simp) (fun _ => ⟨_, rfl⟩)

end anyArithmetic

/-- The cost of a state. -/
noncomputable def stateCost (points : List (Vec3 ℝ)) (counts : List Int) (s : KState ℝ) : ℝ :=
  clusterCost s.clusters points counts s.clusterIndices

theorem nextState_cost {k : Nat} {points : List (Vec3 ℝ)} {counts : List Int} (hl : counts.length = points.length)
    (hpos : ∀ c ∈ counts, 0 < c) {s : KState ℝ} (h : KInv k points.length s) :
    stateCost points counts (nextState k points counts s) ≤ stateCost points counts s := by
  obtain ⟨n1, n2⟩ := newIndices_ok (measured_inv h) points rfl
  refine le_trans ?_ (moves_le (measured k s) k points counts hpos)
  exact recentre_le k points counts (movedIndices k points s) hl n1 hpos n2 s.clusters (s.clusters.drop k)

/-- The loop never increases the cost. -/
theorem kLoop_cost (k : Nat) (points : List (Vec3 ℝ)) (counts : List Int) (hl : counts.length = points.length)
    (hpos : ∀ c ∈ counts, 0 < c) (n : Nat) : ∀ (first : Bool) (s : KState ℝ), KInv k points.length s →
      stateCost points counts (kLoop k points counts n first s) ≤ stateCost points counts s := by
  induction n with
  | zero => intro first s _; exact le_refl _
  | succ n ih =>
    intro first s h
    rw [kLoop_succ]
    split_ifs with hc
    · exact moves_le (measured k s) k points counts hpos
    · exact (ih false _ (nextState_inv hl hpos h)).trans (nextState_cost hl hpos h)

/-- More rounds never cost more. -/
theorem kLoop_more (k : Nat) (points : List (Vec3 ℝ)) (counts : List Int) (hl : counts.length = points.length)
    (hpos : ∀ c ∈ counts, 0 < c) (n m : Nat) : ∀ (first : Bool) (s : KState ℝ), KInv k points.length s →
      stateCost points counts (kLoop k points counts (n + m) first s) ≤
        stateCost points counts (kLoop k points counts n first s) := by
  induction n with
  | zero => intro first s h; rw [Nat.zero_add]; exact kLoop_cost k points counts hl hpos m first s h
  | succ n ih =>
    intro first s h
    rw [show n + 1 + m = n + m + 1 by omega, kLoop_succ, kLoop_succ]
    split_ifs with hc
    · exact le_refl _
    · exact ih false _ (nextState_inv hl hpos h)

end Mcu.QuantizerWsmeans
