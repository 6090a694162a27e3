import Verif.Model.QuantizerWu

/-! Model of /repo/src/quantize/quantizer_wsmeans.rs, quantizer_celebi.rs and
src/point_provider_lab.rs. -/

namespace Mcu.QuantizerWsmeans

open ColorUtils

variable {F : Type} [Fl F]

/-- point_provider_lab.rs 12-14 -/
def pointFromInt (argb : Int) : Vec3 F := labFromArgb argb

/-- point_provider_lab.rs 16-18 -/
def pointToInt (lab : Vec3 F) : Int := argbFromLab lab.x0 lab.x1 lab.x2

/-- point_provider_lab.rs 20-32 -/
def pointDistance (one two : Vec3 F) : F :=
  let dL := one.x0 - two.x0
  let dA := one.x1 - two.x1
  let dB := one.x2 - two.x2
  dL * dL + dA * dA + dB * dB

/-- quantizer_wsmeans.rs 11-14 -/
structure DistanceAndIndex (F : Type) where
  distance : F
  index : Int

/-- The derived `PartialOrd::lt` of quantizer_wsmeans.rs 10 (lexicographic), which `slice::sort`
(line 179) uses. -/
def ltDI (a b : DistanceAndIndex F) : Bool :=
  decide (a.distance < b.distance) || (a.distance == b.distance && decide (a.index < b.index))

/-- quantizer_wsmeans.rs 62-76: distinct pixels in order of first occurrence with their counts.  The
list plays the roles of `pixels`, `counts` (lines 78-83) and `pixel_to_count`. -/
def countPixels (inputPixels : List Int) : List (Int × Int) :=
  inputPixels.foldl (fun m p => QuantizerMap.insert m p ((m.lookup p).getD 0 + 1)) []

/-- The state of the k-means loop. -/
structure KState (F : Type) where
  clusters : List (Vec3 F)
  clusterIndices : List Nat
  distMatrix : List (List (DistanceAndIndex F))
  pixelCountSums : List Int

/-- Update row `i`, column `j` of a matrix. -/
def setEntry {α : Type} (m : List (List α)) (i j : Nat) (v : α) : List (List α) :=
  m.modify i (fun row => row.set j v)

/-- quantizer_wsmeans.rs 168-184 for one `i`.  (`index_matrix` is only written, never read, and is left
out.) -/
def matrixRow (clusters : List (Vec3 F)) (k : Nat) (m : List (List (DistanceAndIndex F))) (i : Nat) :
    List (List (DistanceAndIndex F)) :=
  let o : Vec3 F := ⟨0.0, 0.0, 0.0⟩
  let m := ((List.range k).filter (fun j => decide (i < j))).foldl (fun m j =>
    let distance := pointDistance (clusters.getD i o) (clusters.getD j o)
    setEntry (setEntry m j i ⟨distance, i⟩) i j ⟨distance, j⟩) m
  m.modify i (fun row => row.mergeSort (fun a b => !ltDI b a))

/-- quantizer_wsmeans.rs 187-209: best cluster for a point, `none` for -1. -/
def bestCluster (clusters : List (Vec3 F)) (row : List (DistanceAndIndex F)) (k : Nat)
    (point : Vec3 F) (prev : Nat) : Option Nat :=
  let o : Vec3 F := ⟨0.0, 0.0, 0.0⟩
  let previousDistance := pointDistance point (clusters.getD prev o)
  ((List.range k).foldl (fun (best : F × Option Nat) j =>
    if (row.getD j ⟨0.0, 0⟩).distance ≥ 4.0 * previousDistance then best
    else
      let distance := pointDistance point (clusters.getD j o)
      if distance < best.1 then (distance, some j) else best) (previousDistance, none)).2

/-- quantizer_wsmeans.rs 186-214: new cluster index of every point. -/
def assign (s : KState F) (k : Nat) (points : List (Vec3 F)) : List (Option Nat) :=
  (points.zip s.clusterIndices).map fun (p, prev) =>
    bestCluster s.clusters (s.distMatrix.getD prev []) k p prev

/-- quantizer_wsmeans.rs 210-213 -/
def newIndices (moves : List (Option Nat)) (old : List Nat) : List Nat :=
  (moves.zip old).map fun (m, o) => m.getD o

/-- quantizer_wsmeans.rs 230-241: pixel count per cluster. -/
def countSums (k : Nat) (counts : List Int) (indices : List Nat) : List Int :=
  (counts.zip indices).foldl (fun sums (c, ci) => sums.modify ci (· + c)) (List.replicate k 0)

/-- quantizer_wsmeans.rs 226-241: component sums per cluster. -/
def componentSums (k : Nat) (points : List (Vec3 F)) (counts : List Int) (indices : List Nat) :
    List (Vec3 F) :=
  ((points.zip counts).zip indices).foldl (fun sums ((p, c), ci) =>
    sums.modify ci fun s =>
      ⟨s.x0 + p.x0 * Fl.ofInt c, s.x1 + p.x1 * Fl.ofInt c, s.x2 + p.x2 * Fl.ofInt c⟩)
    (List.replicate k ⟨0.0, 0.0, 0.0⟩)

/-- quantizer_wsmeans.rs 242-252: new centroid of cluster `i`. -/
def centroid (sums : Vec3 F) (count : Int) : Vec3 F :=
  if count = 0 then ⟨0.0, 0.0, 0.0⟩
  else ⟨sums.x0 / Fl.ofInt count, sums.x1 / Fl.ofInt count, sums.x2 / Fl.ofInt count⟩

/-- quantizer_wsmeans.rs 143-253 with `n` iterations left; `first` says this is iteration 0.  Clusters
beyond the first `k` are never changed. -/
def kLoop (k : Nat) (points : List (Vec3 F)) (counts : List Int) : Nat → Bool → KState F → KState F
  | 0, _, s => s
  | n + 1, first, s =>
    let distMatrix := (List.range k).foldl (matrixRow s.clusters k) s.distMatrix
    let s := { s with distMatrix }
    let moves := assign s k points
    let s := { s with clusterIndices := newIndices moves s.clusterIndices }
    if moves.all Option.isNone && !first then s
    else
      let pixelCountSums := countSums k counts s.clusterIndices
      let sums := componentSums k points counts s.clusterIndices
      let clusters := (List.zipWith centroid sums pixelCountSums) ++ s.clusters.drop k
      kLoop k points counts n false { s with clusters, pixelCountSums }

/-- quantizer_wsmeans.rs 257-271: colours with their populations. -/
def collect (clusters : List (Vec3 F)) (pixelCountSums : List Int) : List (Int × Int) :=
  (clusters.zip pixelCountSums).foldl (fun acc (c, count) =>
    if count = 0 then acc
    else
      let argb := pointToInt c
      if acc.any (fun p => p.1 == argb) then acc else acc ++ [(argb, count)]) []

/-- quantizer.rs: `QuantizerResult`. -/
structure Result where
  colorToCount : List (Int × Int)
  inputPixelToClusterPixel : List (Int × Int)

/-- What the random number generator contributes (quantizer_wsmeans.rs 94-119): `needed` pairwise
distinct indices below the number of points. -/
def ValidPicks (needed : Int) (pointCount : Nat) (picks : List Nat) : Prop :=
  (picks.length : Int) = max needed 0 ∧ picks.Nodup ∧ ∀ i ∈ picks, i < pointCount

/-- quantizer_wsmeans.rs 45-304.  `picks` are the indices drawn from the random number generator, see
`ValidPicks`.  `none` is a panic: remainder by a zero `cluster_count` (line 130) or a negative vector
size (line 142), i.e. a negative or zero cluster count with pixels present. -/
def quantize (F : Type) [Fl F] (inputPixels : List Int) (maxColors : Int) (startingClusters : List Int)
    (maxIterations : Option Int) (returnMap : Option Bool) (picks : List Nat) : Option Result :=
  let maxIterations := maxIterations.getD 5
  let returnMap := returnMap.getD false
  let pixelToCount := countPixels inputPixels
  let pixels := pixelToCount.map Prod.fst
  let counts := pixelToCount.map Prod.snd
  let points : List (Vec3 F) := pixels.map pointFromInt
  let pointCount := points.length
  let clusterCount : Int := min maxColors pointCount
  if clusterCount < 0 ∨ (clusterCount = 0 ∧ pointCount ≠ 0) then none
  else
    let k := clusterCount.toNat
    let clusters : List (Vec3 F) := startingClusters.map pointFromInt
    let clusters :=
      if (clusterCount : Int) - clusters.length > 0 then
        clusters ++ picks.map (fun i => points.getD i ⟨0.0, 0.0, 0.0⟩)
      else clusters
    let s : KState F :=
      { clusters
        clusterIndices := (List.range pointCount).map (· % k)
        distMatrix := List.replicate k ((List.range k).map fun (j : Nat) => ⟨0.0, j⟩)
        pixelCountSums := List.replicate k 0 }
    let s := kLoop k points counts maxIterations.toNat true s
    let colorToCount := collect (s.clusters.take k) s.pixelCountSums
    let map :=
      if returnMap then
        (pixels.zip s.clusterIndices).map fun (p, ci) =>
          (p, pointToInt (s.clusters.getD ci ⟨0.0, 0.0, 0.0⟩))
      else []
    some { colorToCount, inputPixelToClusterPixel := map }

/-- quantizer_celebi.rs 10-31.  `entries` is the iteration order of the counted opaque pixels inside the
Wu quantizer, `starts` the iteration order of the colours it returns, `picks` the random choices. -/
def celebi (F : Type) [Fl F] (pixels : List Int) (maxColors : Int) (returnMap : Option Bool)
    (entries : List (Int × Int)) (starts : List Int → List Int) (picks : List Nat) : Option Result :=
  match QuantizerWu.quantizeEntries F entries maxColors with
  | none => none
  | some wu => quantize F pixels maxColors (starts wu) none (some (returnMap.getD false)) picks

end Mcu.QuantizerWsmeans
