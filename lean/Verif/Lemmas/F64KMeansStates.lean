import Verif.Lemmas.F64KMeansWitness

/-! The states of k-means in binary64 for two images: one for which two clusters get the same colour, and one for which a point is not
moved to the nearest centre. -/

namespace Mcu.Lemmas

open Mcu.Ieee Props Props.Binary64 MathUtils ColorUtils QuantizerWsmeans Spec

variable {L : Libm}

local notation "𝔻" => F64 L

theorem lt_irrefl64 {p c : Vec3 𝔻} {P C : Vec3 ℝ} (hp : At p P) (hc : At c C) (D : ℝ) (D1 : 1 ≤ D) (D4 : D ≤ 4)
    (h0 : |P.x0 - C.x0| ≤ D) (h1 : |P.x1 - C.x1| ≤ D) (h2 : |P.x2 - C.x2| ≤ D) :
    ¬ pointDistance p c < pointDistance p c := by
  obtain ⟨v, iv, -⟩ := dist64 hp hc D D1 D4 h0 h1 h2
  rw [iv.lt_iff iv]
  exact lt_irrefl _

/-- Two exact points are at most `D` apart in every coordinate. -/
def Within (P C : Vec3 ℝ) (D : ℝ) : Prop := |P.x0 - C.x0| ≤ D ∧ |P.x1 - C.x1| ≤ D ∧ |P.x2 - C.x2| ≤ D

theorem not_nearer {p o x : Vec3 𝔻} {P O X : Vec3 ℝ} (hp : At p P) (ho : At o O) (hx : At x X) (D : ℝ) (D1 : 1 ≤ D) (D4 : D ≤ 4)
    (h1 : Within P O D) (h2 : Within P X D) (h : sqDist P O + D * (35 / 10 ^ 4) ≤ sqDist P X) :
    ¬ pointDistance p x < pointDistance p o :=
  (dist64 hp hx D D1 D4 h2.1 h2.2.1 h2.2.2).not_lt_of (dist64 hp ho D D1 D4 h1.1 h1.2.1 h1.2.2) (by linarith)

/-! ### Two clusters with the same colour -/

/-- Ten dark pixels of six colours. -/
def pairImage : List Int := [dark 4 3 3, dark 2 3 3, dark 3 3 4, dark 3 3 2, dark 1 4 3, dark 5 2 3, dark 4 3 3, dark 2 3 3, dark 4 3 3,
  dark 2 3 3]

theorem pair_stay (hL : L.PowOk) (s : KState 𝔻) (t : ℝ) (ht : t = 1 ∨ t = 1 / 5) (hi : s.clusterIndices = [0, 1, 0, 1, 0, 1])
    (h0 : At (s.clusters.getD 0 ⟨0.0, 0.0, 0.0⟩) (darkLab (3 + t) (3 + t) (3 + t)))
    (h1 : At (s.clusters.getD 1 ⟨0.0, 0.0, 0.0⟩) (darkLab (3 - t) (3 - t) (3 - t))) :
    (assign (measured 2 s) 2 (((countPixels pairImage).map Prod.fst).map pointFromInt)).all Option.isNone = true := by
  have hkeys : (countPixels pairImage).map Prod.fst = [dark 4 3 3, dark 2 3 3, dark 3 3 4, dark 3 3 2, dark 1 4 3, dark 5 2 3] := by decide
  have left : ∀ row (r g b : Int), 0 ≤ r → r ≤ 10 → 0 ≤ g → g ≤ 10 → 0 ≤ b → b ≤ 10 →
      Within (darkLab r g b) (darkLab (3 + t) (3 + t) (3 + t)) 1 → Within (darkLab r g b) (darkLab (3 - t) (3 - t) (3 - t)) 1 →
      sqDist (darkLab r g b) (darkLab (3 + t) (3 + t) (3 + t)) + 1 * (35 / 10 ^ 4) ≤
        sqDist (darkLab r g b) (darkLab (3 - t) (3 - t) (3 - t)) →
      bestCluster s.clusters row 2 (pointFromInt (dark r g b)) 0 = none := by
    intro row r g b r0 r1 g0 g1 b0 b1 w1 w2 hd
    have hp := at_dark hL r g b r0 r1 g0 g1 b0 b1
    refine bestCluster_none _ _ _ _ _ fun j hj => Or.inr ?_
    rcases (by omega : j = 0 ∨ j = 1) with rfl | rfl
    · exact lt_irrefl64 hp h0 1 le_rfl (by norm_num) w1.1 w1.2.1 w1.2.2
    · exact not_nearer hp h0 h1 1 le_rfl (by norm_num) w1 w2 hd
  have right : ∀ row (r g b : Int), 0 ≤ r → r ≤ 10 → 0 ≤ g → g ≤ 10 → 0 ≤ b → b ≤ 10 →
      Within (darkLab r g b) (darkLab (3 + t) (3 + t) (3 + t)) 1 → Within (darkLab r g b) (darkLab (3 - t) (3 - t) (3 - t)) 1 →
      sqDist (darkLab r g b) (darkLab (3 - t) (3 - t) (3 - t)) + 1 * (35 / 10 ^ 4) ≤
        sqDist (darkLab r g b) (darkLab (3 + t) (3 + t) (3 + t)) →
      bestCluster s.clusters row 2 (pointFromInt (dark r g b)) 1 = none := by
    intro row r g b r0 r1 g0 g1 b0 b1 w1 w2 hd
    have hp := at_dark hL r g b r0 r1 g0 g1 b0 b1
    refine bestCluster_none _ _ _ _ _ fun j hj => Or.inr ?_
    rcases (by omega : j = 0 ∨ j = 1) with rfl | rfl
    · exact not_nearer hp h1 h0 1 le_rfl (by norm_num) w2 w1 hd
    · exact lt_irrefl64 hp h1 1 le_rfl (by norm_num) w2.1 w2.2.1 w2.2.2
  have b0 : ∀ row, bestCluster s.clusters row 2 (pointFromInt (dark 4 3 3)) 0 = none := fun row => by
    apply left <;> (try norm_num) <;> rcases ht with rfl | rfl <;> norm_num [Within, darkLab, sqDist, abs_le]
  have b1 : ∀ row, bestCluster s.clusters row 2 (pointFromInt (dark 2 3 3)) 1 = none := fun row => by
    apply right <;> (try norm_num) <;> rcases ht with rfl | rfl <;> norm_num [Within, darkLab, sqDist, abs_le]
  have b2 : ∀ row, bestCluster s.clusters row 2 (pointFromInt (dark 3 3 4)) 0 = none := fun row => by
    apply left <;> (try norm_num) <;> rcases ht with rfl | rfl <;> norm_num [Within, darkLab, sqDist, abs_le]
  have b3 : ∀ row, bestCluster s.clusters row 2 (pointFromInt (dark 3 3 2)) 1 = none := fun row => by
    apply right <;> (try norm_num) <;> rcases ht with rfl | rfl <;> norm_num [Within, darkLab, sqDist, abs_le]
  have b4 : ∀ row, bestCluster s.clusters row 2 (pointFromInt (dark 1 4 3)) 0 = none := fun row => by
    apply left <;> (try norm_num) <;> rcases ht with rfl | rfl <;> norm_num [Within, darkLab, sqDist, abs_le]
  have b5 : ∀ row, bestCluster s.clusters row 2 (pointFromInt (dark 5 2 3)) 1 = none := fun row => by
    apply right <;> (try norm_num) <;> rcases ht with rfl | rfl <;> norm_num [Within, darkLab, sqDist, abs_le]
  unfold assign
  show ((List.zip _ s.clusterIndices).map fun (p, prev) =>
    bestCluster s.clusters ((measured 2 s).distMatrix.getD prev []) 2 p prev).all Option.isNone = true
  rw [hi, hkeys]
  simp only [List.map_cons, List.map_nil, List.zip_cons_cons, List.zip_nil_left, b0, b1, b2, b3, b4, b5]
  rfl

theorem darkLab_add (r g b r' g' b' : ℝ) : (darkLab r g b).x0 + (darkLab r' g' b').x0 = (darkLab (r + r') (g + g') (b + b')).x0 ∧
    (darkLab r g b).x1 + (darkLab r' g' b').x1 = (darkLab (r + r') (g + g') (b + b')).x1 ∧
    (darkLab r g b).x2 + (darkLab r' g' b').x2 = (darkLab (r + r') (g + g') (b + b')).x2 := by
  simp only [darkLab]
  refine ⟨?_, ?_, ?_⟩ <;> ring

/-- The state once the loop has run for a round or more. -/
theorem pair_state (hL : L.PowOk) (n : Nat) :
    2 ≤ (stateAfter 𝔻 pairImage 2 [dark 4 4 4, dark 2 2 2] [] (n + 1)).clusters.length ∧
    At ((stateAfter 𝔻 pairImage 2 [dark 4 4 4, dark 2 2 2] [] (n + 1)).clusters.getD 0 ⟨0.0, 0.0, 0.0⟩) (darkLab (3 + 1 / 5) (3 + 1 / 5) (3 + 1 / 5)) ∧
    At ((stateAfter 𝔻 pairImage 2 [dark 4 4 4, dark 2 2 2] [] (n + 1)).clusters.getD 1 ⟨0.0, 0.0, 0.0⟩) (darkLab (3 - 1 / 5) (3 - 1 / 5) (3 - 1 / 5)) ∧
    (stateAfter 𝔻 pairImage 2 [dark 4 4 4, dark 2 2 2] [] (n + 1)).clusterIndices = [0, 1, 0, 1, 0, 1] ∧
    (stateAfter 𝔻 pairImage 2 [dark 4 4 4, dark 2 2 2] [] (n + 1)).pixelCountSums = [5, 5] := by
  have hk : (min (2:Int) ((countPixels pairImage).length : Int)).toNat = 2 := by decide
  have hidx : (List.range (countPixels pairImage).length).map (· % 2) = [0, 1, 0, 1, 0, 1] := by decide
  have hcounts : (countPixels pairImage).map Prod.snd = [3, 3, 1, 1, 1, 1] := by decide
  have hst : startCentres 𝔻 pairImage 2 [dark 4 4 4, dark 2 2 2] [] = [pointFromInt (dark 4 4 4), pointFromInt (dark 2 2 2)] := rfl
  unfold stateAfter
  simp only
  rw [hk, hst, hidx, kLoop_succ]
  simp only [Bool.not_true, Bool.and_false, Bool.false_eq_true, if_false]
  generalize hs : (⟨[pointFromInt (dark 4 4 4), pointFromInt (dark 2 2 2)], [0, 1, 0, 1, 0, 1],
    List.replicate 2 ((List.range 2).map fun (j : Nat) => ⟨0.0, j⟩), List.replicate 2 0⟩ : KState 𝔻) = s
  have hi : s.clusterIndices = [0, 1, 0, 1, 0, 1] := by rw [← hs]
  have hc : s.clusters = [pointFromInt (dark 4 4 4), pointFromInt (dark 2 2 2)] := by rw [← hs]
  have hlen : (countPixels pairImage).length = 6 := by decide
  have inv : KInv 2 (countPixels pairImage).length s := ⟨by rw [hi, hlen]; rfl, by rw [hi]; simp, by rw [hc]; rfl⟩
  have c0 := at_dark hL 4 4 4 (by norm_num) (by norm_num) (by norm_num) (by norm_num) (by norm_num) (by norm_num)
  have c1 := at_dark hL 2 2 2 (by norm_num) (by norm_num) (by norm_num) (by norm_num) (by norm_num) (by norm_num)
  have stay := pair_stay hL s 1 (Or.inl rfl) hi (by rw [hc]; norm_num at c0 ⊢; exact c0) (by rw [hc]; norm_num at c1 ⊢; exact c1)
  have hn : ∀ j < 2, _ := fun j hj => next_centre pairImage 2 s inv stay j hj
  have inv' : KInv 2 (((countPixels pairImage).map Prod.fst).map (pointFromInt (F := 𝔻))).length s := by simpa using inv
  have inv2 := nextState_inv (counts := (countPixels pairImage).map Prod.snd) (by simp) (countPixels_pos pairImage) inv'
  have hmoved := moved_none inv' stay
  have hi2 : (nextState 2 (((countPixels pairImage).map Prod.fst).map pointFromInt) ((countPixels pairImage).map Prod.snd) s).clusterIndices =
      [0, 1, 0, 1, 0, 1] := hmoved.trans hi
  have hp2 : (nextState 2 (((countPixels pairImage).map Prod.fst).map pointFromInt) ((countPixels pairImage).map Prod.snd) s).pixelCountSums =
      [5, 5] := by
    show countSums 2 _ (movedIndices 2 _ s) = _
    rw [hmoved, hi, hcounts]
    rfl
  have m0 := at_mean hL pairImage (by decide)
    (fun q => decide (([0, 1, 0, 1, 0, 1] : List Nat).getD (((countPixels pairImage).map Prod.fst).idxOf q) 0 = 0)) (by decide)
  have m1 := at_mean hL pairImage (by decide)
    (fun q => decide (([0, 1, 0, 1, 0, 1] : List Nat).getD (((countPixels pairImage).map Prod.fst).idxOf q) 0 = 1)) (by decide)
  have f0 : pairImage.filter (fun q => decide (([0, 1, 0, 1, 0, 1] : List Nat).getD (((countPixels pairImage).map Prod.fst).idxOf q) 0 = 0)) =
      [dark 4 3 3, dark 3 3 4, dark 1 4 3, dark 4 3 3, dark 4 3 3] := by decide
  have f1 : pairImage.filter (fun q => decide (([0, 1, 0, 1, 0, 1] : List Nat).getD (((countPixels pairImage).map Prod.fst).idxOf q) 0 = 1)) =
      [dark 2 3 3, dark 3 3 2, dark 5 2 3, dark 2 3 3, dark 2 3 3] := by decide
  have n0 := hn 0 (by norm_num)
  have n1 := hn 1 (by norm_num)
  rw [hi] at n0 n1
  have k0 : meanLab [dark 4 3 3, dark 3 3 4, dark 1 4 3, dark 4 3 3, dark 4 3 3] = darkLab (3 + 1 / 5) (3 + 1 / 5) (3 + 1 / 5) := by
    unfold meanLab
    simp only [List.map_cons, List.map_nil, List.sum_cons, List.sum_nil, List.length_cons, List.length_nil]
    rw [lab_dark 4 3 3 (by norm_num) (by norm_num) (by norm_num) (by norm_num) (by norm_num) (by norm_num),
      lab_dark 3 3 4 (by norm_num) (by norm_num) (by norm_num) (by norm_num) (by norm_num) (by norm_num),
      lab_dark 1 4 3 (by norm_num) (by norm_num) (by norm_num) (by norm_num) (by norm_num) (by norm_num)]
    norm_num [darkLab]
  have k1 : meanLab [dark 2 3 3, dark 3 3 2, dark 5 2 3, dark 2 3 3, dark 2 3 3] = darkLab (3 - 1 / 5) (3 - 1 / 5) (3 - 1 / 5) := by
    unfold meanLab
    simp only [List.map_cons, List.map_nil, List.sum_cons, List.sum_nil, List.length_cons, List.length_nil]
    rw [lab_dark 2 3 3 (by norm_num) (by norm_num) (by norm_num) (by norm_num) (by norm_num) (by norm_num),
      lab_dark 3 3 2 (by norm_num) (by norm_num) (by norm_num) (by norm_num) (by norm_num) (by norm_num),
      lab_dark 5 2 3 (by norm_num) (by norm_num) (by norm_num) (by norm_num) (by norm_num) (by norm_num)]
    norm_num [darkLab]
  rw [f0, k0] at m0
  rw [f1, k1] at m1
  rw [f0] at n0
  rw [f1] at n1
  rw [← n0] at m0
  rw [← n1] at m1
  obtain ⟨s1, s2, s3⟩ := kLoop_settled 2 (((countPixels pairImage).map Prod.fst).map pointFromInt) ((countPixels pairImage).map Prod.snd) n _ inv2
    (pair_stay hL _ (1 / 5) (Or.inr rfl) hi2 m0 m1)
  rw [s1, s2, s3]
  exact ⟨inv2.clustersLength, m0, m1, hi2, hp2⟩

theorem take_two {α : Type} (l : List α) (o : α) (h : 2 ≤ l.length) : l.take 2 = [l.getD 0 o, l.getD 1 o] := by
  match l, h with
  | a :: b :: _, _ => rfl

/-- What comes out: one colour, with half of the pixels. -/
theorem pair_result (hL : L.PowOk) (n : Nat) :
    quantize 𝔻 pairImage 2 [dark 4 4 4, dark 2 2 2] (some (n + 1 : Nat)) (some true) [] =
    some ⟨[(dark 3 3 3, 5)], [(dark 4 3 3, dark 3 3 3), (dark 2 3 3, dark 3 3 3), (dark 3 3 4, dark 3 3 3), (dark 3 3 2, dark 3 3 3),
      (dark 1 4 3, dark 3 3 3), (dark 5 2 3, dark 3 3 3)]⟩ := by
  rw [quantize_state _ _ (by norm_num)]
  have hn : ((some ((n + 1 : Nat) : Int)).getD 5).toNat = n + 1 := by simp
  rw [hn]
  obtain ⟨hl, h0, h1, h2, h3⟩ := pair_state hL n
  have p0 := argb_dark hL h0 3 3 3 (by norm_num) (by norm_num) (by norm_num) (by norm_num) (by norm_num) (by norm_num)
    (by norm_num [abs_le]) (by norm_num [abs_le]) (by norm_num [abs_le])
  have p1 := argb_dark hL h1 3 3 3 (by norm_num) (by norm_num) (by norm_num) (by norm_num) (by norm_num) (by norm_num)
    (by norm_num [abs_le]) (by norm_num [abs_le]) (by norm_num [abs_le])
  have hk : (min (2:Int) ((countPixels pairImage).length : Int)).toNat = 2 := by decide
  have hkeys : (countPixels pairImage).map Prod.fst = [dark 4 3 3, dark 2 3 3, dark 3 3 4, dark 3 3 2, dark 1 4 3, dark 5 2 3] := by decide
  rw [hk, hkeys, take_two _ ⟨0.0, 0.0, 0.0⟩ hl, h2, h3]
  generalize (stateAfter 𝔻 pairImage 2 [dark 4 4 4, dark 2 2 2] [] (n + 1)).clusters = cl at *
  congr 2
  · show (([cl.getD 0 ⟨0.0, 0.0, 0.0⟩, cl.getD 1 ⟨0.0, 0.0, 0.0⟩] : List (Vec3 𝔻)).zip [5, 5]).foldl collectStep [] = _
    simp only [List.zip_cons_cons, List.zip_nil_left, List.foldl_cons, List.foldl_nil, collectStep, p0, p1]
    rfl
  · simp only [Option.getD_some, if_true, List.zip_cons_cons, List.zip_nil_left, List.map_cons, List.map_nil, p0, p1]

/-! ### A point that is not moved to the nearest centre -/

theorem sort_three {α : Type} (le : α → α → Bool) (a b c : α) (h1 : le a b = true) (h2 : le a c = true) (h3 : le b c = false) :
    [a, b, c].mergeSort le = [a, c, b] := by
  simp [List.mergeSort, List.MergeSort.Internal.splitInTwo, List.merge, h1, h2, h3]

/-- The first row of the matrix of distances, if the third centre is nearer to the first than the second is. -/
theorem row0_sorted (clusters : List (Vec3 𝔻)) (m : List (List (DistanceAndIndex 𝔻))) (b c : DistanceAndIndex 𝔻) (hm : m.length = 3)
    (h0 : m.getD 0 [] = [⟨0.0, 0⟩, b, c]) {x y δ ε : ℝ}
    (hx : Ap (pointDistance (clusters.getD 0 ⟨0.0, 0.0, 0.0⟩) (clusters.getD 1 ⟨0.0, 0.0, 0.0⟩)) x δ)
    (hy : Ap (pointDistance (clusters.getD 0 ⟨0.0, 0.0, 0.0⟩) (clusters.getD 2 ⟨0.0, 0.0, 0.0⟩)) y ε)
    (y0 : ε ≤ y) (hxy : y + ε + δ < x) :
    ((List.range 3).foldl (matrixRow clusters 3) m).length = 3 ∧
    ((List.range 3).foldl (matrixRow clusters 3) m).getD 0 [] = [⟨0.0, 0⟩,
      ⟨pointDistance (clusters.getD 0 ⟨0.0, 0.0, 0.0⟩) (clusters.getD 2 ⟨0.0, 0.0, 0.0⟩), 2⟩,
      ⟨pointDistance (clusters.getD 0 ⟨0.0, 0.0, 0.0⟩) (clusters.getD 1 ⟨0.0, 0.0, 0.0⟩), 1⟩] := by
  obtain ⟨r0, r1, r2, rfl⟩ := List.length_eq_three.1 hm
  have h : r0 = [⟨0.0, 0⟩, b, c] := h0
  subst h
  refine ⟨rfl, ?_⟩
  have hrow : ((List.range 3).foldl (matrixRow clusters 3) [[⟨0.0, 0⟩, b, c], r1, r2]).getD 0 [] =
      [⟨0.0, 0⟩, ⟨pointDistance (clusters.getD 0 ⟨0.0, 0.0, 0.0⟩) (clusters.getD 1 ⟨0.0, 0.0, 0.0⟩), 1⟩,
        ⟨pointDistance (clusters.getD 0 ⟨0.0, 0.0, 0.0⟩) (clusters.getD 2 ⟨0.0, 0.0, 0.0⟩), 2⟩].mergeSort (fun a b => !ltDI b a) := rfl
  rw [hrow]
  have z : Ap (0.0 : 𝔻) 0 0 := (by simpa using lit (L := L) 0 1 true 0 (by norm_num) (by norm_num) : Is (0.0 : 𝔻) 0).ap
  have δ0 := hx.nonneg
  have ε0 := hy.nonneg
  generalize pointDistance (clusters.getD 0 ⟨0.0, 0.0, 0.0⟩) (clusters.getD 1 ⟨0.0, 0.0, 0.0⟩) = d1 at *
  generalize pointDistance (clusters.getD 0 ⟨0.0, 0.0, 0.0⟩) (clusters.getD 2 ⟨0.0, 0.0, 0.0⟩) = d2 at *
  have k1 := hx.not_lt_of z (by linarith)
  have k2 := hy.not_lt_of z (by linarith)
  have k3 := hy.lt_of hx (by linarith)
  apply sort_three
  · simp [ltDI, k1]
  · simp [ltDI, k2]
  · simp [ltDI, k3]

/-- Black twice and the greys 9, 4 and 3. -/
def farImage : List Int := [dark 0 0 0, dark 0 0 0, dark 9 9 9, dark 4 4 4, dark 3 3 3]

/-- The state in which the loop settles, whose first centre is at grey `t`. -/
structure FarState (s : KState 𝔻) (t : ℝ) : Prop where
  indices : s.clusterIndices = [0, 1, 2, 0]
  first : At (s.clusters.getD 0 ⟨0.0, 0.0, 0.0⟩) (darkLab t t t)
  second : At (s.clusters.getD 1 ⟨0.0, 0.0, 0.0⟩) (darkLab 9 9 9)
  third : At (s.clusters.getD 2 ⟨0.0, 0.0, 0.0⟩) (darkLab 4 4 4)
  rows : s.distMatrix.length = 3
  row : ∃ b c, s.distMatrix.getD 0 [] = [⟨0.0, 0⟩, b, c]

theorem FarState.measured {s : KState 𝔻} {t : ℝ} (h : FarState s t) (ht : t = 0 ∨ t = 1) :
    (measured 3 s).distMatrix.length = 3 ∧
    (measured 3 s).distMatrix.getD 0 [] = [⟨0.0, 0⟩,
      ⟨pointDistance (s.clusters.getD 0 ⟨0.0, 0.0, 0.0⟩) (s.clusters.getD 2 ⟨0.0, 0.0, 0.0⟩), 2⟩,
      ⟨pointDistance (s.clusters.getD 0 ⟨0.0, 0.0, 0.0⟩) (s.clusters.getD 1 ⟨0.0, 0.0, 0.0⟩), 1⟩] := by
  obtain ⟨b, c, h0⟩ := h.row
  have d1 := dist64 h.first h.second 4 (by norm_num) le_rfl (by rcases ht with rfl | rfl <;> norm_num [darkLab, abs_le])
    (by rcases ht with rfl | rfl <;> norm_num [darkLab, abs_le]) (by rcases ht with rfl | rfl <;> norm_num [darkLab, abs_le])
  have d2 := dist64 h.first h.third 4 (by norm_num) le_rfl (by rcases ht with rfl | rfl <;> norm_num [darkLab, abs_le])
    (by rcases ht with rfl | rfl <;> norm_num [darkLab, abs_le]) (by rcases ht with rfl | rfl <;> norm_num [darkLab, abs_le])
  exact row0_sorted s.clusters s.distMatrix b c h.rows h0 d1 d2 (by rcases ht with rfl | rfl <;> norm_num [darkLab, sqDist])
    (by rcases ht with rfl | rfl <;> norm_num [darkLab, sqDist])

theorem FarState.stay (hL : L.PowOk) {s : KState 𝔻} {t : ℝ} (h : FarState s t) (ht : t = 0 ∨ t = 1) :
    (assign (QuantizerWsmeans.measured 3 s) 3 (((countPixels farImage).map Prod.fst).map pointFromInt)).all Option.isNone = true := by
  have hρ : ρ = 1 / 10 ^ 12 := rfl
  have hkeys : (countPixels farImage).map Prod.fst = [dark 0 0 0, dark 9 9 9, dark 4 4 4, dark 3 3 3] := by decide
  have q0 : At (pointFromInt (dark 0 0 0) : Vec3 𝔻) (darkLab 0 0 0) := by
    have := at_dark hL 0 0 0 (by norm_num) (by norm_num) (by norm_num) (by norm_num) (by norm_num) (by norm_num)
    norm_num at this; exact this
  have q1 : At (pointFromInt (dark 9 9 9) : Vec3 𝔻) (darkLab 9 9 9) := by
    have := at_dark hL 9 9 9 (by norm_num) (by norm_num) (by norm_num) (by norm_num) (by norm_num) (by norm_num)
    norm_num at this; exact this
  have q2 : At (pointFromInt (dark 4 4 4) : Vec3 𝔻) (darkLab 4 4 4) := by
    have := at_dark hL 4 4 4 (by norm_num) (by norm_num) (by norm_num) (by norm_num) (by norm_num) (by norm_num)
    norm_num at this; exact this
  have q3 : At (pointFromInt (dark 3 3 3) : Vec3 𝔻) (darkLab 3 3 3) := by
    have := at_dark hL 3 3 3 (by norm_num) (by norm_num) (by norm_num) (by norm_num) (by norm_num) (by norm_num)
    norm_num at this; exact this
  have w : ∀ {a b : ℝ}, 0 ≤ a → a ≤ 9 → 0 ≤ b → b ≤ 9 → Within (darkLab a a a) (darkLab b b b) 4 := by
    intro a b a0 a1 b0 b1
    refine ⟨?_, ?_, ?_⟩ <;> rw [abs_le] <;> norm_num [darkLab] <;> constructor <;> linarith
  have t0 : 0 ≤ t := by rcases ht with rfl | rfl <;> norm_num
  have t1 : t ≤ 9 := by rcases ht with rfl | rfl <;> norm_num
  obtain ⟨-, hrow⟩ := h.measured ht
  have f := h.first
  have g := h.second
  have e := h.third
  have b0 : ∀ row, bestCluster s.clusters row 3 (pointFromInt (dark 0 0 0)) 0 = none := fun row => by
    refine bestCluster_none _ _ _ _ _ fun j hj => Or.inr ?_
    have w1 := w (a := 0) (b := t) le_rfl (by norm_num) t0 t1
    rcases (by omega : j = 0 ∨ j = 1 ∨ j = 2) with rfl | rfl | rfl
    · exact lt_irrefl64 q0 f 4 (by norm_num) le_rfl w1.1 w1.2.1 w1.2.2
    · exact not_nearer q0 f g 4 (by norm_num) le_rfl w1 (w le_rfl (by norm_num) (by norm_num) (by norm_num))
        (by rcases ht with rfl | rfl <;> norm_num [darkLab, sqDist])
    · exact not_nearer q0 f e 4 (by norm_num) le_rfl w1 (w le_rfl (by norm_num) (by norm_num) (by norm_num))
        (by rcases ht with rfl | rfl <;> norm_num [darkLab, sqDist])
  have b1 : ∀ row, bestCluster s.clusters row 3 (pointFromInt (dark 9 9 9)) 1 = none := fun row => by
    refine bestCluster_none _ _ _ _ _ fun j hj => Or.inr ?_
    have w1 := w (a := 9) (b := 9) (by norm_num) le_rfl (by norm_num) le_rfl
    rcases (by omega : j = 0 ∨ j = 1 ∨ j = 2) with rfl | rfl | rfl
    · exact not_nearer q1 g f 4 (by norm_num) le_rfl w1 (w (by norm_num) le_rfl t0 t1)
        (by rcases ht with rfl | rfl <;> norm_num [darkLab, sqDist])
    · exact lt_irrefl64 q1 g 4 (by norm_num) le_rfl w1.1 w1.2.1 w1.2.2
    · exact not_nearer q1 g e 4 (by norm_num) le_rfl w1 (w (by norm_num) le_rfl (by norm_num) (by norm_num))
        (by norm_num [darkLab, sqDist])
  have b2 : ∀ row, bestCluster s.clusters row 3 (pointFromInt (dark 4 4 4)) 2 = none := fun row => by
    refine bestCluster_none _ _ _ _ _ fun j hj => Or.inr ?_
    have w1 := w (a := 4) (b := 4) (by norm_num) (by norm_num) (by norm_num) (by norm_num)
    rcases (by omega : j = 0 ∨ j = 1 ∨ j = 2) with rfl | rfl | rfl
    · exact not_nearer q2 e f 4 (by norm_num) le_rfl w1 (w (by norm_num) (by norm_num) t0 t1)
        (by rcases ht with rfl | rfl <;> norm_num [darkLab, sqDist])
    · exact not_nearer q2 e g 4 (by norm_num) le_rfl w1 (w (by norm_num) (by norm_num) (by norm_num) (by norm_num))
        (by norm_num [darkLab, sqDist])
    · exact lt_irrefl64 q2 e 4 (by norm_num) le_rfl w1.1 w1.2.1 w1.2.2
  have b3 : bestCluster s.clusters ((QuantizerWsmeans.measured 3 s).distMatrix.getD 0 []) 3 (pointFromInt (dark 3 3 3)) 0 = none := by
    refine bestCluster_none _ _ _ _ _ fun j hj => ?_
    have w1 := w (a := 3) (b := t) (by norm_num) (by norm_num) t0 t1
    rcases (by omega : j = 0 ∨ j = 1 ∨ j = 2) with rfl | rfl | rfl
    · exact Or.inr (lt_irrefl64 q3 f 4 (by norm_num) le_rfl w1.1 w1.2.1 w1.2.2)
    · exact Or.inr (not_nearer q3 f g 4 (by norm_num) le_rfl w1 (w (by norm_num) (by norm_num) (by norm_num) (by norm_num))
        (by rcases ht with rfl | rfl <;> norm_num [darkLab, sqDist]))
    · left
      rw [hrow]
      show 4.0 * _ ≤ pointDistance (s.clusters.getD 0 ⟨0.0, 0.0, 0.0⟩) (s.clusters.getD 1 ⟨0.0, 0.0, 0.0⟩)
      have w2 := w (a := t) (b := 9) t0 t1 (by norm_num) le_rfl
      have d1 := dist64 f g 4 (by norm_num) le_rfl w2.1 w2.2.1 w2.2.2
      have d3 := dist64 q3 f 4 (by norm_num) le_rfl w1.1 w1.2.1 w1.2.2
      have l4 : Is (4.0 : 𝔻) 4 := by simpa using lit (L := L) 40 1 true 4 (by norm_num) (by norm_num)
      have hs : |sqDist (darkLab 3 3 3) (darkLab t t t)| ≤ 1 := by
        rcases ht with rfl | rfl <;> norm_num [darkLab, sqDist, abs_le]
      have m := (l4.ap.mul d3 (A := 4) (B := 1) (by norm_num) hs (by norm_num)).weaken (ε := 3 / 100) (by rw [hρ]; norm_num)
      exact m.le_of d1 (by rcases ht with rfl | rfl <;> norm_num [darkLab, sqDist])
  unfold assign
  show ((List.zip _ s.clusterIndices).map fun (p, prev) =>
    bestCluster s.clusters ((QuantizerWsmeans.measured 3 s).distMatrix.getD prev []) 3 p prev).all Option.isNone = true
  rw [h.indices, hkeys]
  simp only [List.map_cons, List.map_nil, List.zip_cons_cons, List.zip_nil_left, b0, b1, b2, b3]
  rfl

theorem meanLab_one (c : Int) : meanLab [c] = labFromArgb c := by
  unfold meanLab
  simp

/-- The state once the loop has run for a round or more. -/
theorem far_state (hL : L.PowOk) (n : Nat) :
    3 ≤ (stateAfter 𝔻 farImage 3 [dark 0 0 0, dark 9 9 9, dark 4 4 4] [] (n + 1)).clusters.length ∧
    At ((stateAfter 𝔻 farImage 3 [dark 0 0 0, dark 9 9 9, dark 4 4 4] [] (n + 1)).clusters.getD 0 ⟨0.0, 0.0, 0.0⟩) (darkLab 1 1 1) ∧
    At ((stateAfter 𝔻 farImage 3 [dark 0 0 0, dark 9 9 9, dark 4 4 4] [] (n + 1)).clusters.getD 1 ⟨0.0, 0.0, 0.0⟩) (darkLab 9 9 9) ∧
    At ((stateAfter 𝔻 farImage 3 [dark 0 0 0, dark 9 9 9, dark 4 4 4] [] (n + 1)).clusters.getD 2 ⟨0.0, 0.0, 0.0⟩) (darkLab 4 4 4) ∧
    (stateAfter 𝔻 farImage 3 [dark 0 0 0, dark 9 9 9, dark 4 4 4] [] (n + 1)).clusterIndices = [0, 1, 2, 0] ∧
    (stateAfter 𝔻 farImage 3 [dark 0 0 0, dark 9 9 9, dark 4 4 4] [] (n + 1)).pixelCountSums = [3, 1, 1] := by
  have hk : (min (3:Int) ((countPixels farImage).length : Int)).toNat = 3 := by decide
  have hidx : (List.range (countPixels farImage).length).map (· % 3) = [0, 1, 2, 0] := by decide
  have hcounts : (countPixels farImage).map Prod.snd = [2, 1, 1, 1] := by decide
  have hst : startCentres 𝔻 farImage 3 [dark 0 0 0, dark 9 9 9, dark 4 4 4] [] =
    [pointFromInt (dark 0 0 0), pointFromInt (dark 9 9 9), pointFromInt (dark 4 4 4)] := rfl
  unfold stateAfter
  simp only
  rw [hk, hst, hidx, kLoop_succ]
  simp only [Bool.not_true, Bool.and_false, Bool.false_eq_true, if_false]
  generalize hs : (⟨[pointFromInt (dark 0 0 0), pointFromInt (dark 9 9 9), pointFromInt (dark 4 4 4)], [0, 1, 2, 0],
    List.replicate 3 ((List.range 3).map fun (j : Nat) => ⟨0.0, j⟩), List.replicate 3 0⟩ : KState 𝔻) = s
  have q0 := at_dark hL 0 0 0 (by norm_num) (by norm_num) (by norm_num) (by norm_num) (by norm_num) (by norm_num)
  have q1 := at_dark hL 9 9 9 (by norm_num) (by norm_num) (by norm_num) (by norm_num) (by norm_num) (by norm_num)
  have q2 := at_dark hL 4 4 4 (by norm_num) (by norm_num) (by norm_num) (by norm_num) (by norm_num) (by norm_num)
  norm_num at q0 q1 q2
  have fs : FarState s 0 := by
    rw [← hs]
    exact ⟨rfl, q0, q1, q2, rfl, _, _, rfl⟩
  have hlen : (countPixels farImage).length = 4 := by decide
  have hi := fs.indices
  have inv : KInv 3 (countPixels farImage).length s := ⟨by rw [hi, hlen]; rfl, by rw [hi]; simp, by rw [← hs]; rfl⟩
  have stay := fs.stay hL (Or.inl rfl)
  have hn : ∀ j < 3, _ := fun j hj => next_centre farImage 3 s inv stay j hj
  have inv' : KInv 3 (((countPixels farImage).map Prod.fst).map (pointFromInt (F := 𝔻))).length s := by simpa using inv
  have inv2 := nextState_inv (counts := (countPixels farImage).map Prod.snd) (by simp) (countPixels_pos farImage) inv'
  have hmoved := moved_none inv' stay
  have hi2 : (nextState 3 (((countPixels farImage).map Prod.fst).map pointFromInt) ((countPixels farImage).map Prod.snd) s).clusterIndices =
      [0, 1, 2, 0] := hmoved.trans hi
  have hp2 : (nextState 3 (((countPixels farImage).map Prod.fst).map pointFromInt) ((countPixels farImage).map Prod.snd) s).pixelCountSums =
      [3, 1, 1] := by
    show countSums 3 _ (movedIndices 3 _ s) = _
    rw [hmoved, hi, hcounts]
    rfl
  have m0 := at_mean hL farImage (by decide)
    (fun q => decide (([0, 1, 2, 0] : List Nat).getD (((countPixels farImage).map Prod.fst).idxOf q) 0 = 0)) (by decide)
  have m1 := at_mean hL farImage (by decide)
    (fun q => decide (([0, 1, 2, 0] : List Nat).getD (((countPixels farImage).map Prod.fst).idxOf q) 0 = 1)) (by decide)
  have m2 := at_mean hL farImage (by decide)
    (fun q => decide (([0, 1, 2, 0] : List Nat).getD (((countPixels farImage).map Prod.fst).idxOf q) 0 = 2)) (by decide)
  have f0 : farImage.filter (fun q => decide (([0, 1, 2, 0] : List Nat).getD (((countPixels farImage).map Prod.fst).idxOf q) 0 = 0)) =
      [dark 0 0 0, dark 0 0 0, dark 3 3 3] := by decide
  have f1 : farImage.filter (fun q => decide (([0, 1, 2, 0] : List Nat).getD (((countPixels farImage).map Prod.fst).idxOf q) 0 = 1)) =
      [dark 9 9 9] := by decide
  have f2 : farImage.filter (fun q => decide (([0, 1, 2, 0] : List Nat).getD (((countPixels farImage).map Prod.fst).idxOf q) 0 = 2)) =
      [dark 4 4 4] := by decide
  have n0 := hn 0 (by norm_num)
  have n1 := hn 1 (by norm_num)
  have n2 := hn 2 (by norm_num)
  rw [hi] at n0 n1 n2
  have k0 : meanLab [dark 0 0 0, dark 0 0 0, dark 3 3 3] = darkLab 1 1 1 := by
    unfold meanLab
    simp only [List.map_cons, List.map_nil, List.sum_cons, List.sum_nil, List.length_cons, List.length_nil]
    rw [lab_dark 0 0 0 (by norm_num) (by norm_num) (by norm_num) (by norm_num) (by norm_num) (by norm_num),
      lab_dark 3 3 3 (by norm_num) (by norm_num) (by norm_num) (by norm_num) (by norm_num) (by norm_num)]
    norm_num [darkLab]
  have k1 : meanLab [dark 9 9 9] = darkLab 9 9 9 := by
    rw [meanLab_one, lab_dark 9 9 9 (by norm_num) (by norm_num) (by norm_num) (by norm_num) (by norm_num) (by norm_num)]
    norm_num
  have k2 : meanLab [dark 4 4 4] = darkLab 4 4 4 := by
    rw [meanLab_one, lab_dark 4 4 4 (by norm_num) (by norm_num) (by norm_num) (by norm_num) (by norm_num) (by norm_num)]
    norm_num
  rw [f0, k0] at m0
  rw [f1, k1] at m1
  rw [f2, k2] at m2
  rw [f0] at n0
  rw [f1] at n1
  rw [f2] at n2
  rw [← n0] at m0
  rw [← n1] at m1
  rw [← n2] at m2
  obtain ⟨r1, r2⟩ := fs.measured (Or.inl rfl)
  have fs2 : FarState (nextState 3 (((countPixels farImage).map Prod.fst).map pointFromInt) ((countPixels farImage).map Prod.snd) s) 1 :=
    ⟨hi2, m0, m1, m2, r1, _, _, r2⟩
  obtain ⟨s1, s2, s3⟩ := kLoop_settled 3 (((countPixels farImage).map Prod.fst).map pointFromInt) ((countPixels farImage).map Prod.snd) n _ inv2
    (fs2.stay hL (Or.inr rfl))
  rw [s1, s2, s3]
  exact ⟨inv2.clustersLength, m0, m1, m2, hi2, hp2⟩

theorem take_three {α : Type} (l : List α) (o : α) (h : 3 ≤ l.length) : l.take 3 = [l.getD 0 o, l.getD 1 o, l.getD 2 o] := by
  match l, h with
  | a :: b :: c :: _, _ => rfl

/-- What comes out: grey 3 is mapped to grey 1 although grey 4 is returned, too. -/
theorem far_result (hL : L.PowOk) (n : Nat) :
    quantize 𝔻 farImage 3 [dark 0 0 0, dark 9 9 9, dark 4 4 4] (some (n + 1 : Nat)) (some true) [] =
    some ⟨[(dark 1 1 1, 3), (dark 9 9 9, 1), (dark 4 4 4, 1)],
      [(dark 0 0 0, dark 1 1 1), (dark 9 9 9, dark 9 9 9), (dark 4 4 4, dark 4 4 4), (dark 3 3 3, dark 1 1 1)]⟩ := by
  rw [quantize_state _ _ (by norm_num)]
  have hn : ((some ((n + 1 : Nat) : Int)).getD 5).toNat = n + 1 := by simp
  rw [hn]
  obtain ⟨hl, h0, h1, h4, h2, h3⟩ := far_state hL n
  have p0 := argb_dark hL h0 1 1 1 (by norm_num) (by norm_num) (by norm_num) (by norm_num) (by norm_num) (by norm_num) (by norm_num) (by norm_num) (by norm_num)
  have p1 := argb_dark hL h1 9 9 9 (by norm_num) (by norm_num) (by norm_num) (by norm_num) (by norm_num) (by norm_num) (by norm_num) (by norm_num) (by norm_num)
  have p2 := argb_dark hL h4 4 4 4 (by norm_num) (by norm_num) (by norm_num) (by norm_num) (by norm_num) (by norm_num) (by norm_num) (by norm_num) (by norm_num)
  have hk : (min (3:Int) ((countPixels farImage).length : Int)).toNat = 3 := by decide
  have hkeys : (countPixels farImage).map Prod.fst = [dark 0 0 0, dark 9 9 9, dark 4 4 4, dark 3 3 3] := by decide
  rw [hk, hkeys, take_three _ ⟨0.0, 0.0, 0.0⟩ hl, h2, h3]
  generalize (stateAfter 𝔻 farImage 3 [dark 0 0 0, dark 9 9 9, dark 4 4 4] [] (n + 1)).clusters = cl at *
  congr 2
  · show (([cl.getD 0 ⟨0.0, 0.0, 0.0⟩, cl.getD 1 ⟨0.0, 0.0, 0.0⟩, cl.getD 2 ⟨0.0, 0.0, 0.0⟩] : List (Vec3 𝔻)).zip [3, 1, 1]).foldl collectStep [] = _
    simp only [List.zip_cons_cons, List.zip_nil_left, List.foldl_cons, List.foldl_nil, collectStep, p0, p1, p2]
    rfl
  · simp only [Option.getD_some, if_true, List.zip_cons_cons, List.zip_nil_left, List.map_cons, List.map_nil, p0, p1, p2]

end Mcu.Lemmas
