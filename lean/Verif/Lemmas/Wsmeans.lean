import Verif.Model.QuantizerWsmeans
import Verif.Props.QuantizerMap
import Verif.Props.Opaque

/-! Lemmas for the weighted k-means quantizer, for any arithmetic. -/

namespace Mcu.QuantizerWsmeans

open ColorUtils Mcu.Spec Mcu.Props

variable {F : Type} [Fl F]

/-! ### Counting the input -/

theorem count_fold_lookup (pixels : List Int) (m : List (Int × Int)) (q : Int) :
    (pixels.foldl (fun m p => QuantizerMap.insert m p ((m.lookup p).getD 0 + 1)) m).lookup q =
      if q ∈ pixels then some ((m.lookup q).getD 0 + pixels.count q) else m.lookup q := by
  induction pixels generalizing m with
  | nil => simp
  | cons p rest ih =>
    rw [List.foldl_cons, ih, lookup_insert]
    by_cases hq : q = p
    · subst hq
      by_cases hr : q ∈ rest
      · simp [hr]; omega
      · simp [hr, List.count_eq_zero_of_not_mem hr]
    · have hne : ¬ p = q := fun h => hq h.symm
      simp [hq, hne]

theorem insert_nodup (m : List (Int × Int)) (k v : Int) (h : (m.map Prod.fst).Nodup) :
    ((QuantizerMap.insert m k v).map Prod.fst).Nodup := by
  rw [insert_keys]
  split_ifs with hk
  · exact h
  · refine List.nodup_append.2 ⟨h, by simp, ?_⟩
    intro a ha b hb
    rw [List.mem_singleton] at hb
    subst hb
    intro he
    exact hk (he ▸ ha)

theorem countPixels_nodup (pixels : List Int) : ((countPixels pixels).map Prod.fst).Nodup := by
  have : ∀ (l : List Int) (m : List (Int × Int)), (m.map Prod.fst).Nodup →
      ((l.foldl (fun m p => QuantizerMap.insert m p ((m.lookup p).getD 0 + 1)) m).map Prod.fst).Nodup := by
    intro l
    induction l with
    | nil => exact fun m h => h
    | cons p rest ih => exact fun m h => ih _ (insert_nodup m p _ h)
  exact this pixels [] List.nodup_nil

theorem countPixels_mem (pixels : List Int) (k v : Int) :
    (k, v) ∈ countPixels pixels ↔ k ∈ pixels ∧ v = pixels.count k := by
  have hl : (countPixels pixels).lookup k = if k ∈ pixels then some (pixels.count k : Int) else none := by
    unfold countPixels; rw [count_fold_lookup]; simp
  constructor
  · intro h
    have := lookup_of_mem (countPixels_nodup pixels) h
    rw [hl] at this
    split_ifs at this with hc
    exact ⟨hc, (Option.some.inj this).symm⟩
  · rintro ⟨h1, rfl⟩
    apply mem_of_lookup
    rw [hl, if_pos h1]

theorem countPixels_sum (pixels : List Int) : ((countPixels pixels).map Prod.snd).sum = pixels.length := by
  have : ∀ (l : List Int) (m : List (Int × Int)), (m.map Prod.fst).Nodup →
      ((l.foldl (fun m p => QuantizerMap.insert m p ((m.lookup p).getD 0 + 1)) m).map Prod.snd).sum =
        (m.map Prod.snd).sum + l.length := by
    intro l
    induction l with
    | nil => intro m _; simp
    | cons p rest ih =>
      intro m h
      rw [List.foldl_cons, ih _ (insert_nodup m p _ h), insert_sum m p _ h, List.length_cons]
      push_cast
      ring
  have h := this pixels [] List.nodup_nil
  simpa [countPixels] using h

theorem countPixels_pos (pixels : List Int) : ∀ c ∈ (countPixels pixels).map Prod.snd, 0 < c := by
  intro c hc
  obtain ⟨⟨k, v⟩, he, rfl⟩ := List.mem_map.1 hc
  obtain ⟨h1, h2⟩ := (countPixels_mem pixels k v).1 he
  have := List.count_pos_iff.2 h1
  simp only
  omega

theorem countPixels_keys (pixels : List Int) (k : Int) : k ∈ (countPixels pixels).map Prod.fst ↔ k ∈ pixels := by
  constructor
  · intro h
    obtain ⟨⟨k', v⟩, he, rfl⟩ := List.mem_map.1 h
    exact ((countPixels_mem pixels k' v).1 he).1
  · intro h
    exact List.mem_map.2 ⟨(k, (pixels.count k : Int)), (countPixels_mem pixels k _).2 ⟨h, rfl⟩, rfl⟩

/-! ### Sums per cluster -/

theorem getD_modify_self {α : Type} (l : List α) (i : Nat) (f : α → α) (d : α) (h : i < l.length) :
    (l.modify i f).getD i d = f (l.getD i d) := by
  simp [List.getD_eq_getElem?_getD, List.getElem?_eq_getElem h]

theorem getD_modify_ne {α : Type} (l : List α) (i j : Nat) (f : α → α) (d : α) (h : i ≠ j) :
    (l.modify i f).getD j d = l.getD j d := by
  simp [List.getD_eq_getElem?_getD, h]

theorem sum_modify (l : List Int) (i : Nat) (c : Int) (h : i < l.length) : (l.modify i (· + c)).sum = l.sum + c := by
  induction l generalizing i with
  | nil => simp at h
  | cons x rest ih =>
    cases i with
    | zero => simp; ring
    | succ i =>
      have := ih i (by simpa using h)
      simp [this]; ring

theorem countSums_fold (pairs : List (Int × Nat)) (sums : List Int) (h : ∀ p ∈ pairs, p.2 < sums.length) :
    (pairs.foldl (fun sums (c, ci) => sums.modify ci (· + c)) sums).length = sums.length ∧
    (pairs.foldl (fun sums (c, ci) => sums.modify ci (· + c)) sums).sum = sums.sum + (pairs.map Prod.fst).sum ∧
    ∀ i, (pairs.foldl (fun sums (c, ci) => sums.modify ci (· + c)) sums).getD i 0 =
      sums.getD i 0 + (pairs.map fun p => if p.2 = i then p.1 else 0).sum := by
  induction pairs generalizing sums with
  | nil => simp
  | cons p rest ih =>
    obtain ⟨c, ci⟩ := p
    have hci : ci < sums.length := h (c, ci) List.mem_cons_self
    have h' : ∀ q ∈ rest, q.2 < (sums.modify ci (· + c)).length := by
      intro q hq; rw [List.length_modify]; exact h q (List.mem_cons_of_mem _ hq)
    obtain ⟨i1, i2, i3⟩ := ih _ h'
    rw [List.foldl_cons]
    refine ⟨?_, ?_, ?_⟩
    · rw [i1, List.length_modify]
    · rw [i2, sum_modify _ _ _ hci, List.map_cons, List.sum_cons]; ring
    · intro i
      rw [i3 i, List.map_cons, List.sum_cons]
      by_cases he : ci = i
      · subst he
        rw [getD_modify_self _ _ _ _ hci, if_pos rfl]; ring
      · rw [getD_modify_ne _ _ _ _ _ he, if_neg he]; ring

theorem countSums_ok (k : Nat) (counts : List Int) (indices : List Nat) (hl : counts.length = indices.length)
    (hk : ∀ i ∈ indices, i < k) (hc : ∀ c ∈ counts, 0 < c) :
    (countSums k counts indices).length = k ∧ (countSums k counts indices).sum = counts.sum ∧
    (∀ c ∈ countSums k counts indices, 0 ≤ c) ∧
    ∀ i ∈ indices, 0 < (countSums k counts indices).getD i 0 := by
  have hz : ∀ p ∈ counts.zip indices, p.2 < (List.replicate k (0:Int)).length := by
    intro p hp
    rw [List.length_replicate]
    exact hk _ (List.of_mem_zip hp).2
  obtain ⟨h1, h2, h3⟩ := countSums_fold (counts.zip indices) (List.replicate k 0) hz
  have hrep : ∀ i, (List.replicate k (0:Int)).getD i 0 = 0 := by
    intro i
    rw [List.getD_eq_getElem?_getD, List.getElem?_replicate]
    split_ifs <;> rfl
  have hnn : ∀ (l : List (Int × Nat)) (i : Nat), (∀ p ∈ l, 0 < p.1) →
      0 ≤ (l.map fun p => if p.2 = i then p.1 else 0).sum ∧
      ((∃ p ∈ l, p.2 = i) → 0 < (l.map fun p => if p.2 = i then p.1 else 0).sum) := by
    intro l i
    induction l with
    | nil => simp
    | cons p rest ih =>
      intro hl
      obtain ⟨j1, j2⟩ := ih fun q hq => hl q (List.mem_cons_of_mem _ hq)
      have hp := hl p List.mem_cons_self
      rw [List.map_cons, List.sum_cons]
      constructor
      · split_ifs <;> omega
      · rintro ⟨q, hq, he⟩
        rcases List.mem_cons.1 hq with rfl | hq
        · rw [if_pos he]; omega
        · have := j2 ⟨q, hq, he⟩
          split_ifs <;> omega
  have hpos : ∀ p ∈ counts.zip indices, 0 < p.1 := fun p hp => hc _ (List.of_mem_zip hp).1
  have hget : ∀ i, 0 ≤ (countSums k counts indices).getD i 0 := by
    intro i
    unfold countSums
    rw [h3 i, hrep]
    have := (hnn _ i hpos).1
    omega
  refine ⟨by unfold countSums; rw [h1, List.length_replicate], ?_, ?_, ?_⟩
  · unfold countSums
    rw [h2, List.map_fst_zip (le_of_eq hl)]
    simp
  · intro c hcm
    obtain ⟨i, hi, rfl⟩ := List.mem_iff_getElem.1 hcm
    have := hget i
    rwa [List.getD_eq_getElem?_getD, List.getElem?_eq_getElem hi] at this
  · intro i hi
    unfold countSums
    rw [h3 i, hrep]
    obtain ⟨n, hn, rfl⟩ := List.mem_iff_getElem.1 hi
    have hmem : (counts[n]'(by omega), indices[n]) ∈ counts.zip indices := by
      rw [List.mem_iff_getElem]
      exact ⟨n, by rw [List.length_zip]; omega, by simp⟩
    have := (hnn _ indices[n] hpos).2 ⟨_, hmem, rfl⟩
    omega

/-! ### The loop -/

theorem bestCluster_lt (clusters : List (Vec3 F)) (row : List (DistanceAndIndex F)) (k : Nat) (point : Vec3 F)
    (prev j : Nat) (h : bestCluster clusters row k point prev = some j) : j < k := by
  unfold bestCluster at h
  have : ∀ (l : List Nat) (best : F × Option Nat), (∀ i ∈ l, i < k) → (∀ i, best.2 = some i → i < k) →
      ∀ i, (l.foldl (fun (best : F × Option Nat) j =>
        if (row.getD j ⟨0.0, 0⟩).distance ≥ 4.0 * pointDistance point (clusters.getD prev ⟨0.0, 0.0, 0.0⟩) then best
        else
          let distance := pointDistance point (clusters.getD j ⟨0.0, 0.0, 0.0⟩)
          if distance < best.1 then (distance, some j) else best) best).2 = some i → i < k := by
    intro l
    induction l with
    | nil => exact fun best _ hb i hi => hb i hi
    | cons x rest ih =>
      intro best hl hb
      rw [List.foldl_cons]
      refine ih _ (fun i hi => hl i (List.mem_cons_of_mem _ hi)) ?_
      intro i hi
      simp only at hi
      split_ifs at hi
      · exact hb i hi
      · simp only [Option.some.injEq] at hi
        rw [← hi]; exact hl x List.mem_cons_self
      · exact hb i hi
  exact this _ _ (fun i hi => List.mem_range.1 hi) (fun i hi => by cases hi) j h

/-- What holds between the rounds of the loop. -/
structure KInv (k : Nat) (pointCount : Nat) (s : KState F) : Prop where
  indicesLength : s.clusterIndices.length = pointCount
  indicesLt : ∀ i ∈ s.clusterIndices, i < k
  clustersLength : k ≤ s.clusters.length

theorem newIndices_ok {k pointCount : Nat} {s : KState F} (h : KInv k pointCount s) (points : List (Vec3 F))
    (hp : points.length = pointCount) :
    (newIndices (assign s k points) s.clusterIndices).length = pointCount ∧
    ∀ i ∈ newIndices (assign s k points) s.clusterIndices, i < k := by
  constructor
  · unfold newIndices assign
    simp [h.indicesLength, hp]
  · intro i hi
    unfold newIndices at hi
    obtain ⟨⟨m, o⟩, hmo, rfl⟩ := List.mem_map.1 hi
    obtain ⟨hm, ho⟩ := List.of_mem_zip hmo
    cases m with
    | none => exact h.indicesLt o ho
    | some j =>
      unfold assign at hm
      obtain ⟨⟨p, prev⟩, -, hb⟩ := List.mem_map.1 hm
      exact bestCluster_lt _ _ _ _ _ _ hb

theorem newIndices_none (moves : List (Option Nat)) (old : List Nat) (h : moves.all Option.isNone = true)
    (hl : moves.length = old.length) : newIndices moves old = old := by
  unfold newIndices
  induction moves generalizing old with
  | nil => cases old with
    | nil => rfl
    | cons _ _ => simp at hl
  | cons m rest ih =>
    cases old with
    | nil => simp at hl
    | cons o old =>
      simp only [List.all_cons, Bool.and_eq_true] at h
      have hm : m = none := by simpa using h.1
      simp only [List.zip_cons_cons, List.map_cons, hm, Option.getD_none]
      rw [ih old h.2 (by simpa using hl)]

/-- The result of the loop: the invariant, and the populations are those of the final assignment unless
no round has been made. -/
theorem kLoop_ok (k : Nat) (points : List (Vec3 F)) (counts : List Int) (hlen : counts.length = points.length)
    (hpos : ∀ c ∈ counts, 0 < c) (n : Nat) : ∀ (first : Bool) (s : KState F), KInv k points.length s →
      (first = false → s.pixelCountSums = countSums k counts s.clusterIndices) →
      KInv k points.length (kLoop k points counts n first s) ∧
      ((n = 0 ∧ kLoop k points counts n first s = s) ∨
        (kLoop k points counts n first s).pixelCountSums =
          countSums k counts (kLoop k points counts n first s).clusterIndices) := by
  induction n with
  | zero => exact fun first s h _ => ⟨h, Or.inl ⟨rfl, rfl⟩⟩
  | succ n ih =>
    intro first s h hs
    simp only [kLoop]
    set s1 : KState F := { s with distMatrix := (List.range k).foldl (matrixRow s.clusters k) s.distMatrix } with hs1
    have h1 : KInv k points.length s1 := ⟨h.indicesLength, h.indicesLt, h.clustersLength⟩
    obtain ⟨n1, n2⟩ := newIndices_ok h1 points rfl
    split_ifs with hc
    · rw [Bool.and_eq_true] at hc
      have hf : first = false := by simpa using hc.2
      have he : newIndices (assign s1 k points) s1.clusterIndices = s1.clusterIndices := by
        refine newIndices_none _ _ hc.1 ?_
        unfold assign
        simp [h1.indicesLength]
      refine ⟨⟨n1, n2, h.clustersLength⟩, Or.inr ?_⟩
      show s.pixelCountSums = countSums k counts (newIndices (assign s1 k points) s1.clusterIndices)
      rw [he]
      exact hs hf
    · have hcs := countSums_ok k counts _ (by rw [hlen, n1]) n2 hpos
      have hcomp : (componentSums k points counts (newIndices (assign s1 k points) s1.clusterIndices)).length = k := by
        unfold componentSums
        have : ∀ (l : List ((Vec3 F × Int) × Nat)) (sums : List (Vec3 F)),
            (l.foldl (fun sums ((p, c), ci) => sums.modify ci fun s =>
              ⟨s.x0 + p.x0 * Fl.ofInt c, s.x1 + p.x1 * Fl.ofInt c, s.x2 + p.x2 * Fl.ofInt c⟩) sums).length = sums.length := by
          intro l
          induction l with
          | nil => intro sums; rfl
          | cons x rest ih2 => intro sums; rw [List.foldl_cons, ih2, List.length_modify]
        rw [this, List.length_replicate]
      have hinv : KInv k points.length
          { s1 with
            clusterIndices := newIndices (assign s1 k points) s1.clusterIndices
            clusters := (List.zipWith centroid (componentSums k points counts (newIndices (assign s1 k points) s1.clusterIndices)) (countSums k counts (newIndices (assign s1 k points) s1.clusterIndices))) ++ s1.clusters.drop k
            pixelCountSums := countSums k counts (newIndices (assign s1 k points) s1.clusterIndices) } := by
        refine ⟨n1, n2, ?_⟩
        show k ≤ (List.zipWith _ _ _ ++ _).length
        rw [List.length_append, List.length_zipWith, hcomp, hcs.1]
        omega
      obtain ⟨i1, i2⟩ := ih false _ hinv (fun _ => rfl)
      refine ⟨i1, Or.inr ?_⟩
      rcases i2 with ⟨h0, he⟩ | he
      · rw [he]
      · exact he

/-! ### Collecting the result -/

/-- One step of `collect`. -/
def collectStep (acc : List (Int × Int)) (p : Vec3 F × Int) : List (Int × Int) :=
  if p.2 = 0 then acc
  else if acc.any (fun q => q.1 == pointToInt p.1) then acc else acc ++ [(pointToInt p.1, p.2)]

theorem collect_eq (clusters : List (Vec3 F)) (sums : List Int) :
    collect clusters sums = (clusters.zip sums).foldl collectStep [] := rfl

/-- What `collect` builds from clusters paired with their populations. -/
theorem collect_ok (pairs : List (Vec3 F × Int)) (acc : List (Int × Int))
    (hpos : ∀ p ∈ pairs, 0 ≤ p.2) (hn : (acc.map Prod.fst).Nodup) (ho : ∀ e ∈ acc, Opaque32 e.1 ∧ 0 < e.2) :
    ((pairs.foldl collectStep acc).map Prod.fst).Nodup ∧
    (∀ e ∈ pairs.foldl collectStep acc, Opaque32 e.1 ∧ 0 < e.2) ∧
    (pairs.foldl collectStep acc).length ≤ acc.length + pairs.length ∧
    ((pairs.foldl collectStep acc).map Prod.snd).sum ≤ (acc.map Prod.snd).sum + (pairs.map Prod.snd).sum ∧
    (∀ e ∈ acc, e.1 ∈ (pairs.foldl collectStep acc).map Prod.fst) ∧
    (∀ p ∈ pairs, p.2 ≠ 0 → pointToInt p.1 ∈ (pairs.foldl collectStep acc).map Prod.fst) ∧
    (∀ e ∈ pairs.foldl collectStep acc, e ∈ acc ∨ ∃ p ∈ pairs, p.2 ≠ 0 ∧ e = (pointToInt p.1, p.2)) := by
  induction pairs generalizing acc with
  | nil =>
    refine ⟨hn, ho, by simp, by simp, fun e he => List.mem_map_of_mem he, by simp, fun e he => Or.inl he⟩
  | cons p rest ih =>
    obtain ⟨c, count⟩ := p
    have hp' : ∀ p ∈ rest, 0 ≤ p.2 := fun q hq => hpos q (List.mem_cons_of_mem _ hq)
    have hc0 : 0 ≤ count := hpos (c, count) List.mem_cons_self
    rw [List.foldl_cons]
    by_cases h0 : count = 0
    · rw [show collectStep acc (c, count) = acc by simp [collectStep, h0]]
      obtain ⟨i1, i2, i3, i4, i5, i6, i7⟩ := ih acc hp' hn ho
      refine ⟨i1, i2, by rw [List.length_cons]; omega, by simpa [h0] using i4, i5, ?_, ?_⟩
      · intro q hq hne
        rcases List.mem_cons.1 hq with rfl | hq
        · exact absurd h0 hne
        · exact i6 q hq hne
      · intro e he
        rcases i7 e he with h | ⟨q, hq, h⟩
        · exact Or.inl h
        · exact Or.inr ⟨q, List.mem_cons_of_mem _ hq, h⟩
    · by_cases hany : acc.any (fun p => p.1 == pointToInt c) = true
      · rw [show collectStep acc (c, count) = acc by simp only [collectStep, hany, if_true, ite_self]]
        obtain ⟨i1, i2, i3, i4, i5, i6, i7⟩ := ih acc hp' hn ho
        refine ⟨i1, i2, by rw [List.length_cons]; omega, ?_, i5, ?_, ?_⟩
        · rw [List.map_cons, List.sum_cons]; simp only; omega
        · intro q hq hne
          rcases List.mem_cons.1 hq with rfl | hq
          · obtain ⟨e, he, hb⟩ := List.any_eq_true.1 hany
            have : e.1 = pointToInt c := by simpa using hb
            rw [← this]; exact i5 e he
          · exact i6 q hq hne
        · intro e he
          rcases i7 e he with h | ⟨q, hq, h⟩
          · exact Or.inl h
          · exact Or.inr ⟨q, List.mem_cons_of_mem _ hq, h⟩
      · rw [show collectStep acc (c, count) = acc ++ [(pointToInt c, count)] by
          rw [collectStep, if_neg h0, if_neg hany]]
        have hnot : pointToInt c ∉ acc.map Prod.fst := by
          intro hm
          obtain ⟨e, he, heq⟩ := List.mem_map.1 hm
          exact hany (List.any_eq_true.2 ⟨e, he, by simpa using heq⟩)
        have hn' : ((acc ++ [(pointToInt c, count)]).map Prod.fst).Nodup := by
          rw [List.map_append]
          refine List.nodup_append.2 ⟨hn, by simp, ?_⟩
          intro a ha b hb
          simp only [List.map_cons, List.map_nil, List.mem_singleton] at hb
          subst hb
          intro he
          exact hnot (he ▸ ha)
        have ho' : ∀ e ∈ acc ++ [(pointToInt c, count)], Opaque32 e.1 ∧ 0 < e.2 := by
          intro e he
          rcases List.mem_append.1 he with he | he
          · exact ho e he
          · rw [List.mem_singleton] at he
            subst he
            exact ⟨opaque_rgb _ _ _, by simp only; omega⟩
        obtain ⟨i1, i2, i3, i4, i5, i6, i7⟩ := ih _ hp' hn' ho'
        refine ⟨i1, i2, ?_, ?_, ?_, ?_, ?_⟩
        · rw [List.length_append] at i3; simp only [List.length_cons, List.length_nil] at i3 ⊢; omega
        · rw [List.map_append, List.sum_append] at i4
          simp only [List.map_cons, List.map_nil, List.sum_cons, List.sum_nil] at i4 ⊢
          omega
        · exact fun e he => i5 e (List.mem_append_left _ he)
        · intro q hq hne
          rcases List.mem_cons.1 hq with rfl | hq
          · exact i5 (pointToInt c, count) (List.mem_append_right _ (List.mem_singleton.2 rfl))
          · exact i6 q hq hne
        · intro e he
          rcases i7 e he with h | ⟨q, hq, h⟩
          · rcases List.mem_append.1 h with h | h
            · exact Or.inl h
            · rw [List.mem_singleton] at h
              exact Or.inr ⟨(c, count), List.mem_cons_self, h0, h⟩
          · exact Or.inr ⟨q, List.mem_cons_of_mem _ hq, h⟩

end Mcu.QuantizerWsmeans
