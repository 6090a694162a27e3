import Verif.Lemmas.F64KMeans
import Verif.Spec.ExactPoint

/-! The cost of the clusters of k-means in binary64. -/

namespace Mcu.Lemmas

open Mcu.Ieee Props Props.Binary64 MathUtils ColorUtils QuantizerWsmeans Spec

/-! ### Over the reals -/

/-- A centre near the mean is nearly optimal. -/
theorem near_mean (T : List ((Vec3 ℝ × Int) × Nat)) (hc : ∀ t ∈ T, 0 < t.1.2) (f : Vec3 ℝ → ℝ) (i : Nat) (m c η : ℝ)
    (hm : inCluster T (fun _ => 1) i ≠ 0 → |c - inCluster T f i / inCluster T (fun _ => 1) i| ≤ η) :
    (T.map fun t => if t.2 = i then (t.1.2 : ℝ) * (f t.1.1 - c) ^ 2 else 0).sum ≤
      (T.map fun t => if t.2 = i then (t.1.2 : ℝ) * (f t.1.1 - m) ^ 2 else 0).sum + η ^ 2 * inCluster T (fun _ => 1) i := by
  by_cases h : inCluster T (fun _ => 1) i = 0
  · rw [deviations, deviations, h, inCluster_zero T hc i h f]
    linarith
  · have hn := inCluster_one_nonneg T hc i
    have h1 := mean_minimal T hc f i m (inCluster T f i / inCluster T (fun _ => 1) i) (fun _ => rfl)
    refine le_trans ?_ (add_le_add h1 le_rfl)
    rw [deviations, deviations]
    have hs := sq_le_sq' (abs_le.1 (hm h)).1 (abs_le.1 (hm h)).2
    have hS : inCluster T f i = inCluster T f i / inCluster T (fun _ => 1) i * inCluster T (fun _ => 1) i := by field_simp
    generalize inCluster T f i / inCluster T (fun _ => 1) i = μ at *
    rw [hS]
    generalize inCluster T (fun _ => 1) i = w at *
    nlinarith [mul_le_mul_of_nonneg_right hs hn]

/-- Centres near the means are nearly optimal. -/
theorem near_means (k : Nat) (T : List ((Vec3 ℝ × Int) × Nat)) (hTk : ∀ t ∈ T, t.2 < k) (hTc : ∀ t ∈ T, 0 < t.1.2)
    (new old : Nat → Vec3 ℝ) (η : ℝ)
    (h : ∀ j < k, inCluster T (fun _ => 1) j ≠ 0 →
      |(new j).x0 - inCluster T Vec3.x0 j / inCluster T (fun _ => 1) j| ≤ η ∧
      |(new j).x1 - inCluster T Vec3.x1 j / inCluster T (fun _ => 1) j| ≤ η ∧
      |(new j).x2 - inCluster T Vec3.x2 j / inCluster T (fun _ => 1) j| ≤ η) :
    (T.map fun t => (t.1.2 : ℝ) * sqDist t.1.1 (new t.2)).sum ≤
      (T.map fun t => (t.1.2 : ℝ) * sqDist t.1.1 (old t.2)).sum + 3 * η ^ 2 * (T.map fun t => (t.1.2 : ℝ)).sum := by
  have hone : (T.map fun t => (t.1.2 : ℝ)).sum = ∑ j ∈ Finset.range k, inCluster T (fun _ => 1) j := by
    have := sum_by_cluster T k hTk fun pc _ => (pc.2 : ℝ)
    rw [this]
    refine Finset.sum_congr rfl fun j _ => ?_
    unfold inCluster
    simp
  rw [sum_by_cluster T k hTk fun pc j => (pc.2 : ℝ) * sqDist pc.1 (new j),
    sum_by_cluster T k hTk fun pc j => (pc.2 : ℝ) * sqDist pc.1 (old j), hone, Finset.mul_sum, ← Finset.sum_add_distrib]
  refine Finset.sum_le_sum fun j hj => ?_
  rw [Finset.mem_range] at hj
  have split3 : ∀ v : Vec3 ℝ, (T.map fun t => if t.2 = j then (t.1.2 : ℝ) * sqDist t.1.1 v else 0).sum =
      (T.map fun t => if t.2 = j then (t.1.2 : ℝ) * (t.1.1.x0 - v.x0) ^ 2 else 0).sum +
      (T.map fun t => if t.2 = j then (t.1.2 : ℝ) * (t.1.1.x1 - v.x1) ^ 2 else 0).sum +
      (T.map fun t => if t.2 = j then (t.1.2 : ℝ) * (t.1.1.x2 - v.x2) ^ 2 else 0).sum := by
    intro v
    rw [← List.sum_map_add, ← List.sum_map_add]
    congr 1
    refine List.map_congr_left fun t _ => ?_
    unfold sqDist
    split_ifs <;> ring
  rw [split3, split3]
  have hm := h j hj
  have m0 := near_mean T hTc Vec3.x0 j (old j).x0 (new j).x0 η (fun h => (hm h).1)
  have m1 := near_mean T hTc Vec3.x1 j (old j).x1 (new j).x1 η (fun h => (hm h).2.1)
  have m2 := near_mean T hTc Vec3.x2 j (old j).x2 (new j).x2 η (fun h => (hm h).2.2)
  linarith

/-- Counts and components by pixels. -/
theorem inCluster_pixels (pixels : List Int) (idx : List Nat) (hl : idx.length = (countPixels pixels).length) (P : Int → Vec3 ℝ)
    (f : Vec3 ℝ → ℝ) (j : Nat) :
    inCluster (((((countPixels pixels).map Prod.fst).map P).zip ((countPixels pixels).map Prod.snd)).zip idx) f j =
      ((pixels.filter fun p => idx.getD (((countPixels pixels).map Prod.fst).idxOf p) 0 = j).map fun p => f (P p)).sum := by
  rw [triples_eq pixels idx hl]
  unfold inCluster
  rw [List.map_map, ← sum_filter, ← sum_pixels]
  congr 1
  refine List.map_congr_left fun e _ => ?_
  simp only [Function.comp, decide_eq_true_eq]
  split_ifs
  · rfl
  · rw [zero_mul]

variable {L : Libm}

local notation "𝔻" => F64 L

/-- Finite, and not far out. -/
def Bounded (v : Vec3 𝔻) : Prop :=
  (Dbl.Fin v.x0 ∧ |Dbl.val v.x0| ≤ 502) ∧ (Dbl.Fin v.x1 ∧ |Dbl.val v.x1| ≤ 502) ∧ (Dbl.Fin v.x2 ∧ |Dbl.val v.x2| ≤ 502)

theorem point_fin (hL : L.PowOk) (argb : Int) :
    (Dbl.Fin (pointFromInt argb : Vec3 𝔻).x0 ∧ |Dbl.val (pointFromInt argb : Vec3 𝔻).x0| ≤ 501) ∧
    (Dbl.Fin (pointFromInt argb : Vec3 𝔻).x1 ∧ |Dbl.val (pointFromInt argb : Vec3 𝔻).x1| ≤ 501) ∧
    (Dbl.Fin (pointFromInt argb : Vec3 𝔻).x2 ∧ |Dbl.val (pointFromInt argb : Vec3 𝔻).x2| ≤ 501) := by
  obtain ⟨⟨y0, y1⟩, ⟨x0, x1⟩, ⟨z0, z1⟩⟩ := lab_ranges argb
  obtain ⟨v, ⟨iv, ev⟩, hv⟩ := lightness64 hL argb
  obtain ⟨a, ⟨ia, ea⟩, ha⟩ := (lab64 hL argb).1
  obtain ⟨b, ⟨ib, eb⟩, hb⟩ := (lab64 hL argb).2.1
  have hv' := abs_le.1 hv
  have ha' := abs_le.1 ha
  have hb' := abs_le.1 hb
  norm_num at y1 x1 z1 hv' ha' hb'
  refine ⟨⟨iv, ?_⟩, ⟨ia, ?_⟩, ⟨ib, ?_⟩⟩
  · show |Dbl.val (labFromArgb argb : Vec3 𝔻).x0| ≤ 501
    rw [ev, abs_le]; constructor <;> linarith
  · show |Dbl.val (labFromArgb argb : Vec3 𝔻).x1| ≤ 501
    rw [ea, abs_le]; constructor <;> linarith
  · show |Dbl.val (labFromArgb argb : Vec3 𝔻).x2| ≤ 501
    rw [eb, abs_le]; constructor <;> linarith

theorem point_bounded (hL : L.PowOk) (argb : Int) : Bounded (pointFromInt argb : Vec3 𝔻) := by
  obtain ⟨⟨a, b⟩, ⟨c, d⟩, ⟨e, f⟩⟩ := point_fin (L := L) hL argb
  exact ⟨⟨a, b.trans (by norm_num)⟩, ⟨c, d.trans (by norm_num)⟩, ⟨e, f.trans (by norm_num)⟩⟩

/-- Distances are computed well. -/
theorem distance_near {p c : Vec3 𝔻} (hp : Bounded p) (hc : Bounded c) :
    Ap (pointDistance p c) (sqDist (exactPoint p) (exactPoint c)) (6 / 10 ^ 9) := by
  have one : ∀ {u v : 𝔻}, Dbl.Fin u ∧ |Dbl.val u| ≤ 502 → Dbl.Fin v ∧ |Dbl.val v| ≤ 502 →
      Ap ((u - v) * (u - v)) ((Dbl.val u - Dbl.val v) * (Dbl.val u - Dbl.val v)) (1 / 10 ^ 9) ∧
        |(Dbl.val u - Dbl.val v) * (Dbl.val u - Dbl.val v)| ≤ 2000000 := by
    intro u v hu hv
    have h : |Dbl.val u - Dbl.val v| ≤ 1004 := (abs_sub _ _).trans (by linarith [hu.2, hv.2])
    have iu : Ap u (Dbl.val u) 0 := Is.ap ⟨hu.1, rfl⟩
    have iv : Ap v (Dbl.val v) 0 := Is.ap ⟨hv.1, rfl⟩
    have d := iu.subS iv 1004 (21 / 10 ^ 14) (by linarith) (by norm_num) (by norm_num)
    refine ⟨d.mulS d 1004 1004 2000000 _ h h (by norm_num) (by norm_num) (by norm_num), ?_⟩
    rw [abs_mul]
    calc |Dbl.val u - Dbl.val v| * |Dbl.val u - Dbl.val v| ≤ 1004 * 1004 := mul_le_mul h h (abs_nonneg _) (by norm_num)
      _ ≤ 2000000 := by norm_num
  obtain ⟨s0, b0⟩ := one hp.1 hc.1
  obtain ⟨s1, b1⟩ := one hp.2.1 hc.2.1
  obtain ⟨s2, b2⟩ := one hp.2.2 hc.2.2
  have e : sqDist (exactPoint p) (exactPoint c) = (Dbl.val p.x0 - Dbl.val c.x0) * (Dbl.val p.x0 - Dbl.val c.x0) +
      (Dbl.val p.x1 - Dbl.val c.x1) * (Dbl.val p.x1 - Dbl.val c.x1) + (Dbl.val p.x2 - Dbl.val c.x2) * (Dbl.val p.x2 - Dbl.val c.x2) := by
    unfold sqDist exactPoint; ring
  rw [e]
  simp only [pointDistance]
  have t := s0.addS s1 4000001 (3 / 10 ^ 9) (by
    refine (add_le_add (add_le_add ((abs_add_le _ _).trans (add_le_add b0 b1)) le_rfl) le_rfl).trans (by norm_num)) (by norm_num)
    (by norm_num)
  have t2 := t.addS s2 6000001 (55 / 10 ^ 10) (by
    refine (add_le_add (add_le_add ((abs_add_three _ _ _).trans (add_le_add (add_le_add b0 b1) b2)) le_rfl) le_rfl).trans (by norm_num)) (by norm_num)
    (by norm_num)
  exact t2.weaken (by norm_num)

/-- A move hardly goes to a farther centre. -/
theorem bestCluster_near (clusters : List (Vec3 𝔻)) (row : List (DistanceAndIndex 𝔻)) (k : Nat) (p : Vec3 𝔻) (prev : Nat)
    (hp : Bounded p) (hc : ∀ j < k, Bounded (clusters.getD j ⟨0.0, 0.0, 0.0⟩)) (hprev : prev < k) :
    sqDist (exactPoint p) (exactPoint (clusters.getD ((bestCluster clusters row k p prev).getD prev) ⟨0.0, 0.0, 0.0⟩)) ≤
      sqDist (exactPoint p) (exactPoint (clusters.getD prev ⟨0.0, 0.0, 0.0⟩)) + 12 / 10 ^ 9 := by
  obtain ⟨w, iw, hw⟩ := distance_near hp (hc prev hprev)
  have hw' := abs_le.1 hw
  have key : ∀ (l : List Nat), (∀ j ∈ l, j < k) → ∀ (best : 𝔻 × Option Nat), (∃ v, Is best.1 v ∧ v ≤ w) →
      (∀ i, best.2 = some i → i < k ∧ best.1 = pointDistance p (clusters.getD i ⟨0.0, 0.0, 0.0⟩)) →
      ∀ i, (l.foldl (fun (best : 𝔻 × Option Nat) j =>
        if (row.getD j ⟨0.0, 0⟩).distance ≥ 4.0 * pointDistance p (clusters.getD prev ⟨0.0, 0.0, 0.0⟩) then best
        else
          let distance := pointDistance p (clusters.getD j ⟨0.0, 0.0, 0.0⟩)
          if distance < best.1 then (distance, some j) else best) best).2 = some i →
        i < k ∧ ∃ v, Is (pointDistance p (clusters.getD i ⟨0.0, 0.0, 0.0⟩)) v ∧ v ≤ w := by
    intro l
    induction l with
    | nil => intro _ best h1 h2 i hi; obtain ⟨a, b⟩ := h2 i hi; rw [← b]; exact ⟨a, h1⟩
    | cons x rest ih =>
      intro hl best h1 h2
      rw [List.foldl_cons]
      simp only
      have hr : ∀ j ∈ rest, j < k := fun j hj => hl j (by simp [hj])
      split_ifs with hs hd
      · exact ih hr best h1 h2
      · have hx : x < k := hl x (by simp)
        refine ih hr (_, some x) ?_ ?_
        · obtain ⟨v, iv, hv⟩ := h1
          obtain ⟨u, iu, -⟩ := distance_near hp (hc x hx)
          rw [iu.lt_iff iv] at hd
          exact ⟨u, iu, hd.le.trans hv⟩
        · intro i hi
          obtain rfl := Option.some.inj hi
          exact ⟨hx, rfl⟩
      · exact ih hr best h1 h2
  cases h : bestCluster clusters row k p prev with
  | none => show sqDist _ (exactPoint (clusters.getD prev _)) ≤ _; norm_num
  | some j =>
    obtain ⟨hj, v, iv, hv⟩ := key (List.range k) (by simp) (pointDistance p (clusters.getD prev ⟨0.0, 0.0, 0.0⟩), none)
      ⟨w, iw, le_rfl⟩ (fun i hi => by cases hi) j h
    obtain ⟨u, iu, hu⟩ := distance_near hp (hc j hj)
    have huv : u = v := iu.2.symm.trans iv.2
    rw [huv] at hu
    have hu' := abs_le.1 hu
    show sqDist _ (exactPoint (clusters.getD j _)) ≤ _
    linarith

/-- The exact cost of a state. -/
noncomputable def cost64 (pixels : List Int) (s : KState 𝔻) : ℝ :=
  ((((((countPixels pixels).map Prod.fst).map fun q => exactPoint (pointFromInt q : Vec3 𝔻)).zip ((countPixels pixels).map Prod.snd)).zip
    s.clusterIndices).map fun t => (t.1.2 : ℝ) * sqDist t.1.1 (exactPoint (s.clusters.getD t.2 ⟨0.0, 0.0, 0.0⟩))).sum

/-- What the loop keeps. -/
structure Good64 (pixels : List Int) (k : Nat) (s : KState 𝔻) : Prop where
  inv : KInv k (countPixels pixels).length s
  bounded : ∀ j < k, Bounded (s.clusters.getD j ⟨0.0, 0.0, 0.0⟩)

/-- Moving points hardly costs more. -/
theorem moves_near (hL : L.PowOk) (clusters : List (Vec3 𝔻)) (m : List (List (DistanceAndIndex 𝔻))) (k : Nat)
    (hc : ∀ j < k, Bounded (clusters.getD j ⟨0.0, 0.0, 0.0⟩)) (keys : List Int) (counts : List Int) (hpos : ∀ c ∈ counts, 0 < c)
    (old : List Nat) (ho : ∀ i ∈ old, i < k) :
    ((((keys.map fun q => exactPoint (pointFromInt q : Vec3 𝔻)).zip counts).zip (newIndices ((((keys.map pointFromInt).zip old).map
      fun (p, prev) => bestCluster clusters (m.getD prev []) k p prev)) old)).map fun t =>
        (t.1.2 : ℝ) * sqDist t.1.1 (exactPoint (clusters.getD t.2 ⟨0.0, 0.0, 0.0⟩))).sum ≤
    ((((keys.map fun q => exactPoint (pointFromInt q : Vec3 𝔻)).zip counts).zip old).map fun t =>
        (t.1.2 : ℝ) * sqDist t.1.1 (exactPoint (clusters.getD t.2 ⟨0.0, 0.0, 0.0⟩))).sum +
      12 / 10 ^ 9 * (counts.map fun c : Int => (c : ℝ)).sum := by
  unfold newIndices
  induction keys generalizing counts old with
  | nil =>
    have : 0 ≤ (counts.map fun c : Int => (c : ℝ)).sum := List.sum_nonneg fun x hx => by
      obtain ⟨c, hcm, rfl⟩ := List.mem_map.1 hx
      exact_mod_cast (hpos c hcm).le
    simp only [List.map_nil, List.zip_nil_left, List.sum_nil, zero_add]
    positivity
  | cons q keys ih =>
    cases counts with
    | nil => simp
    | cons c counts =>
      have h0 : 0 ≤ (counts.map fun c : Int => (c : ℝ)).sum := List.sum_nonneg fun x hx => by
        obtain ⟨c, hcm, rfl⟩ := List.mem_map.1 hx
        exact_mod_cast (hpos c (List.mem_cons_of_mem _ hcm)).le
      have hcn : (0:ℝ) ≤ c := by exact_mod_cast (hpos c List.mem_cons_self).le
      cases old with
      | nil =>
        simp only [List.map_cons, List.zip_cons_cons, List.zip_nil_right, List.map_nil, List.sum_nil, List.sum_cons, zero_add]
        positivity
      | cons o old =>
        simp only [List.map_cons, List.zip_cons_cons, List.sum_cons]
        have h := ih counts (fun x hx => hpos x (List.mem_cons_of_mem _ hx)) old (fun i hi => ho i (List.mem_cons_of_mem _ hi))
        have hb := mul_le_mul_of_nonneg_left (bestCluster_near clusters (m.getD o []) k (pointFromInt q) o (point_bounded hL q) hc
          (ho o List.mem_cons_self)) hcn
        rw [mul_add] at hb
        linarith

theorem counts_sum (pixels : List Int) : (((countPixels pixels).map Prod.snd).map fun c : Int => (c : ℝ)).sum = pixels.length := by
  have := sum_pixels pixels fun _ => 1
  rw [List.map_map]
  simp only [one_mul, List.map_const', List.sum_replicate, nsmul_eq_mul, mul_one] at this
  exact this

/-- The centres after a round, whatever it moved. -/
theorem moved_centre {F : Type} [Fl F] (pixels : List Int) (k : Nat) (s : KState F) (h : KInv k (countPixels pixels).length s)
    (idx : List Nat) (hidx : movedIndices k (((countPixels pixels).map Prod.fst).map pointFromInt) s = idx) (j : Nat) (hj : j < k) :
    idx.length = (countPixels pixels).length ∧ (∀ i ∈ idx, i < k) ∧
    (nextState k (((countPixels pixels).map Prod.fst).map pointFromInt) ((countPixels pixels).map Prod.snd) s).clusters.getD j
        ⟨0.0, 0.0, 0.0⟩ =
      centroid (((countPixels pixels).filter fun e =>
          idx.getD (((countPixels pixels).map Prod.fst).idxOf e.1) 0 = j).foldl (fun s e =>
          ⟨s.x0 + (pointFromInt e.1 : Vec3 F).x0 * Fl.ofInt e.2, s.x1 + (pointFromInt e.1 : Vec3 F).x1 * Fl.ofInt e.2,
            s.x2 + (pointFromInt e.1 : Vec3 F).x2 * Fl.ofInt e.2⟩) ⟨0.0, 0.0, 0.0⟩)
          (pixels.filter fun q => idx.getD (((countPixels pixels).map Prod.fst).idxOf q) 0 = j).length := by
  have hn := nextState_inv (points := ((countPixels pixels).map Prod.fst).map (pointFromInt (F := F)))
    (counts := (countPixels pixels).map Prod.snd) (by simp) (countPixels_pos pixels) (s := s) (by simpa using h)
  have il : idx.length = (countPixels pixels).length := by
    have := hn.indicesLength
    rw [List.length_map, List.length_map] at this
    rw [← hidx]; exact this
  have ik : ∀ i ∈ idx, i < k := by
    rw [← hidx]; exact hn.indicesLt
  refine ⟨il, ik, ?_⟩
  have hcount : (countSums k ((countPixels pixels).map Prod.snd) idx).getD j 0 =
      ((pixels.filter fun q => idx.getD (((countPixels pixels).map Prod.fst).idxOf q) 0 = j).length : Int) := by
    have : (((countSums k ((countPixels pixels).map Prod.snd) idx).getD j 0 : Int) : ℝ) =
        ((pixels.filter fun q => idx.getD (((countPixels pixels).map Prod.fst).idxOf q) 0 = j).length : ℝ) := by
      rw [countSums_eq k (((countPixels pixels).map Prod.fst).map pointFromInt) _ idx (by simp) ik,
        inCluster_eq pixels idx il]
      simp
    exact_mod_cast this
  show (List.zipWith centroid _ _ ++ _).getD j _ = _
  rw [hidx, centre_any k _ _ idx (by simp) (by simp [il]) (countPixels_pos pixels) ik
    _ j hj, hcount, triples_eq pixels idx il, List.filter_map, List.foldl_map]
  rfl

/-- The centre of the pixels of a cluster, in binary64. -/
theorem exact_mean (hL : L.PowOk) (pixels : List Int) (hl : pixels.length ≤ 10 ^ 8) (c : Int → Bool) (hne : pixels.filter c ≠ []) :
    let v : Vec3 𝔻 := centroid (((countPixels pixels).filter fun e => c e.1).foldl (fun s e =>
          (⟨s.x0 + (pointFromInt e.1 : Vec3 𝔻).x0 * Fl.ofInt e.2, s.x1 + (pointFromInt e.1 : Vec3 𝔻).x1 * Fl.ofInt e.2,
            s.x2 + (pointFromInt e.1 : Vec3 𝔻).x2 * Fl.ofInt e.2⟩ : Vec3 𝔻)) ⟨0.0, 0.0, 0.0⟩) (pixels.filter c).length
    let m : (Vec3 ℝ → ℝ) → ℝ := fun f =>
      ((pixels.filter c).map fun q => f (exactPoint (pointFromInt q : Vec3 𝔻))).sum / (pixels.filter c).length
    Ap v.x0 (m Vec3.x0) (301 / 10 ^ 7) ∧ Ap v.x1 (m Vec3.x1) (301 / 10 ^ 7) ∧ Ap v.x2 (m Vec3.x2) (301 / 10 ^ 7) := by
  have hn : ((pixels.filter c).length : Int) ≠ 0 := by
    have := List.length_pos_of_ne_nil hne
    omega
  have one : ∀ x : 𝔻, Dbl.Fin x → Ap x (Dbl.val x) 0 := fun x hx => ⟨Dbl.val x, ⟨hx, rfl⟩, by simp⟩
  have m0 := mean64 (f := fun q => (pointFromInt q : Vec3 𝔻).x0) (g := fun q => Dbl.val (pointFromInt q : Vec3 𝔻).x0)
    (fun q => one _ (point_fin hL q).1.1) (fun q => (point_fin hL q).1.2) (by norm_num) pixels hl c hne
  have m1 := mean64 (f := fun q => (pointFromInt q : Vec3 𝔻).x1) (g := fun q => Dbl.val (pointFromInt q : Vec3 𝔻).x1)
    (fun q => one _ (point_fin hL q).2.1.1) (fun q => (point_fin hL q).2.1.2) (by norm_num) pixels hl c hne
  have m2 := mean64 (f := fun q => (pointFromInt q : Vec3 𝔻).x2) (g := fun q => Dbl.val (pointFromInt q : Vec3 𝔻).x2)
    (fun q => one _ (point_fin hL q).2.2.1) (fun q => (point_fin hL q).2.2.2) (by norm_num) pixels hl c hne
  simp only
  rw [fold_parts]
  unfold centroid
  rw [if_neg hn]
  exact ⟨m0.weaken (by norm_num), m1.weaken (by norm_num), m2.weaken (by norm_num)⟩

/-- A mean is not farther out than what it is the mean of. -/
theorem mean_abs (l : List Int) (g : Int → ℝ) (hg : ∀ c, |g c| ≤ 501) : |(l.map g).sum / l.length| ≤ 501 := by
  have h : |(l.map g).sum| ≤ 501 * l.length := by
    induction l with
    | nil => simp
    | cons x l ih =>
      rw [List.map_cons, List.sum_cons, List.length_cons]
      push_cast
      have := (abs_add_le (g x) (l.map g).sum).trans (add_le_add (hg x) ih)
      linarith
  rw [abs_div, abs_of_nonneg (Nat.cast_nonneg l.length : (0:ℝ) ≤ l.length)]
  exact div_le_of_le_mul₀ (Nat.cast_nonneg _) (by norm_num) h

theorem zero_bounded : Bounded (⟨0.0, 0.0, 0.0⟩ : Vec3 𝔻) := by
  have h : Is (0.0 : 𝔻) 0 := by
    have := lit (L := L) 0 1 true 0 (by norm_num) (by norm_num)
    simpa using this
  have b : Dbl.Fin (0.0 : 𝔻) ∧ |Dbl.val (0.0 : 𝔻)| ≤ 502 := ⟨h.1, by rw [h.2]; norm_num⟩
  exact ⟨b, b, b⟩

/-- The rounds keep the state good. -/
theorem next_good (hL : L.PowOk) (pixels : List Int) (hl : pixels.length ≤ 10 ^ 8) (k : Nat) (s : KState 𝔻) (h : Good64 pixels k s) :
    Good64 pixels k (nextState k (((countPixels pixels).map Prod.fst).map pointFromInt) ((countPixels pixels).map Prod.snd) s) := by
  refine ⟨?_, ?_⟩
  · have := nextState_inv (points := ((countPixels pixels).map Prod.fst).map (pointFromInt (F := 𝔻)))
      (counts := (countPixels pixels).map Prod.snd) (by simp) (countPixels_pos pixels) (s := s) (by simpa using h.inv)
    rwa [List.length_map, List.length_map] at this
  · intro j hj
    obtain ⟨-, -, e⟩ := moved_centre pixels k s h.inv _ rfl j hj
    rw [e]
    generalize movedIndices k (((countPixels pixels).map Prod.fst).map pointFromInt) s = idx
    by_cases hne : (pixels.filter fun q => idx.getD (((countPixels pixels).map Prod.fst).idxOf q) 0 = j) = []
    · rw [hne]
      unfold centroid
      rw [if_pos (by simp)]
      exact zero_bounded
    · obtain ⟨m0, m1, m2⟩ := exact_mean hL pixels hl (fun q => idx.getD (((countPixels pixels).map Prod.fst).idxOf q) 0 = j) hne
      have fin : ∀ {x : 𝔻} {a : ℝ}, Ap x a (301 / 10 ^ 7) → |a| ≤ 501 → Dbl.Fin x ∧ |Dbl.val x| ≤ 502 := by
        rintro x a ⟨v, iv, hv⟩ ha
        refine ⟨iv.1, ?_⟩
        rw [iv.2]
        have := abs_le.1 hv
        have := abs_le.1 ha
        rw [abs_le]
        norm_num at *
        constructor <;> linarith
      exact ⟨fin m0 (mean_abs _ _ fun q => (point_fin hL q).1.2), fin m1 (mean_abs _ _ fun q => (point_fin hL q).2.1.2),
        fin m2 (mean_abs _ _ fun q => (point_fin hL q).2.2.2)⟩

/-- A round hardly costs more. -/
theorem next_cost (hL : L.PowOk) (pixels : List Int) (hl : pixels.length ≤ 10 ^ 8) (k : Nat) (s : KState 𝔻) (h : Good64 pixels k s) :
    cost64 pixels (nextState k (((countPixels pixels).map Prod.fst).map pointFromInt) ((countPixels pixels).map Prod.snd) s) ≤
      cost64 pixels s + pixels.length * (2 / 10 ^ 8) := by
  have mv := moves_near hL s.clusters (measured k s).distMatrix k h.bounded ((countPixels pixels).map Prod.fst)
    ((countPixels pixels).map Prod.snd) (countPixels_pos pixels) s.clusterIndices h.inv.indicesLt
  rw [counts_sum] at mv
  have hidx : movedIndices k (((countPixels pixels).map Prod.fst).map pointFromInt) s =
    newIndices ((((((countPixels pixels).map Prod.fst).map pointFromInt).zip s.clusterIndices).map
      fun (p, prev) => bestCluster s.clusters ((measured k s).distMatrix.getD prev []) k p prev)) s.clusterIndices := rfl
  rw [← hidx] at mv
  have hci : (nextState k (((countPixels pixels).map Prod.fst).map pointFromInt) ((countPixels pixels).map Prod.snd) s).clusterIndices =
    movedIndices k (((countPixels pixels).map Prod.fst).map pointFromInt) s := rfl
  have mc := moved_centre pixels k s h.inv _ rfl
  unfold cost64
  rw [hci]
  generalize movedIndices k (((countPixels pixels).map Prod.fst).map pointFromInt) s = idx at mv mc ⊢
  generalize (nextState k (((countPixels pixels).map Prod.fst).map pointFromInt) ((countPixels pixels).map Prod.snd) s).clusters = new at mc ⊢
  by_cases hk : k = 0
  · have hs : s.clusterIndices = [] := List.eq_nil_iff_forall_not_mem.2 fun i hi => by have := h.inv.indicesLt i hi; omega
    have hc : countPixels pixels = [] := List.length_eq_zero_iff.1 (by rw [← h.inv.indicesLength, hs]; rfl)
    rw [hc]
    simp only [List.map_nil, List.zip_nil_left, List.sum_nil, zero_add]
    positivity
  obtain ⟨il, ik, -⟩ := mc 0 (by omega)
  have nm := near_means k (hTk := ?_) (hTc := ?_) (new := fun j => exactPoint (new.getD j ⟨0.0, 0.0, 0.0⟩)) (old := fun j => exactPoint (s.clusters.getD j ⟨0.0, 0.0, 0.0⟩))
    (η := 301 / 10 ^ 7) (h := ?_) (T := (((((countPixels pixels).map Prod.fst).map fun q => exactPoint (pointFromInt q : Vec3 𝔻)).zip
      ((countPixels pixels).map Prod.snd)).zip idx))
  · have hw : ((((((countPixels pixels).map Prod.fst).map fun q => exactPoint (pointFromInt q : Vec3 𝔻)).zip
      ((countPixels pixels).map Prod.snd)).zip idx).map fun t => (t.1.2 : ℝ)).sum = pixels.length := by
      rw [triples_eq pixels idx il, List.map_map, ← counts_sum, List.map_map]
      rfl
    rw [hw] at nm
    have h0 : (0:ℝ) ≤ pixels.length := Nat.cast_nonneg _
    refine nm.trans ((add_le_add mv le_rfl).trans ?_)
    norm_num
    linarith
  · exact fun t ht => ik _ (List.of_mem_zip ht).2
  · exact fun t ht => countPixels_pos pixels _ (List.of_mem_zip (List.of_mem_zip ht).1).2
  · intro j hj hone
    obtain ⟨-, -, e⟩ := mc j hj
    have e1 := inCluster_pixels pixels idx il (fun q => exactPoint (pointFromInt q : Vec3 𝔻)) (fun _ => 1) j
    rw [e1] at hone
    rw [e1, inCluster_pixels pixels idx il, inCluster_pixels pixels idx il, inCluster_pixels pixels idx il]
    simp only [List.map_const', List.sum_replicate, nsmul_eq_mul, mul_one] at hone ⊢
    have hne : (pixels.filter fun q => idx.getD (((countPixels pixels).map Prod.fst).idxOf q) 0 = j) ≠ [] := by
      intro h; rw [h] at hone; simp at hone
    obtain ⟨m0, m1, m2⟩ := exact_mean hL pixels hl (fun q => idx.getD (((countPixels pixels).map Prod.fst).idxOf q) 0 = j) hne
    rw [e]
    have near : ∀ {x : 𝔻} {a : ℝ}, Ap x a (301 / 10 ^ 7) → |Dbl.val x - a| ≤ 301 / 10 ^ 7 := by
      rintro x a ⟨v, iv, hv⟩
      rw [iv.2]; exact hv
    exact ⟨near m0, near m1, near m2⟩

/-- More rounds hardly cost more, and keep the state good. -/
theorem loop_good (hL : L.PowOk) (pixels : List Int) (hl : pixels.length ≤ 10 ^ 8) (k : Nat) (n : Nat) :
    ∀ (first : Bool) (s : KState 𝔻), Good64 pixels k s →
      Good64 pixels k (kLoop k (((countPixels pixels).map Prod.fst).map pointFromInt) ((countPixels pixels).map Prod.snd) n first s) := by
  induction n with
  | zero => intro _ s h; exact h
  | succ n ih =>
    intro first s h
    rw [kLoop_succ]
    split_ifs with hc
    · rw [moved_none (by simpa using h.inv) (by simp only [Bool.and_eq_true] at hc; exact hc.1)]
      exact ⟨⟨h.inv.1, h.inv.2, h.inv.3⟩, h.bounded⟩
    · exact ih false _ (next_good hL pixels hl k s h)

theorem loop_cost (hL : L.PowOk) (pixels : List Int) (hl : pixels.length ≤ 10 ^ 8) (k : Nat) (n : Nat) :
    ∀ (first : Bool) (s : KState 𝔻), Good64 pixels k s →
      cost64 pixels (kLoop k (((countPixels pixels).map Prod.fst).map pointFromInt) ((countPixels pixels).map Prod.snd) n first s) ≤
        cost64 pixels s + n * (pixels.length * (2 / 10 ^ 8)) := by
  induction n with
  | zero => intro _ s _; show cost64 pixels s ≤ _; simp
  | succ n ih =>
    intro first s h
    rw [kLoop_succ]
    split_ifs with hc
    · rw [moved_none (by simpa using h.inv) (by simp only [Bool.and_eq_true] at hc; exact hc.1)]
      show cost64 pixels s ≤ _
      have : (0:ℝ) ≤ ((n + 1 : Nat) : ℝ) * (pixels.length * (2 / 10 ^ 8)) := by positivity
      linarith
    · have h1 := ih false _ (next_good hL pixels hl k s h)
      have h2 := next_cost hL pixels hl k s h
      push_cast
      linarith

theorem loop_more (hL : L.PowOk) (pixels : List Int) (hl : pixels.length ≤ 10 ^ 8) (k : Nat) (n m : Nat) :
    ∀ (first : Bool) (s : KState 𝔻), Good64 pixels k s →
      cost64 pixels (kLoop k (((countPixels pixels).map Prod.fst).map pointFromInt) ((countPixels pixels).map Prod.snd) (n + m) first s) ≤
        cost64 pixels (kLoop k (((countPixels pixels).map Prod.fst).map pointFromInt) ((countPixels pixels).map Prod.snd) n first s) +
          m * (pixels.length * (2 / 10 ^ 8)) := by
  induction n with
  | zero => intro first s h; rw [Nat.zero_add]; exact loop_cost hL pixels hl k m first s h
  | succ n ih =>
    intro first s h
    rw [show n + 1 + m = n + m + 1 by omega, kLoop_succ, kLoop_succ]
    split_ifs with hc
    · have : (0:ℝ) ≤ (m : ℝ) * (pixels.length * (2 / 10 ^ 8)) := by positivity
      linarith
    · exact ih false _ (next_good hL pixels hl k s h)

/-- The loop starts from a good state. -/
theorem start_good (hL : L.PowOk) {pixels : List Int} {maxColors : Int} {starting : List Int} {picks : List Nat}
    (hp : ValidPicks (min maxColors (countPixels pixels).length - starting.length) (countPixels pixels).length picks)
    (hm : 0 < maxColors) : Good64 pixels (min maxColors ((countPixels pixels).length : Int)).toNat
      (stateAfter 𝔻 pixels maxColors starting picks 0) := by
  refine ⟨stateAfter_inv hp hm 0, ?_⟩
  intro j _
  have all : ∀ v ∈ startCentres 𝔻 pixels maxColors starting picks, Bounded v := by
    unfold startCentres
    have h1 : ∀ v ∈ starting.map (pointFromInt (F := 𝔻)), Bounded v := by
      intro v hv
      obtain ⟨q, -, rfl⟩ := List.mem_map.1 hv
      exact point_bounded hL q
    split_ifs
    · intro v hv
      rcases List.mem_append.1 hv with hv | hv
      · exact h1 v hv
      · obtain ⟨i, -, rfl⟩ := List.mem_map.1 hv
        rw [List.getD_eq_getElem?_getD]
        cases hi : (((countPixels pixels).map Prod.fst).map (pointFromInt (F := 𝔻)))[i]? with
        | none => exact zero_bounded
        | some w =>
          obtain ⟨q, -, rfl⟩ := List.mem_map.1 (List.mem_of_getElem? hi)
          exact point_bounded hL q
    · exact h1
  show Bounded ((startCentres 𝔻 pixels maxColors starting picks).getD j _)
  rw [List.getD_eq_getElem?_getD]
  cases hi : (startCentres 𝔻 pixels maxColors starting picks)[j]? with
  | none => exact zero_bounded
  | some w => exact all w (List.mem_of_getElem? hi)

/-- The cost of the state is the cost of representing the image by the centres. -/
theorem imageCost64_eq (pixels : List Int) (maxColors : Int) (starting : List Int) (picks : List Nat)
    (hp : ValidPicks (min maxColors (countPixels pixels).length - starting.length) (countPixels pixels).length picks)
    (hm : 0 < maxColors) (n : Nat) :
    cost64 pixels (stateAfter 𝔻 pixels maxColors starting picks n) =
      imageCost64 pixels (centreAfter 𝔻 pixels maxColors starting picks n) := by
  have inv := stateAfter_inv (F := 𝔻) hp hm n
  unfold cost64 imageCost64
  rw [triples_eq pixels _ inv.indicesLength, List.map_map, ← sum_pixels]
  congr 1
  refine List.map_congr_left fun e _ => ?_
  simp only [Function.comp, centreAfter, clusterAfter]
  rw [mul_comm]
  rfl

end Mcu.Lemmas
