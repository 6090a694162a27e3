import Verif.Lemmas.F64LabBack
import Verif.Props.KMeans

/-! K-means in binary64: the centres are the means of the clusters up to rounding. -/

namespace Mcu.Lemmas

open Mcu.Ieee Props Props.Binary64 MathUtils ColorUtils QuantizerWsmeans Spec

/-! ### The sums, for any arithmetic -/

section Any

variable {F : Type} [Fl F]

theorem componentSums_filter (pairs : List ((Vec3 F × Int) × Nat)) (sums : List (Vec3 F))
    (h : ∀ p ∈ pairs, p.2 < sums.length) (i : Nat) (o : Vec3 F) :
    (pairs.foldl (fun sums ((p, c), ci) => sums.modify ci fun s =>
      ⟨s.x0 + p.x0 * Fl.ofInt c, s.x1 + p.x1 * Fl.ofInt c, s.x2 + p.x2 * Fl.ofInt c⟩) sums).getD i o =
      (pairs.filter fun t => t.2 = i).foldl (fun s t => ⟨s.x0 + t.1.1.x0 * Fl.ofInt t.1.2, s.x1 + t.1.1.x1 * Fl.ofInt t.1.2,
        s.x2 + t.1.1.x2 * Fl.ofInt t.1.2⟩) (sums.getD i o) := by
  induction pairs generalizing sums with
  | nil => simp
  | cons t rest ih =>
    obtain ⟨⟨p, c⟩, ci⟩ := t
    have hci : ci < sums.length := h ((p, c), ci) List.mem_cons_self
    rw [List.foldl_cons, ih _ (fun q hq => by
      rw [List.length_modify]; exact h q (List.mem_cons_of_mem _ hq))]
    by_cases he : ci = i
    · subst he
      rw [getD_modify_self _ _ _ _ hci, List.filter_cons_of_pos (by simp), List.foldl_cons]
    · rw [getD_modify_ne _ _ _ _ _ he, List.filter_cons_of_neg (by simpa using he)]

theorem fold_parts {α : Type} (l : List α) (p : α → Vec3 F) (n : α → F) (s : Vec3 F) :
    l.foldl (fun s e => (⟨s.x0 + (p e).x0 * n e, s.x1 + (p e).x1 * n e, s.x2 + (p e).x2 * n e⟩ : Vec3 F)) s =
      ⟨l.foldl (fun s e => s + (p e).x0 * n e) s.x0, l.foldl (fun s e => s + (p e).x1 * n e) s.x1,
        l.foldl (fun s e => s + (p e).x2 * n e) s.x2⟩ := by
  induction l generalizing s with
  | nil => rfl
  | cons x rest ih => rw [List.foldl_cons, ih]; rfl

/-- A centre is the quotient of the sums and the count. -/
theorem centre_any (k : Nat) (points : List (Vec3 F)) (counts : List Int) (indices : List Nat)
    (hl : counts.length = points.length) (hil : indices.length = points.length) (hpos : ∀ c ∈ counts, 0 < c)
    (hk : ∀ i ∈ indices, i < k) (rest : List (Vec3 F)) (j : Nat) (hj : j < k) (o : Vec3 F) :
    (List.zipWith centroid (componentSums k points counts indices) (countSums k counts indices) ++ rest).getD j o =
      centroid ((((points.zip counts).zip indices).filter fun t => t.2 = j).foldl (fun s t =>
        ⟨s.x0 + t.1.1.x0 * Fl.ofInt t.1.2, s.x1 + t.1.1.x1 * Fl.ofInt t.1.2, s.x2 + t.1.1.x2 * Fl.ofInt t.1.2⟩)
          ⟨0.0, 0.0, 0.0⟩) ((countSums k counts indices).getD j 0) := by
  have hcl := componentSums_length k points counts indices
  have hsl := (countSums_ok k counts indices (by omega) hk hpos).1
  have hjl : j < (List.zipWith centroid (componentSums k points counts indices) (countSums k counts indices)).length := by
    rw [List.length_zipWith, hcl, hsl]; omega
  rw [List.getD_eq_getElem?_getD, List.getElem?_append_left hjl, List.getElem?_eq_getElem hjl, Option.getD_some,
    List.getElem_zipWith]
  congr 1
  · have h := componentSums_filter ((points.zip counts).zip indices) (List.replicate k (⟨0.0, 0.0, 0.0⟩ : Vec3 F)) (fun p hp => by
      rw [List.length_replicate]; exact hk _ (List.of_mem_zip hp).2) j ⟨0.0, 0.0, 0.0⟩
    rw [show (List.replicate k (⟨0.0, 0.0, 0.0⟩ : Vec3 F)).getD j ⟨0.0, 0.0, 0.0⟩ = ⟨0.0, 0.0, 0.0⟩ by
      rw [List.getD_eq_getElem?_getD, List.getElem?_replicate, if_pos hj, Option.getD_some]] at h
    rw [← h, List.getD_eq_getElem?_getD, List.getElem?_eq_getElem (by
      change j < (componentSums k points counts indices).length; omega), Option.getD_some]
    rfl
  · rw [List.getD_eq_getElem?_getD, List.getElem?_eq_getElem (by omega), Option.getD_some]

/-- What is reported, in terms of the clusters, for any arithmetic. -/
theorem clusters_after (pixels : List Int) (maxColors : Int) (starting : List Int) (iterations : Option Int)
    (picks : List Nat) (r : Result)
    (hp : ValidPicks (min maxColors (countPixels pixels).length - starting.length) (countPixels pixels).length picks)
    (hq : quantize F pixels maxColors starting iterations (some true) picks = some r) (hi : 1 ≤ iterations.getD 5)
    (hm : 0 < maxColors) : ∃ clusterOf : Int → Nat,
      (∀ p, clusterOf p = clusterAfter F pixels maxColors starting picks (iterations.getD 5).toNat p) ∧
      (∀ p ∈ pixels, (clusterOf p : Int) < maxColors) ∧
      ∃ centre : Nat → Vec3 F,
      (∀ p ∈ pixels, r.inputPixelToClusterPixel.lookup p = some (pointToInt (centre (clusterOf p)))) ∧
      (∀ color population : Int, (color, population) ∈ r.colorToCount → ∃ p ∈ pixels,
        population = (pixels.filter fun q => clusterOf q = clusterOf p).length ∧ color = pointToInt (centre (clusterOf p))) ∧
      ∀ p ∈ pixels, centre (clusterOf p) =
        centroid (((countPixels pixels).filter fun e => clusterOf e.1 = clusterOf p).foldl (fun s e =>
          ⟨s.x0 + (pointFromInt e.1 : Vec3 F).x0 * Fl.ofInt e.2, s.x1 + (pointFromInt e.1 : Vec3 F).x1 * Fl.ofInt e.2,
            s.x2 + (pointFromInt e.1 : Vec3 F).x2 * Fl.ofInt e.2⟩) ⟨0.0, 0.0, 0.0⟩)
          (pixels.filter fun q => clusterOf q = clusterOf p).length := by
  have hn : 0 < (iterations.getD 5).toNat := by omega
  have inv := stateAfter_inv (F := F) hp hm (iterations.getD 5).toNat
  have hmap := c72_map pixels maxColors starting iterations picks r hp hm hq
  have hcent := kLoop_centres (F := F) _ (((countPixels pixels).map Prod.fst).map pointFromInt) ((countPixels pixels).map Prod.snd)
    (by simp) (countPixels_pos pixels) (iterations.getD 5).toNat true _ (start_inv hp hm) (fun _ => hn) (by simp)
  have hsums := (kLoop_ok (F := F) _ (((countPixels pixels).map Prod.fst).map pointFromInt) ((countPixels pixels).map Prod.snd)
    (by simp) (countPixels_pos pixels) (iterations.getD 5).toNat true _ (start_inv hp hm) (by simp)).2
  obtain ⟨hcol, -⟩ := quantize_after hq
  change ∃ rest, (stateAfter F pixels maxColors starting picks (iterations.getD 5).toNat).clusters =
    List.zipWith centroid (componentSums _ _ _ (stateAfter F pixels maxColors starting picks (iterations.getD 5).toNat).clusterIndices)
      (countSums _ _ (stateAfter F pixels maxColors starting picks (iterations.getD 5).toNat).clusterIndices) ++ rest at hcent
  replace hsums : (stateAfter F pixels maxColors starting picks (iterations.getD 5).toNat).pixelCountSums =
      countSums (min maxColors ((countPixels pixels).length : Int)).toNat ((countPixels pixels).map Prod.snd)
        (stateAfter F pixels maxColors starting picks (iterations.getD 5).toNat).clusterIndices := by
    rcases hsums with ⟨h, -⟩ | h
    · omega
    · exact h
  set k := (min maxColors ((countPixels pixels).length : Int)).toNat with hk
  have hcl : ∀ p ∈ pixels, clusterAfter F pixels maxColors starting picks (iterations.getD 5).toNat p < k := by
    intro p hpx
    have hlt := List.idxOf_lt_length_of_mem ((countPixels_keys pixels p).2 hpx)
    rw [List.length_map] at hlt
    unfold clusterAfter
    have hil := inv.indicesLength
    rw [List.getD_eq_getElem?_getD, List.getElem?_eq_getElem (by omega), Option.getD_some]
    exact inv.indicesLt _ (List.getElem_mem _)
  unfold centreAfter at hmap
  unfold clusterAfter at hmap hcl ⊢
  generalize stateAfter F pixels maxColors starting picks (iterations.getD 5).toNat = s at *
  obtain ⟨rest, hcent⟩ := hcent
  set clusterOf : Int → Nat := fun p => s.clusterIndices.getD (((countPixels pixels).map Prod.fst).idxOf p) 0 with hco
  have hcount : ∀ j, s.pixelCountSums.getD j 0 = ((pixels.filter fun q => clusterOf q = j).length : Int) := by
    intro j
    have : ((s.pixelCountSums.getD j 0 : Int) : ℝ) = ((pixels.filter fun q => clusterOf q = j).length : ℝ) := by
      rw [hsums, countSums_eq k (((countPixels pixels).map Prod.fst).map pointFromInt) _ s.clusterIndices (by simp) inv.indicesLt,
        inCluster_eq pixels s.clusterIndices inv.indicesLength]
      simp [hco]
    exact_mod_cast this
  refine ⟨clusterOf, fun _ => rfl, ?_, fun j => s.clusters.getD j ⟨0.0, 0.0, 0.0⟩, ?_, ?_, ?_⟩
  · intro p hpx
    have h := hcl p hpx
    show ((s.clusterIndices.getD (((countPixels pixels).map Prod.fst).idxOf p) 0 : Nat) : Int) < maxColors
    omega
  · intro p hpx
    rw [hmap p hpx]
  · intro color population he
    have hsl := (countSums_ok k ((countPixels pixels).map Prod.snd) s.clusterIndices (by simp [inv.indicesLength]) inv.indicesLt
      (countPixels_pos pixels))
    rw [← hsums] at hsl
    obtain ⟨c1, -, c3, -⟩ := hsl
    obtain ⟨-, -, -, -, -, -, c7⟩ := collect_ok ((s.clusters.take k).zip s.pixelCountSums) []
      (fun p hp => c3 _ (List.of_mem_zip hp).2) List.nodup_nil (by simp)
    rw [← collect_eq, ← hcol] at c7
    rcases c7 _ he with h | ⟨⟨c, m⟩, hcn, hne, heq⟩
    · cases h
    · obtain ⟨j, hj, hgj⟩ := List.mem_iff_getElem.1 hcn
      have hkl := inv.clustersLength
      rw [List.length_zip, List.length_take] at hj
      rw [List.getElem_zip, List.getElem_take] at hgj
      have hcj : s.clusters.getD j ⟨0.0, 0.0, 0.0⟩ = c := by
        rw [List.getD_eq_getElem?_getD, List.getElem?_eq_getElem (by omega), Option.getD_some]
        exact (Prod.mk.inj hgj).1
      have hmj : s.pixelCountSums.getD j 0 = m := by
        rw [List.getD_eq_getElem?_getD, List.getElem?_eq_getElem (by omega), Option.getD_some]
        exact (Prod.mk.inj hgj).2
      have hm3 := hcount j
      rw [hmj] at hm3
      have hne2 : (pixels.filter fun q => clusterOf q = j) ≠ [] := by
        intro h0
        rw [h0] at hm3
        exact hne (by simpa using hm3)
      obtain ⟨p, hpf⟩ := List.exists_mem_of_ne_nil _ hne2
      obtain ⟨hpx, hpj⟩ := List.mem_filter.1 hpf
      have hpj : clusterOf p = j := by simpa using hpj
      refine ⟨p, hpx, ?_, ?_⟩
      · rw [hpj, ← hm3]; exact (Prod.mk.inj heq).2
      · rw [hpj, (Prod.mk.inj heq).1]
        show pointToInt c = pointToInt (s.clusters.getD j ⟨0.0, 0.0, 0.0⟩)
        rw [hcj]
  · intro p hpx
    show s.clusters.getD (clusterOf p) ⟨0.0, 0.0, 0.0⟩ = _
    rw [hcent, centre_any k _ _ s.clusterIndices (by simp) (by simp [inv.indicesLength]) (countPixels_pos pixels) inv.indicesLt
      rest (clusterOf p) (hcl p hpx), ← hsums, hcount, triples_eq pixels s.clusterIndices inv.indicesLength, List.filter_map,
      List.foldl_map]
    rfl

end Any

/-! ### Binary64 -/

variable {L : Libm}

local notation "𝔻" => F64 L

/-- Summing up in binary64. -/
theorem sum64 {f : Int → 𝔻} {g : Int → ℝ} {δ N : ℝ} (N1 : 1 ≤ N) (N2 : N ≤ 10 ^ 8) (hf : ∀ c, Ap (f c) (g c) δ)
    (hg : ∀ c, |g c| ≤ 501) (δ1 : δ ≤ 1 / 100) (E : List (Int × Int)) : ∀ (s : 𝔻) (S D n : ℝ), Ap s S D → |S| ≤ 501 * n → 0 ≤ n →
      (∀ e ∈ E, 0 < e.2) → n + (E.map fun e => (e.2 : ℝ)).sum ≤ N →
      D + δ * (E.map fun e => (e.2 : ℝ)).sum + E.length * (N * (3 / 10 ^ 13)) ≤ N →
      Ap (E.foldl (fun s e => s + f e.1 * Fl.ofInt e.2) s) (S + (E.map fun e => g e.1 * (e.2 : ℝ)).sum)
        (D + δ * (E.map fun e => (e.2 : ℝ)).sum + E.length * (N * (3 / 10 ^ 13))) := by
  have δ0 := (hf 0).nonneg
  induction E with
  | nil => intro s S D n hs _ _ _ _ _; simpa using hs
  | cons e rest ih =>
    intro s S D n hs hS hn hpos hN hD
    obtain ⟨c, m⟩ := e
    have D0 := hs.nonneg
    simp only [List.map_cons, List.sum_cons, List.length_cons, List.foldl_cons] at hN hD ⊢
    have m1 : 1 ≤ m := hpos (c, m) List.mem_cons_self
    have m1 : (1 : ℝ) ≤ m := by exact_mod_cast m1
    have r0 : 0 ≤ (rest.map fun e => (e.2 : ℝ)).sum := List.sum_nonneg (by
      intro x hx
      obtain ⟨t, ht, rfl⟩ := List.mem_map.1 hx
      have : 0 < t.2 := hpos t (List.mem_cons_of_mem _ ht)
      exact_mod_cast this.le)
    generalize (rest.map fun e => (e.2 : ℝ)).sum = R at *
    have hm : (m : ℝ) ≤ N := by linarith
    have iM : Is (Fl.ofInt m : 𝔻) m := is_ofInt (by
      have : (m : ℝ) ≤ ((10 ^ 8 : ℤ) : ℝ) := by push_cast; linarith
      have h1 : m ≤ 10 ^ 8 := by exact_mod_cast this
      have h2 : 1 ≤ m := hpos (c, m) List.mem_cons_self
      rw [abs_le]; constructor <;> omega)
    push_cast at hD
    have hdm : δ * (m + R) = δ * m + δ * R := by ring
    have hdR : 0 ≤ δ * R := mul_nonneg δ0 r0
    have hdmm : δ * m ≤ 1 / 100 * m := mul_le_mul_of_nonneg_right δ1 (by linarith)
    have hl : 0 ≤ (rest.length : ℝ) * (N * (3 / 10 ^ 13)) := by positivity
    have hlen : ((rest.length : ℝ) + 1) * (N * (3 / 10 ^ 13)) = rest.length * (N * (3 / 10 ^ 13)) + N * (3 / 10 ^ 13) := by ring
    rw [hdm, hlen] at hD
    have p := (hf c).mulS iM.ap 501 m (502 * m) (δ * m + N * (11 / 10 ^ 14)) (hg c) (by rw [abs_of_nonneg (by linarith)])
      (by rw [add_zero]; exact mul_le_mul_of_nonneg_right (by linarith) (by linarith)) (by norm_num at N2 ⊢; linarith)
      (by rw [mul_zero, mul_zero, add_zero, add_zero]; norm_num; linarith)
    have hgm : |g c * m| ≤ 501 * m := by
      rw [abs_mul, abs_of_nonneg (show (0 : ℝ) ≤ m by linarith)]
      exact mul_le_mul_of_nonneg_right (hg c) (by linarith)
    have hsum : |S + g c * m| ≤ 501 * (n + m) := (abs_add_le _ _).trans (by linarith)
    have q := hs.addS p (502 * N) (D + δ * m + N * (3 / 10 ^ 13)) (by norm_num at hD ⊢; linarith)
      (by norm_num at N2 ⊢; linarith) (by norm_num; linarith)
    have t := ih _ _ _ (n + m) q hsum (by linarith) (fun e he => hpos e (List.mem_cons_of_mem _ he)) (by linarith) (by linarith)
    rw [← add_assoc]
    refine t.weaken (le_of_eq ?_)
    push_cast
    ring

theorem sum_filter_pairs (l : List (Int × Int)) (c : Int → Bool) (f : Int → ℝ) :
    ((l.filter fun e => c e.1).map fun e => f e.1 * (e.2 : ℝ)).sum = (l.map fun e => (if c e.1 = true then f e.1 else 0) * (e.2 : ℝ)).sum := by
  induction l with
  | nil => rfl
  | cons x rest ih =>
    rw [List.map_cons, List.sum_cons, ← ih]
    by_cases h : c x.1 = true
    · rw [if_pos h, List.filter_cons_of_pos (p := fun e : Int × Int => c e.1) h, List.map_cons, List.sum_cons]
    · rw [if_neg h, List.filter_cons_of_neg (p := fun e : Int × Int => c e.1) h, zero_mul, zero_add]

/-- The sum over the counted colours of a cluster is the sum over its pixels. -/
theorem cluster_sum (pixels : List Int) (c : Int → Bool) (f : Int → ℝ) :
    (((countPixels pixels).filter fun e => c e.1).map fun e => f e.1 * (e.2 : ℝ)).sum = ((pixels.filter c).map f).sum := by
  rw [sum_filter_pairs, sum_pixels pixels fun p => if c p = true then f p else 0, sum_filter]

/-- A mean in binary64. -/
theorem mean64 {f : Int → 𝔻} {g : Int → ℝ} {δ : ℝ} (hf : ∀ c, Ap (f c) (g c) δ) (hg : ∀ c, |g c| ≤ 501) (δ1 : δ ≤ 1 / 100)
    (pixels : List Int) (hl : pixels.length ≤ 10 ^ 8) (c : Int → Bool) (hne : pixels.filter c ≠ []) :
    Ap (((countPixels pixels).filter fun e => c e.1).foldl (fun s e => s + f e.1 * Fl.ofInt e.2) 0.0 /
        Fl.ofInt ((pixels.filter c).length : Int)) (((pixels.filter c).map g).sum / (pixels.filter c).length) (δ + 301 / 10 ^ 7) := by
  have δ0 := (hf 0).nonneg
  set E := (countPixels pixels).filter fun e => c e.1 with hE
  have hn1 : 1 ≤ (pixels.filter c).length := List.length_pos_of_ne_nil hne
  have hn2 : (pixels.filter c).length ≤ 10 ^ 8 := (List.length_filter_le _ _).trans hl
  have hpos : ∀ e ∈ E, 0 < e.2 := fun e he => countPixels_pos pixels _ (List.mem_map.2 ⟨e, (List.mem_filter.1 he).1, rfl⟩)
  have hS := cluster_sum pixels c g
  have h1 : (E.map fun e => (e.2 : ℝ)).sum = ((pixels.filter c).length : ℝ) := by
    have := cluster_sum pixels c fun _ => 1
    simpa [← hE] using this
  rw [← hE] at hS
  have hlen : (E.length : ℝ) ≤ (E.map fun e => (e.2 : ℝ)).sum := by
    clear_value E
    clear hS h1 hE
    induction E with
    | nil => simp
    | cons e rest ih =>
      have : 0 < e.2 := hpos e List.mem_cons_self
      have : (1 : ℝ) ≤ e.2 := by exact_mod_cast this
      have := ih fun e he => hpos e (List.mem_cons_of_mem _ he)
      simp only [List.map_cons, List.sum_cons, List.length_cons]
      push_cast
      linarith
  generalize hn : (pixels.filter c).length = n at *
  have N1 : (1 : ℝ) ≤ n := by exact_mod_cast hn1
  have N2 : (n : ℝ) ≤ 10 ^ 8 := by exact_mod_cast hn2
  rw [h1] at hlen
  have hsm : (E.length : ℝ) * ((n : ℝ) * (3 / 10 ^ 13)) ≤ 10 ^ 8 * ((n : ℝ) * (3 / 10 ^ 13)) :=
    mul_le_mul_of_nonneg_right (hlen.trans N2) (by positivity)
  have hdn : δ * n ≤ 1 / 100 * n := mul_le_mul_of_nonneg_right δ1 (by linarith)
  have z : Ap (0.0 : 𝔻) 0 0 := by
    have : Is (0.0 : 𝔻) 0 := by simpa using lit (L := L) 0 1 true 0 (by norm_num) (by norm_num)
    exact this.ap
  have s := sum64 (f := f) (g := g) N1 N2 hf hg δ1 E 0.0 0 0 0 z (by norm_num) le_rfl hpos (by rw [h1]; linarith)
    (by rw [h1]; norm_num at hsm ⊢; linarith)
  rw [h1, zero_add, zero_add, hS] at s
  obtain ⟨v, iv, hv⟩ := s
  have iN : Is (Fl.ofInt (n : Int) : 𝔻) n := by
    have := is_ofInt (L := L) (n := (n : ℤ)) (by rw [abs_le]; constructor <;> omega)
    exact_mod_cast this
  have hq : |v / n - ((pixels.filter c).map g).sum / n| ≤ δ + 3 / 10 ^ 5 := by
    rw [← sub_div, abs_div, abs_of_pos (show (0 : ℝ) < n by linarith), div_le_iff₀ (by linarith)]
    refine hv.trans ?_
    norm_num at hsm ⊢
    linarith
  have hm : |((pixels.filter c).map g).sum / n| ≤ 501 := by
    rw [abs_div, abs_of_pos (show (0 : ℝ) < n by linarith), div_le_iff₀ (by linarith), ← hn]
    clear * - hg
    induction pixels.filter c with
    | nil => simp
    | cons x rest ih =>
      simp only [List.map_cons, List.sum_cons, List.length_cons]
      refine (abs_add_le _ _).trans ?_
      have := hg x
      push_cast
      linarith
  have hvn : |v / n| ≤ 600 := by
    have h := abs_add_le (v / n - ((pixels.filter c).map g).sum / n) (((pixels.filter c).map g).sum / n)
    rw [sub_add_cancel] at h
    norm_num at hq ⊢; linarith
  obtain ⟨r1, r2⟩ := rnd_ok (v := v / n) (by linarith)
  refine ⟨_, iv.div iN (by linarith) r1, ?_⟩
  have h := abs_add_le (rnd (v / n) - v / n) (v / n - ((pixels.filter c).map g).sum / n)
  rw [sub_add_sub_cancel] at h
  have hρ : ρ = 1 / 10 ^ 12 := rfl
  rw [hρ] at r2
  norm_num at *
  linarith

/-! ### The mean in L*a*b* -/

theorem lightness64 (hL : L.PowOk) (argb : Int) :
    Ap (labFromArgb argb : Vec3 𝔻).x0 (labFromArgb argb : Vec3 ℝ).x0 (19 / 10 ^ 6) := by
  have hρ : ρ = 1 / 10 ^ 12 := rfl
  obtain ⟨r0, g0, b0⟩ := rgb_bounds argb
  have hy := (ap_row hL argb (p := 0.2126) (q := 0.7152) (r := 0.0722)
    (ap_lit rfl (by norm_num [abs_of_pos])) (ap_lit rfl (by norm_num [abs_of_pos]))
    (ap_lit rfl (by norm_num [abs_of_pos])) (by norm_num [abs_of_pos]) (by norm_num [abs_of_pos])
    (by norm_num [abs_of_pos])).2
  have wy : Ap (100.0 : F64 L) 100.0 ρ := by
    have := (ap100 (L := L)).weaken ρ_pos.le
    rwa [show (100.0 : ℝ) = 100 by norm_num]
  have e16 : (16.0 : ℝ) = 16 := by norm_num
  have e116 : (116.0 : ℝ) = 116 := by norm_num
  simp only [labFromArgb, whitePointD65, srgbToXyz]
  rw [e16, e116]
  generalize (linearized (redFromArgb argb) : ℝ) = r at *
  generalize (linearized (greenFromArgb argb) : ℝ) = g at *
  generalize (linearized (blueFromArgb argb) : ℝ) = b at *
  have bY : 0 ≤ 0.2126 * r + 0.7152 * g + 0.0722 * b ∧ 0.2126 * r + 0.7152 * g + 0.0722 * b ≤ 1.0001 * 100.0 := by
    norm_num; constructor <;> linarith [r0.1, r0.2, g0.1, g0.2, b0.1, b0.2]
  obtain ⟨fy, fy0, fy1⟩ := ap_curve hL hy wy (by norm_num) bY.1 bY.2 (by norm_num)
  generalize labF ((0.2126 * r + 0.7152 * g + 0.0722 * b) / 100.0) = B at *
  norm_num at fy1
  have hB : |B| ≤ 1.001 := by rw [abs_of_nonneg fy0]; norm_num; linarith
  have l1 := ((ap116 (L := L)).mul fy (A := 116) (B := 1.001) (by norm_num) hB (by norm_num)).weaken
    (ε := 18 / 10 ^ 6) (by rw [hρ]; norm_num)
  exact (l1.sub ap16 (by
    have : |116 * B - 16| ≤ 110 := by rw [abs_le]; constructor <;> linarith
    norm_num; linarith)).weaken (ε := 19 / 10 ^ 6) (by rw [hρ]; norm_num)

/-- The three values that L*a*b* stands for are between 0 and 1.001. -/
theorem lab_ranges (argb : Int) :
    (0 ≤ ((labFromArgb argb : Vec3 ℝ).x0 + 16) / 116 ∧ ((labFromArgb argb : Vec3 ℝ).x0 + 16) / 116 ≤ 1.001) ∧
    (0 ≤ (labFromArgb argb : Vec3 ℝ).x1 / 500 + ((labFromArgb argb : Vec3 ℝ).x0 + 16) / 116 ∧
      (labFromArgb argb : Vec3 ℝ).x1 / 500 + ((labFromArgb argb : Vec3 ℝ).x0 + 16) / 116 ≤ 1.001) ∧
    (0 ≤ ((labFromArgb argb : Vec3 ℝ).x0 + 16) / 116 - (labFromArgb argb : Vec3 ℝ).x2 / 200 ∧
      ((labFromArgb argb : Vec3 ℝ).x0 + 16) / 116 - (labFromArgb argb : Vec3 ℝ).x2 / 200 ≤ 1.001) := by
  obtain ⟨r0, g0, b0⟩ := rgb_bounds argb
  simp only [labFromArgb, whitePointD65, srgbToXyz]
  generalize (linearized (redFromArgb argb) : ℝ) = r at *
  generalize (linearized (greenFromArgb argb) : ℝ) = g at *
  generalize (linearized (blueFromArgb argb) : ℝ) = b at *
  have fx := labF_bounds (t := (0.41233895 * r + 0.35762064 * g + 0.18051042 * b) / 95.047)
    (by norm_num; linarith [r0.1, g0.1, b0.1]) (by norm_num; linarith [r0.2, g0.2, b0.2])
  have fy := labF_bounds (t := (0.2126 * r + 0.7152 * g + 0.0722 * b) / 100.0)
    (by norm_num; linarith [r0.1, g0.1, b0.1]) (by norm_num; linarith [r0.2, g0.2, b0.2])
  have fz := labF_bounds (t := (0.01932141 * r + 0.11916382 * g + 0.95034478 * b) / 108.883)
    (by norm_num; linarith [r0.1, g0.1, b0.1]) (by norm_num; linarith [r0.2, g0.2, b0.2])
  generalize labF ((0.41233895 * r + 0.35762064 * g + 0.18051042 * b) / 95.047) = A at *
  generalize labF ((0.2126 * r + 0.7152 * g + 0.0722 * b) / 100.0) = B at *
  generalize labF ((0.01932141 * r + 0.11916382 * g + 0.95034478 * b) / 108.883) = C at *
  norm_num at fx fy fz ⊢
  refine ⟨⟨?_, ?_⟩, ⟨?_, ?_⟩, ?_, ?_⟩ <;> linarith

theorem mean_range (l : List Int) (hne : l ≠ []) (f g : Int → ℝ) (α β γ lo hi : ℝ) (h : ∀ c, lo ≤ α * f c + β * g c + γ ∧ α * f c + β * g c + γ ≤ hi) :
    lo ≤ α * ((l.map f).sum / l.length) + β * ((l.map g).sum / l.length) + γ ∧
      α * ((l.map f).sum / l.length) + β * ((l.map g).sum / l.length) + γ ≤ hi := by
  have hn : (0 : ℝ) < l.length := by exact_mod_cast List.length_pos_of_ne_nil hne
  have key : lo * l.length ≤ α * (l.map f).sum + β * (l.map g).sum + γ * l.length ∧
      α * (l.map f).sum + β * (l.map g).sum + γ * l.length ≤ hi * l.length := by
    clear hne hn
    induction l with
    | nil => simp
    | cons x rest ih =>
      have := h x
      simp only [List.map_cons, List.sum_cons, List.length_cons]
      push_cast
      constructor <;> linarith [ih.1, ih.2]
  have e : α * ((l.map f).sum / l.length) + β * ((l.map g).sum / l.length) + γ =
      (α * (l.map f).sum + β * (l.map g).sum + γ * l.length) / l.length := by field_simp
  rw [e, le_div_iff₀ hn, div_le_iff₀ hn]
  exact key

/-- The colour reported for a cluster is within one per channel of the colour of the exact mean. -/
theorem centre_near (hL : L.PowOk) (pixels : List Int) (hl : pixels.length ≤ 10 ^ 8) (c : Int → Bool) (hne : pixels.filter c ≠ []) :
    ChannelsNear (pointToInt (centroid (((countPixels pixels).filter fun e => c e.1).foldl (fun s e =>
          (⟨s.x0 + (pointFromInt e.1 : Vec3 𝔻).x0 * Fl.ofInt e.2, s.x1 + (pointFromInt e.1 : Vec3 𝔻).x1 * Fl.ofInt e.2,
            s.x2 + (pointFromInt e.1 : Vec3 𝔻).x2 * Fl.ofInt e.2⟩ : Vec3 𝔻)) ⟨0.0, 0.0, 0.0⟩) (pixels.filter c).length))
      (labMeanColor (pixels.filter c)) := by
  have hn : ((pixels.filter c).length : Int) ≠ 0 := by
    have := List.length_pos_of_ne_nil hne
    omega
  have b0 : ∀ q, |(labFromArgb q : Vec3 ℝ).x0| ≤ 501 := fun q => by
    have := (lab_ranges q).1
    norm_num at this
    rw [abs_le]; constructor <;> linarith
  have m0 := mean64 (f := fun q => (pointFromInt q : Vec3 𝔻).x0) (g := fun q => (labFromArgb q : Vec3 ℝ).x0)
    (lightness64 hL) b0 (by norm_num) pixels hl c hne
  have m1 := mean64 (f := fun q => (pointFromInt q : Vec3 𝔻).x1) (g := fun q => (labFromArgb q : Vec3 ℝ).x1)
    (fun q => (lab64 hL q).1) (fun q => (lab64 hL q).2.2.1) (by norm_num) pixels hl c hne
  have m2 := mean64 (f := fun q => (pointFromInt q : Vec3 𝔻).x2) (g := fun q => (labFromArgb q : Vec3 ℝ).x2)
    (fun q => (lab64 hL q).2.1) (fun q => (lab64 hL q).2.2.2) (by norm_num) pixels hl c hne
  rw [fold_parts]
  unfold centroid
  rw [if_neg hn]
  have ry := mean_range (pixels.filter c) hne (fun q => (labFromArgb q : Vec3 ℝ).x0) (fun q => (labFromArgb q : Vec3 ℝ).x0) (1 / 116) 0 (16 / 116) 0 1.001
    (fun q => by
      have := (lab_ranges q).1
      constructor <;> linarith)
  have rx := mean_range (pixels.filter c) hne (fun q => (labFromArgb q : Vec3 ℝ).x0) (fun q => (labFromArgb q : Vec3 ℝ).x1) (1 / 116) (1 / 500) (16 / 116) 0 1.001
    (fun q => by
      have := (lab_ranges q).2.1
      constructor <;> linarith)
  have rz := mean_range (pixels.filter c) hne (fun q => (labFromArgb q : Vec3 ℝ).x0) (fun q => (labFromArgb q : Vec3 ℝ).x2) (1 / 116) (-(1 / 200)) (16 / 116) 0 1.001
    (fun q => by
      have := (lab_ranges q).2.2
      constructor <;> linarith)
  unfold labMeanColor pointToInt meanLab
  refine argbFromLab_near hL (m0.weaken (by norm_num)) (m1.weaken (by norm_num)) (m2.weaken (by norm_num)) ?_ ?_ ?_ ?_ ?_ ?_
  · linarith [ry.1]
  · linarith [ry.2]
  · linarith [rx.1]
  · linarith [rx.2]
  · linarith [rz.1]
  · linarith [rz.2]

end Mcu.Lemmas
