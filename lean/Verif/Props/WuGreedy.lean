import Verif.Lemmas.WuNear
import Mathlib.Tactic.IntervalCases

/-! Properties C70 (the Wu quantizer splits the box with the largest spread) and C71 (it uses the number of colours it may
use), and that its colours are pairwise different (C47). -/

namespace Mcu.Props

open Mcu.QuantizerWu Mcu.ColorUtils Mcu.Spec

section
variable {F : Type} [Fl F] [WuArith F]

theorem filterMap_boxColor {pixels : List Int} {entries : List (Int × Int)} (h : CountsOf pixels entries) (l : List Box)
    (hl : ∀ c ∈ l, Proper c) :
    l.filterMap (boxColor (tablesOf F entries)) = (nonEmpty pixels l).map (meanColor pixels) := by
  induction l with
  | nil => rfl
  | cons c rest ih =>
    have hc := boxColor_eq (F := F) h (hl c List.mem_cons_self)
    have hr := ih fun x hx => hl x (List.mem_cons_of_mem _ hx)
    unfold nonEmpty at hr ⊢
    by_cases hp : 0 < pixelCount pixels c
    · rw [if_pos hp] at hc
      rw [List.filterMap_cons_some hc, hr, List.filter_cons_of_pos (by simpa using (pixelCount_pos _ _).1 hp), List.map_cons]
    · rw [if_neg hp] at hc
      have : pixelsIn pixels c = [] := by
        by_contra hne
        exact hp ((pixelCount_pos _ _).2 hne)
      rw [List.filterMap_cons_none hc, hr, List.filter_cons_of_neg (by simpa using this)]

theorem nonEmpty_take {pixels : List Int} {cubes : List Box} {k : Nat} (hu : UnusedFrom cubes k) :
    nonEmpty pixels (cubes.take k) = nonEmpty pixels cubes := by
  unfold nonEmpty
  conv_rhs => rw [← List.take_append_drop k cubes, List.filter_append]
  have : (cubes.drop k).filter (fun c => decide (pixelsIn pixels c ≠ [])) = [] := by
    rw [List.filter_eq_nil_iff]
    intro c hc
    obtain ⟨j, hj, rfl⟩ := List.mem_iff_getElem.1 hc
    rw [List.length_drop] at hj
    have he := hu (k + j) (by omega) (by omega)
    rw [List.getD_eq_getElem?_getD, List.getElem?_eq_getElem (by omega)] at he
    rw [List.getElem_drop]
    simp only [Option.getD_some] at he
    rw [he]
    simpa using unused_not pixels
  rw [this, List.append_nil]

/-- What a run of the quantizer does. -/
theorem wu_run {isInt : F → Int → Prop} {split : Box → Box → Box → Prop} {pixels : List Int} {entries : List (Int × Int)}
    (h : CountsOf pixels entries) (ex : ExactArith isInt split (tablesOf F entries) pixels) (maxColors : Int)
    (hm : 0 < maxColors) (hp : ∃ p ∈ pixels, alphaFromArgb p = 255) :
    ∃ boxes cubes, Greedy pixels split boxes ∧ Partition cubes ∧ boxes.Perm (nonEmpty pixels cubes) ∧
      quantizeEntries F entries maxColors = some ((nonEmpty pixels cubes).map (meanColor pixels)) ∧
      ((∀ c ∈ boxes, ¬ Splittable pixels c) ∨
        open Classical in maxColors ≤ boxes.length + (boxes.countP fun c => decide (Blocked pixels c) : Nat)) := by
  classical
  have hn : 1 ≤ maxColors.toNat := by omega
  obtain ⟨cubes, k, h1, h2, h3, h4, h5, h6⟩ :=
    createBoxes_ok (tablesOf F entries) maxColors.toNat hn (maxColors.toNat - 1) (le_refl _)
  obtain ⟨cubes', k', e1, boxes, g1, g2, g3⟩ := loop_end ex maxColors.toNat (maxColors.toNat - 1) 1 0 _ _ _ (by omega)
    (loop_start ex maxColors.toNat hn hp)
  rw [h1] at e1
  obtain ⟨rfl, rfl⟩ := Prod.mk.inj (Option.some.inj e1)
  refine ⟨boxes, cubes, g1, h5, g2, ?_, ?_⟩
  · have hq : quantizeEntries F entries maxColors = some (createResult (tablesOf F entries) cubes k) := by
      unfold quantizeEntries createBoxes
      simp only [if_neg (not_le.2 hm), range_map_succ]
      unfold tablesOf at h1 ⊢
      rw [h1]
      rfl
    rw [hq]
    unfold createResult
    rw [filterMap_boxColor h _ (partition_take h5 h6).1, nonEmpty_take h6]
  · rcases g3 with g3 | g3
    · refine Or.inl fun c hc => g3 c ?_
      exact List.mem_of_mem_filter (g2.mem_iff.1 hc)
    · refine Or.inr ?_
      have : (maxColors.toNat : Int) = maxColors := Int.toNat_of_nonneg hm.le
      rw [← this]
      exact_mod_cast g3

end

/-! ### The colours are different -/

theorem mean_bounds (w : Int → Int) (l : List Int) (a b : Int) (h : ∀ p ∈ l, a ≤ w p ∧ w p ≤ b) (hl : l ≠ []) :
    a ≤ (l.map w).sum / l.length ∧ (l.map w).sum / l.length ≤ b := by
  have hp : (0 : Int) < l.length := by exact_mod_cast List.length_pos_iff.2 hl
  have hs : a * l.length ≤ (l.map w).sum ∧ (l.map w).sum ≤ b * l.length := by
    clear hl hp
    induction l with
    | nil => simp
    | cons x rest ih =>
      obtain ⟨i1, i2⟩ := ih fun p hp => h p (List.mem_cons_of_mem _ hp)
      have := h x List.mem_cons_self
      rw [List.map_cons, List.sum_cons, List.length_cons]
      push_cast
      constructor <;> linarith
  exact ⟨(Int.le_ediv_iff_mul_le hp).2 hs.1, Int.ediv_le_of_le_mul hp (by linarith [hs.2])⟩

/-- The mean colour of a box lies in the box. -/
theorem mean_inBox {pixels : List Int} {c : Box} (h : pixelsIn pixels c ≠ []) : InBox c (meanColor pixels c) := by
  have hb : ∀ p ∈ pixelsIn pixels c, InBox c p := fun p hp => (mem_pixelsIn.1 hp).2.2
  have key : ∀ (w : Int → Int) (lo hi : Int), (∀ p, 0 ≤ w p ∧ w p ≤ 255) →
      (∀ p ∈ pixelsIn pixels c, lo < w p / 8 + 1 ∧ w p / 8 + 1 ≤ hi) →
      (lo < meanOf w pixels c / 8 + 1 ∧ meanOf w pixels c / 8 + 1 ≤ hi) ∧ 0 ≤ meanOf w pixels c ∧ meanOf w pixels c ≤ 255 := by
    intro w lo hi h0 h1
    have e : meanOf w pixels c = ((pixelsIn pixels c).map w).sum / (pixelsIn pixels c).length := by
      unfold meanOf; rw [pixelTotal_eq, pixelCount_eq]
    rw [e]
    have m1 := mean_bounds w _ (8 * lo) (8 * hi - 1) (fun p hp => by have := h1 p hp; omega) h
    have m2 := mean_bounds w _ 0 255 (fun p _ => h0 p) h
    omega
  have k1 := key redFromArgb c.r0 c.r1 (fun p => (channel_range p).1) fun p hp => (hb p hp).1
  have k2 := key greenFromArgb c.g0 c.g1 (fun p => (channel_range p).2.1) fun p hp => (hb p hp).2.1
  have k3 := key blueFromArgb c.b0 c.b1 (fun p => (channel_range p).2.2) fun p hp => (hb p hp).2.2
  have hr := c01_channels (meanOf redFromArgb pixels c) (meanOf greenFromArgb pixels c) (meanOf blueFromArgb pixels c)
  unfold InBox meanColor
  rw [hr.1, hr.2.1, hr.2.2.1]
  omega

/-- Picking a colour from every box of a partition gives different colours. -/
theorem pick_nodup {cubes : List Box} (hpart : Partition cubes) (f : Box → Int) (q : Box → Bool)
    (hf : ∀ c ∈ cubes, q c = true → InBox c (f c)) : ((cubes.filter q).map f).Nodup := by
  have h1 := fun p => pixel_in_one hpart p
  clear hpart
  have key : ∀ l : List Box, (∀ p, l.countP (fun c => decide (InBox c p)) ≤ 1) → (∀ c ∈ l, q c = true → InBox c (f c)) →
      ((l.filter q).map f).Nodup := by
    intro l
    induction l with
    | nil => intro _ _; exact List.nodup_nil
    | cons c rest ih =>
      intro hc hl
      have hr := ih (fun p => by
        have := hc p
        rw [List.countP_cons] at this
        omega) fun x hx => hl x (List.mem_cons_of_mem _ hx)
      by_cases hq : q c = true
      · rw [List.filter_cons_of_pos hq, List.map_cons, List.nodup_cons]
        refine ⟨?_, hr⟩
        intro hmem
        obtain ⟨x, hx, he⟩ := List.mem_map.1 hmem
        obtain ⟨hx1, hx2⟩ := List.mem_filter.1 hx
        have hin := hl x (List.mem_cons_of_mem _ hx1) hx2
        rw [he] at hin
        have h2 := hc (f c)
        rw [List.countP_cons, if_pos (by simpa using hl c List.mem_cons_self hq)] at h2
        have : 0 < rest.countP fun c' => decide (InBox c' (f c)) :=
          List.countP_pos_iff.2 ⟨x, hx1, by simpa using hin⟩
        omega
      · rw [List.filter_cons_of_neg hq]
        exact hr
  exact key cubes (fun p => (h1 p).le) hf

/-- C47: the returned colours are pairwise different. -/
theorem c47_distinct {F : Type} [Fl F] [WuArith F] (pixels : List Int) (entries : List (Int × Int))
    (h : CountsOf pixels entries) (maxColors : Int) (result : List Int)
    (hq : quantizeEntries F entries maxColors = some result) : result.Nodup := by
  have hm : 0 < maxColors := by
    by_contra hc
    rw [(c47_panics_iff (F := F) pixels entries h maxColors).2 (not_lt.1 hc)] at hq
    cases hq
  obtain ⟨cubes, h1, h2, h3⟩ := c47_result (F := F) pixels entries h maxColors hm
  rw [hq] at h3
  obtain rfl := Option.some.inj h3
  refine pick_nodup h1 _ _ fun c _ hc => mean_inBox ?_
  exact (pixelCount_pos _ _).1 (by simpa using hc)

/-! ### C70 -/

/-- C70: over exact reals, for every image with an opaque pixel and every positive number of colours, the result is the list
of mean colours of boxes obtained by greedy splitting: in every step the box with the largest spread, rounded up, among
those that can be split is split in the best way. -/
theorem c70_greedy (pixels : List Int) (entries : List (Int × Int)) (h : CountsOf pixels entries) (maxColors : Int)
    (hm : 0 < maxColors) (hp : ∃ p ∈ pixels, alphaFromArgb p = 255) :
    ∃ boxes result, Greedy pixels (BestSplit pixels) boxes ∧ quantizeEntries ℝ entries maxColors = some result ∧
      result.Perm (boxes.map (meanColor pixels)) := by
  obtain ⟨boxes, cubes, g1, -, g3, g4, -⟩ := wu_run h (exact_real h) maxColors hm hp
  exact ⟨boxes, _, g1, g4, (g3.map _).symm⟩

/-- C69 in binary64, for up to ten thousand million opaque pixels: the chosen cut is the best one up to a relative error. -/
theorem c69_binary64 (L : Libm) (pixels : List Int) (entries : List (Int × Int)) (h : CountsOf pixels entries)
    (hN : opaqueCount pixels ≤ 10 ^ 10) (c : Box) (hc : Proper c) :
    (∀ c1 c2, cut (computeMoments (constructHistogram entries) : Tables (F64 L)) c = some (c1, c2) →
      NearBestSplit pixels c c1 c2) ∧
    (cut (computeMoments (constructHistogram entries) : Tables (F64 L)) c = none ↔ ¬ Splittable pixels c) := by
  refine ⟨fun c1 c2 hcut => cut_near h hN hc hcut, fun hcut => (exact_near (L := L) h hN).cutNone hc hcut, ?_⟩
  intro hn
  by_contra hcut
  obtain ⟨⟨c1, c2⟩, he⟩ := Option.ne_none_iff_exists'.1 hcut
  exact hn ⟨c1, c2, cut_split h hc he⟩

/-- C70 in binary64, for up to ten thousand million opaque pixels: likewise, except that a cut is the best one up to a relative
error of `2⁻⁴⁸`; the choice of the box is not affected by rounding. -/
theorem c70_binary64 (L : Libm) (pixels : List Int) (entries : List (Int × Int)) (h : CountsOf pixels entries)
    (hN : opaqueCount pixels ≤ 10 ^ 10) (maxColors : Int) (hm : 0 < maxColors) (hp : ∃ p ∈ pixels, alphaFromArgb p = 255) :
    ∃ boxes result, Greedy pixels (NearBestSplit pixels) boxes ∧ quantizeEntries (F64 L) entries maxColors = some result ∧
      result.Perm (boxes.map (meanColor pixels)) := by
  obtain ⟨boxes, cubes, g1, -, g3, g4, -⟩ := wu_run h (exact_near h hN) maxColors hm hp
  exact ⟨boxes, _, g1, g4, (g3.map _).symm⟩

/-! ### C71 -/

/-- The cell of a colour: its channels in steps of 8. -/
def cellOf (p : Int) : Int × Int × Int := (redFromArgb p / 8, greenFromArgb p / 8, blueFromArgb p / 8)

/-- The number of different cells the opaque pixels of the image fall into. -/
def occupiedCells (pixels : List Int) : Nat :=
  ((pixels.filter fun p => decide (alphaFromArgb p = 255)).map cellOf).dedup.length

/-- C71, the property: as many colours as requested, or as there are different cells, if that is less. -/
def FullBudget (F : Type) [Fl F] : Prop :=
  ∀ (pixels : List Int) (entries : List (Int × Int)), CountsOf pixels entries → ∀ maxColors, 0 < maxColors →
    ∀ result, quantizeEntries F entries maxColors = some result →
      (result.length : Int) = min maxColors (occupiedCells pixels)

/-- A box that cannot be split has all its pixels in one cell. -/
theorem one_cell {pixels : List Int} {c : Box} (h : ¬ Splittable pixels c) {p q : Int} (hp : p ∈ pixelsIn pixels c)
    (hq : q ∈ pixelsIn pixels c) : cellOf p = cellOf q := by
  have key : ∀ (d : Direction) (x y : Int), x ∈ pixelsIn pixels c → y ∈ pixelsIn pixels c →
      ∀ w : Int → Int, (∀ v, InBox c v → lo c d < w v / 8 + 1 ∧ w v / 8 + 1 ≤ hi c d) →
      (∀ i v, InBox c v → w v / 8 + 1 ≤ i → InBox (lower c d i) v) →
      (∀ i v, InBox c v → i < w v / 8 + 1 → InBox (upper c d i) v) → ¬ w x / 8 < w y / 8 := by
    intro d x y hx hy w h1 h2 h3 hlt
    obtain ⟨x1, x2, x3⟩ := mem_pixelsIn.1 hx
    obtain ⟨y1, y2, y3⟩ := mem_pixelsIn.1 hy
    have bx := h1 x x3
    have bz := h1 y y3
    refine h ⟨_, _, (cutOf_iff _ _ _).2 ⟨d, w x / 8 + 1, bx.1, by omega, rfl, rfl⟩, ?_, ?_⟩
    · exact List.ne_nil_of_mem (mem_pixelsIn.2 ⟨x1, x2, h2 _ x x3 (le_refl _)⟩)
    · exact List.ne_nil_of_mem (mem_pixelsIn.2 ⟨y1, y2, h3 _ y y3 (by omega)⟩)
  have kr := fun x y hx hy => key .red x y hx hy redFromArgb (fun v hv => hv.1)
    (fun i v hv hi => ⟨⟨hv.1.1, hi⟩, hv.2⟩) (fun i v hv hi => ⟨⟨hi, hv.1.2⟩, hv.2⟩)
  have kg := fun x y hx hy => key .green x y hx hy greenFromArgb (fun v hv => hv.2.1)
    (fun i v hv hi => ⟨hv.1, ⟨hv.2.1.1, hi⟩, hv.2.2⟩) (fun i v hv hi => ⟨hv.1, ⟨hi, hv.2.1.2⟩, hv.2.2⟩)
  have kb := fun x y hx hy => key .blue x y hx hy blueFromArgb (fun v hv => hv.2.2)
    (fun i v hv hi => ⟨hv.1, hv.2.1, hv.2.2.1, hi⟩) (fun i v hv hi => ⟨hv.1, hv.2.1, hi, hv.2.2.2⟩)
  have r1 := kr p q hp hq
  have r2 := kr q p hq hp
  have g1 := kg p q hp hq
  have g2 := kg q p hq hp
  have b1 := kb p q hp hq
  have b2 := kb q p hq hp
  unfold cellOf
  rw [show redFromArgb p / 8 = redFromArgb q / 8 by omega, show greenFromArgb p / 8 = greenFromArgb q / 8 by omega,
    show blueFromArgb p / 8 = blueFromArgb q / 8 by omega]

theorem inBox_cell {c : Box} {p q : Int} (h : cellOf p = cellOf q) : InBox c p ↔ InBox c q := by
  unfold cellOf at h
  simp only [Prod.mk.injEq] at h
  unfold InBox
  rw [h.1, h.2.1, h.2.2]

open Classical in
/-- A pixel of the box, if there is one. -/
noncomputable def somePixel (pixels : List Int) (c : Box) : Int :=
  if h : pixelsIn pixels c ≠ [] then (pixelsIn pixels c).head h else 0

theorem somePixel_mem {pixels : List Int} {c : Box} (h : pixelsIn pixels c ≠ []) :
    somePixel pixels c ∈ pixelsIn pixels c := by
  unfold somePixel
  rw [dif_pos h]
  exact List.head_mem h

/-- The cells of pixels chosen one from each box. -/
theorem cells_of_boxes {pixels : List Int} {cubes : List Box} (hpart : Partition cubes) :
    ((nonEmpty pixels cubes).map fun c => cellOf (somePixel pixels c)).Nodup ∧
    ∀ x ∈ (nonEmpty pixels cubes).map fun c => cellOf (somePixel pixels c),
      x ∈ ((pixels.filter fun p => decide (alphaFromArgb p = 255)).map cellOf).dedup := by
  have hmem : ∀ c ∈ nonEmpty pixels cubes, somePixel pixels c ∈ pixelsIn pixels c := by
    intro c hc
    exact somePixel_mem (by simpa using (List.mem_filter.1 hc).2)
  constructor
  · have hn : ((nonEmpty pixels cubes).map (somePixel pixels)).Nodup :=
      pick_nodup hpart _ _ fun c _ hc => (mem_pixelsIn.1 (somePixel_mem (by simpa using hc))).2.2
    have hinj : ∀ c ∈ nonEmpty pixels cubes, ∀ c' ∈ nonEmpty pixels cubes,
        cellOf (somePixel pixels c) = cellOf (somePixel pixels c') → c = c' := by
      intro c hc c' hc' he
      have h1 := (mem_pixelsIn.1 (hmem c hc)).2.2
      have h2 := (mem_pixelsIn.1 (hmem c' hc')).2.2
      have h3 := (inBox_cell he).1 h1
      by_contra hne
      have h4 := pixel_in_one hpart (somePixel pixels c')
      have hc1 := List.mem_of_mem_filter hc
      have hc2 := List.mem_of_mem_filter hc'
      obtain ⟨s, t, rfl⟩ := List.append_of_mem hc1
      rw [List.countP_append, List.countP_cons, if_pos (by simpa using h3)] at h4
      rcases List.mem_append.1 hc2 with hm | hm
      · have : 0 < s.countP fun c => decide (InBox c (somePixel pixels c')) :=
          List.countP_pos_iff.2 ⟨c', hm, by simpa using h2⟩
        omega
      · rcases List.mem_cons.1 hm with hm | hm
        · exact hne hm.symm
        · have : 0 < t.countP fun c => decide (InBox c (somePixel pixels c')) :=
            List.countP_pos_iff.2 ⟨c', hm, by simpa using h2⟩
          omega
    have hnn : (nonEmpty pixels cubes).Nodup := List.Nodup.of_map _ hn
    exact List.Nodup.map_on hinj hnn
  · intro x hx
    obtain ⟨c, hc, rfl⟩ := List.mem_map.1 hx
    obtain ⟨h1, h2, -⟩ := mem_pixelsIn.1 (hmem c hc)
    rw [List.mem_dedup]
    exact List.mem_map.2 ⟨_, List.mem_filter.2 ⟨h1, by simpa using h2⟩, rfl⟩

theorem cells_le {pixels : List Int} {cubes : List Box} (hpart : Partition cubes) :
    (nonEmpty pixels cubes).length ≤ occupiedCells pixels := by
  obtain ⟨h1, h2⟩ := cells_of_boxes (pixels := pixels) hpart
  have := (List.subperm_of_subset h1 h2).length_le
  rwa [List.length_map] at this

theorem cells_ge {pixels : List Int} {cubes : List Box} (hpart : Partition cubes)
    (hs : ∀ c ∈ nonEmpty pixels cubes, ¬ Splittable pixels c) : occupiedCells pixels ≤ (nonEmpty pixels cubes).length := by
  have h : ∀ x ∈ ((pixels.filter fun p => decide (alphaFromArgb p = 255)).map cellOf).dedup,
      x ∈ (nonEmpty pixels cubes).map fun c => cellOf (somePixel pixels c) := by
    intro x hx
    rw [List.mem_dedup] at hx
    obtain ⟨p, hp, rfl⟩ := List.mem_map.1 hx
    obtain ⟨p1, p2⟩ := List.mem_filter.1 hp
    have hone := pixel_in_one hpart p
    obtain ⟨c, hc, hin⟩ := List.countP_pos_iff.1 (by rw [hone]; norm_num : 0 < cubes.countP fun c => decide (InBox c p))
    have hpc : p ∈ pixelsIn pixels c := mem_pixelsIn.2 ⟨p1, by simpa using p2, by simpa using hin⟩
    have hne := List.ne_nil_of_mem hpc
    have hcm : c ∈ nonEmpty pixels cubes := List.mem_filter.2 ⟨hc, by simpa using hne⟩
    exact List.mem_map.2 ⟨c, hcm, one_cell (hs c hcm) (somePixel_mem hne) hpc⟩
  have := (List.subperm_of_subset (List.nodup_dedup _) h).length_le
  rwa [List.length_map] at this

/-- No two different colours of the image share a cell. -/
def OneColorPerCell (pixels : List Int) : Prop :=
  ∀ p ∈ pixels, ∀ q ∈ pixels, alphaFromArgb p = 255 → alphaFromArgb q = 255 → cellOf p = cellOf q →
    (redFromArgb p, greenFromArgb p, blueFromArgb p) = (redFromArgb q, greenFromArgb q, blueFromArgb q)

section
variable {F : Type} [Fl F] [WuArith F]

/-- At most as many colours as cells. -/
theorem budget_le (pixels : List Int) (entries : List (Int × Int)) (h : CountsOf pixels entries) (maxColors : Int)
    (result : List Int) (hq : quantizeEntries F entries maxColors = some result) :
    (result.length : Int) ≤ min maxColors (occupiedCells pixels) := by
  have hm : 0 < maxColors := by
    by_contra hc
    rw [(c47_panics_iff (F := F) pixels entries h maxColors).2 (not_lt.1 hc)] at hq
    cases hq
  obtain ⟨cubes, h1, h2, h3⟩ := c47_result (F := F) pixels entries h maxColors hm
  rw [hq] at h3
  obtain rfl := Option.some.inj h3
  have e : (cubes.filter fun c => decide (0 < pixelCount pixels c)) = nonEmpty pixels cubes := by
    unfold nonEmpty
    congr 1
    funext c
    rw [decide_eq_decide]
    exact pixelCount_pos pixels c
  rw [List.length_map, e]
  have := cells_le (pixels := pixels) h1
  have h4 : (nonEmpty pixels cubes).length ≤ cubes.length := List.length_filter_le _ _
  omega

theorem budget_blocked {isInt : F → Int → Prop} {split : Box → Box → Box → Prop} {pixels : List Int}
    {entries : List (Int × Int)} (h : CountsOf pixels entries) (ex : ExactArith isInt split (tablesOf F entries) pixels)
    (maxColors : Int) (hm : 0 < maxColors) (result : List Int) (hq : quantizeEntries F entries maxColors = some result) :
    ∃ boxes : List Box, (∃ cubes, Partition cubes ∧ boxes.Perm (nonEmpty pixels cubes)) ∧ result.Perm (boxes.map (meanColor pixels)) ∧
      ((∀ c ∈ boxes, ¬ Splittable pixels c) ∧ result.length = occupiedCells pixels ∨
        open Classical in maxColors ≤ result.length + (boxes.countP fun c => decide (Blocked pixels c) : Nat)) := by
  classical
  by_cases hp : ∃ p ∈ pixels, alphaFromArgb p = 255
  · obtain ⟨boxes, cubes, g1, g2, g3, g4, g5⟩ := wu_run h ex maxColors hm hp
    rw [hq] at g4
    obtain rfl := Option.some.inj g4
    refine ⟨boxes, ⟨cubes, g2, g3⟩, (g3.map _).symm, ?_⟩
    rw [List.length_map, ← g3.length_eq]
    rcases g5 with g5 | g5
    · refine Or.inl ⟨g5, ?_⟩
      rw [g3.length_eq]
      exact le_antisymm (cells_le g2) (cells_ge g2 fun c hc => g5 c (g3.mem_iff.2 hc))
    · exact Or.inr g5
  · obtain ⟨cubes, h1, h2, h3⟩ := c47_result (F := F) pixels entries h maxColors hm
    rw [hq] at h3
    obtain rfl := Option.some.inj h3
    have hnil : ∀ c, pixelsIn pixels c = [] := by
      intro c
      by_contra hne
      obtain ⟨p, hpm⟩ := List.exists_mem_of_ne_nil _ hne
      obtain ⟨a1, a2, -⟩ := mem_pixelsIn.1 hpm
      exact hp ⟨p, a1, a2⟩
    have e : (cubes.filter fun c => decide (0 < pixelCount pixels c)) = [] := by
      rw [List.filter_eq_nil_iff]
      intro c _
      rw [decide_eq_true_eq, pixelCount_pos]
      exact fun hn => hn (hnil c)
    have e' : nonEmpty pixels cubes = [] := by
      unfold nonEmpty
      rw [List.filter_eq_nil_iff]
      intro c _
      rw [decide_eq_true_eq]
      exact fun hn => hn (hnil c)
    have hocc : occupiedCells pixels = 0 := by
      have hf : pixels.filter (fun p => decide (alphaFromArgb p = 255)) = [] := by
        rw [List.filter_eq_nil_iff]
        intro p hpm
        simp only [decide_eq_true_eq]
        exact fun ha => hp ⟨p, hpm, ha⟩
      unfold occupiedCells
      rw [hf]
      rfl
    refine ⟨[], ⟨cubes, h1, by rw [e']⟩, by rw [e], Or.inl ⟨by simp, ?_⟩⟩
    rw [e, hocc]
    rfl

/-! #### A failed cut costs a colour -/

theorem wasted {isInt : F → Int → Prop} {split : Box → Box → Box → Prop} {pixels : List Int} {entries : List (Int × Int)}
    (h : CountsOf pixels entries) (ex : ExactArith isInt split (tablesOf F entries) pixels)
    (hw : ∀ c1 c2, split firstBox c1 c2 → ¬ Splittable pixels c1 ∧ 1 < c1.vol ∧ rank pixels c2 < rank pixels c1)
    (result : List Int) (hq : quantizeEntries F entries 3 = some result) : result.length ≤ 2 := by
  have hfirst : Proper firstBox := by unfold Proper firstBox maxIndex; decide
  have hzero : Proper {} := by unfold Proper; decide
  have e00 : (0.0 : F) ≤ 0.0 := (ex.le ex.zero ex.zero).2 (le_refl _)
  have hlast : boxColor (tablesOf F entries) {} = none := by
    rw [boxColor_eq h hzero, if_neg]
    rw [pixelCount_pos]
    exact fun hn => hn (by simpa using unused_not pixels)
  have hlen : ∀ (a b : Box) (k : Nat), (createResult (tablesOf F entries) [a, b, {}] k).length ≤ 2 := by
    intro a b k
    unfold createResult
    have h1 : ((List.take k [a, b, {}]).filterMap (boxColor (tablesOf F entries))).length ≤
        ([a, b, {}].filterMap (boxColor (tablesOf F entries))).length :=
      ((List.take_sublist k _).filterMap _).length_le
    have h2 : [a, b, {}].filterMap (boxColor (tablesOf F entries)) = [a, b].filterMap (boxColor (tablesOf F entries)) := by
      rw [show ([a, b, {}] : List Box) = [a, b] ++ [{}] from rfl, List.filterMap_append, List.filterMap_cons_none hlast]
      simp
    rw [h2] at h1
    exact h1.trans ((List.length_filterMap_le _ _).trans (by simp))
  have hloop : ∃ a b k, createBoxes (tablesOf F entries) 3 = some ([a, b, {}], k) := by
    have hcb : createBoxes (tablesOf F entries) 3 =
        boxLoop (tablesOf F entries) 3 [1, 2] 0 [0.0, 0.0, 0.0] [firstBox, {}, {}] := rfl
    rw [hcb]
    simp only [boxLoop, List.getD_cons_zero]
    cases hcut : cut (tablesOf F entries) firstBox with
    | none =>
      refine ⟨firstBox, {}, 1, ?_⟩
      simp only
      rw [if_pos (show (argmax ([0.0, 0.0, 0.0].set 0 0.0) (1 - 1)).2 ≤ (0.0 : F) from e00)]
    | some pr =>
      obtain ⟨c1, c2⟩ := pr
      obtain ⟨s1, hcutof, n1, n2⟩ := ex.cutSome hfirst hcut
      obtain ⟨w1, w2, w3⟩ := hw c1 c2 s1
      obtain ⟨d, p, l1, l2, e1, e2⟩ := (cutOf_iff _ _ _).1 hcutof
      obtain ⟨pp1, pp2⟩ := proper_split hfirst d p ⟨l1, l2⟩
      rw [← e1] at pp1
      rw [← e2] at pp2
      obtain ⟨v1, hv1, iv1⟩ := ex.recorded pp1 n1
      obtain ⟨v2, hv2, iv2⟩ := ex.recorded pp2 n2
      rw [if_pos w2] at iv1
      refine ⟨c1, c2, ?_⟩
      simp only [hv1, hv2, Option.bind_eq_bind, Option.bind_some]
      set z : Nat → Int := fun j => if j = 1 then (if c2.vol > 1 then rank pixels c2 else 0) else
        if j = 0 then rank pixels c1 else 0
      obtain ⟨b1, b2, b3⟩ := argmax_best ex [v1, v2, 0.0] z 1 (by
        intro j hj
        interval_cases j
        · exact iv1
        · exact iv2)
      simp only [List.set_cons_zero, List.set_cons_succ]
      have hbest : (argmax [v1, v2, 0.0] 1).1 = 0 := by
        by_contra hne
        have h1 : (argmax [v1, v2, 0.0] 1).1 = 1 := by omega
        have := b3 0 (by omega)
        rw [h1] at this
        simp only [z, if_pos, if_neg (zero_ne_one' Nat)] at this
        have hr := rank_nonneg pixels c2
        split_ifs at this <;> omega
      have hcut2 : cut (tablesOf F entries) c1 = none := by
        by_contra hc
        obtain ⟨⟨d1, d2⟩, he⟩ := Option.ne_none_iff_exists'.1 hc
        exact w1 ⟨d1, d2, (ex.cutSome pp1 he).2⟩
      simp only [hbest, List.getD_cons_zero, hcut2]
      split_ifs
      · exact ⟨_, rfl⟩
      · exact ⟨_, rfl⟩
      · exact ⟨_, rfl⟩
  obtain ⟨a, b, k, hk⟩ := hloop
  have : quantizeEntries F entries 3 = some (createResult (tablesOf F entries) [a, b, {}] k) := by
    unfold quantizeEntries
    change (createBoxes (tablesOf F entries) 3 >>= _) = _
    rw [hk]
    rfl
  rw [this] at hq
  obtain rfl := Option.some.inj hq
  exact hlen a b k

end

/-- The image of the counterexample: two greys near black, two colours near white. -/
def wasteful : List Int := [0xFF000000, 0xFF070707, 0xFFFFFFFF, 0xFFFFFFF7]

/-- The two ways to separate its colours by a cut. -/
theorem wasteful_cuts : ∀ d : Direction, ∀ p : Int, lo firstBox d < p → p < hi firstBox d →
    (pixelsIn wasteful (lower firstBox d p) = [0xFF000000, 0xFF070707] ∧
      pixelsIn wasteful (upper firstBox d p) = [0xFFFFFFFF, 0xFFFFFFF7]) ∨
    (pixelsIn wasteful (lower firstBox d p) = [0xFF000000, 0xFF070707, 0xFFFFFFF7] ∧
      pixelsIn wasteful (upper firstBox d p) = [0xFFFFFFFF]) := by
  intro d p h1 h2
  cases d <;> simp only [lo, hi, firstBox, maxIndex] at h1 h2 <;> interval_cases p <;> decide

theorem chan_values : (redFromArgb 0xFF000000 = 0 ∧ greenFromArgb 0xFF000000 = 0 ∧ blueFromArgb 0xFF000000 = 0) ∧
    (redFromArgb 0xFF070707 = 7 ∧ greenFromArgb 0xFF070707 = 7 ∧ blueFromArgb 0xFF070707 = 7) ∧
    (redFromArgb 0xFFFFFFFF = 255 ∧ greenFromArgb 0xFFFFFFFF = 255 ∧ blueFromArgb 0xFFFFFFFF = 255) ∧
    (redFromArgb 0xFFFFFFF7 = 255 ∧ greenFromArgb 0xFFFFFFF7 = 255 ∧ blueFromArgb 0xFFFFFFF7 = 247) := by decide

theorem spreads : spread [0xFF000000, 0xFF070707] = 147 / 2 ∧ spread [0xFFFFFFFF, 0xFFFFFFF7] = 32 ∧
    1000 < spread [0xFF000000, 0xFF070707, 0xFFFFFFF7] ∧ 0 ≤ spread [0xFFFFFFFF] := by
  obtain ⟨⟨a1, a2, a3⟩, ⟨b1, b2, b3⟩, ⟨c1, c2, c3⟩, ⟨d1, d2, d3⟩⟩ := chan_values
  refine ⟨?_, ?_, ?_, spread_nonneg _⟩ <;> rw [spread_eq] <;>
    simp only [List.map_cons, List.map_nil, List.sum_cons, List.sum_nil, squared, a1, a2, a3, b1, b2, b3, c1, c2, c3, d1, d2, d3,
      List.length_cons, List.length_nil] <;> norm_num

theorem wasteful_squares : sumSquares (pixelsIn wasteful firstBox) ≤ 10 ^ 6 := by
  have : pixelsIn wasteful firstBox = wasteful := by decide
  rw [this]
  obtain ⟨⟨a1, a2, a3⟩, ⟨b1, b2, b3⟩, ⟨c1, c2, c3⟩, ⟨d1, d2, d3⟩⟩ := chan_values
  unfold sumSquares wasteful
  simp only [List.map_cons, List.map_nil, List.sum_cons, List.sum_nil, a1, a2, a3, b1, b2, b3, c1, c2, c3, d1, d2, d3]
  norm_num

/-- The first cut of the image leaves the two greys in one box. -/
theorem wasteful_first (c1 c2 : Box) (h : NearBestSplit wasteful firstBox c1 c2) :
    ¬ Splittable wasteful c1 ∧ 1 < c1.vol ∧ rank wasteful c2 < rank wasteful c1 := by
  obtain ⟨⟨ha, n1, n2⟩, hbest⟩ := h
  obtain ⟨s1, s2, s3, s4⟩ := spreads
  obtain ⟨d, p, l1, l2, rfl, rfl⟩ := (cutOf_iff _ _ _).1 ha
  have hmid := hbest _ _ ⟨CutOf.red 16 (by decide), by decide, by decide⟩
  have m1 : pixelsIn wasteful (withVol { firstBox with r1 := 16 }) = [0xFF000000, 0xFF070707] := by decide
  have m2 : pixelsIn wasteful (withVol { firstBox with r0 := 16 }) = [0xFFFFFFFF, 0xFFFFFFF7] := by decide
  rw [m1, m2, s1, s2] at hmid
  simp only [pixelsIn_withVol] at hmid n1 n2
  have herr : (2:ℝ) ^ (-48 : ℤ) * sumSquares (pixelsIn wasteful firstBox) ≤ 1 := by
    have := wasteful_squares
    calc (2:ℝ) ^ (-48 : ℤ) * sumSquares (pixelsIn wasteful firstBox) ≤ 2 ^ (-48 : ℤ) * 10 ^ 6 := by gcongr
      _ ≤ 1 := by rw [zpow_neg]; norm_num
  rcases wasteful_cuts d p l1 l2 with ⟨q1, q2⟩ | ⟨q1, q2⟩
  · refine ⟨?_, ?_, ?_⟩
    · rintro ⟨e1, e2, he, k1, k2⟩
      obtain ⟨d', p', l1', l2', rfl, rfl⟩ := (cutOf_iff _ _ _).1 he
      obtain ⟨x, hx⟩ := List.exists_mem_of_ne_nil _ k1
      obtain ⟨y, hy⟩ := List.exists_mem_of_ne_nil _ k2
      have sub : ∀ z, z ∈ pixelsIn wasteful (withVol (lower firstBox d p)) → cellOf z = (0, 0, 0) := by
        intro z hz
        rw [pixelsIn_withVol, q1] at hz
        rcases List.mem_cons.1 hz with rfl | hz
        · decide
        · rw [List.mem_singleton.1 hz]; decide
      have hx' := mem_pixelsIn.1 hx
      have hy' := mem_pixelsIn.1 hy
      have hsplit := inBox_split (withVol (lower firstBox d p)) d' p' ⟨l1', l2'⟩
      have cx := sub x (mem_pixelsIn.2 ⟨hx'.1, hx'.2.1, (hsplit x).1.2 (Or.inl hx'.2.2)⟩)
      have cy := sub y (mem_pixelsIn.2 ⟨hy'.1, hy'.2.1, (hsplit y).1.2 (Or.inr hy'.2.2)⟩)
      exact (hsplit y).2 ⟨(inBox_cell (cx.trans cy.symm)).1 hx'.2.2, hy'.2.2⟩
    · cases d <;> simp only [lo, hi, firstBox, maxIndex] at l1 l2 <;> simp only [withVol, lower, firstBox, maxIndex] <;> omega
    · unfold rank
      rw [pixelsIn_withVol, pixelsIn_withVol, q1, q2, s1, s2]
      rw [show (32:ℝ) = ((32:ℤ):ℝ) by norm_num, Int.ceil_intCast, Int.lt_ceil]
      norm_num
  · rw [q1, q2] at hmid
    generalize (2:ℝ) ^ (-48 : ℤ) * sumSquares (pixelsIn wasteful firstBox) = E at hmid herr
    linarith

theorem wasteful_cells : occupiedCells wasteful = 3 := by decide

theorem wasteful_counts : CountsOf wasteful (QuantizerMap.quantize wasteful) := List.Perm.refl _

theorem violated_of {F : Type} [Fl F] [WuArith F] {isInt : F → Int → Prop} {split : Box → Box → Box → Prop}
    (ex : ExactArith isInt split (tablesOf F (QuantizerMap.quantize wasteful)) wasteful)
    (hw : ∀ c1 c2, split firstBox c1 c2 → NearBestSplit wasteful firstBox c1 c2) : ¬ FullBudget F := by
  intro hf
  obtain ⟨cubes, -, -, h3⟩ := c47_result (F := F) wasteful _ wasteful_counts 3 (by norm_num)
  have h4 := hf wasteful _ wasteful_counts 3 (by norm_num) _ h3
  have h5 := wasted wasteful_counts ex (fun c1 c2 hs => wasteful_first c1 c2 (hw c1 c2 hs)) _ h3
  rw [wasteful_cells] at h4
  rw [show min (3:Int) ((3:Nat):Int) = 3 from rfl] at h4
  omega

theorem best_near {pixels : List Int} {c c1 c2 : Box} (h : BestSplit pixels c c1 c2) : NearBestSplit pixels c c1 c2 := by
  refine ⟨h.1, fun a1 a2 ha => (h.2 a1 a2 ha).trans ?_⟩
  have h1 : 0 ≤ sumSquares (pixelsIn pixels c) := by
    unfold sumSquares
    refine List.sum_nonneg ?_
    intro x hx
    obtain ⟨p, -, rfl⟩ := List.mem_map.1 hx
    positivity
  have h2 : (0:ℝ) ≤ 2 ^ (-48 : ℤ) := by positivity
  linarith [mul_nonneg h2 h1]

/-- C71 does not hold: for an image whose four colours fall into three cells, asking for three colours gives only two.
After the first cut the box with the larger spread cannot be cut, and the failed attempt uses up one of the colours. -/
theorem c71_violated : ¬ FullBudget ℝ :=
  violated_of (exact_real wasteful_counts) fun _ _ h => best_near h

/-- C71 does not hold in binary64 either. -/
theorem c71_violated_binary64 (L : Libm) : ¬ FullBudget (F64 L) :=
  violated_of (exact_near (L := L) wasteful_counts (by decide)) fun _ _ h => h

/-! #### What does hold -/

/-- C71, the upper half, in exact and in binary64 arithmetic: never more colours than requested, never more than there are
cells. -/
theorem c71_at_most_partial {F : Type} [Fl F] [WuArith F] (pixels : List Int) (entries : List (Int × Int))
    (h : CountsOf pixels entries) (maxColors : Int) (result : List Int)
    (hq : quantizeEntries F entries maxColors = some result) :
    (result.length : Int) ≤ min maxColors (occupiedCells pixels) := budget_le pixels entries h maxColors result hq

section
variable {F : Type} [Fl F] [WuArith F] {isInt : F → Int → Prop} {split : Box → Box → Box → Prop} {pixels : List Int}
  {entries : List (Int × Int)}

theorem shortfall (h : CountsOf pixels entries) (ex : ExactArith isInt split (tablesOf F entries) pixels)
    (maxColors : Int) (result : List Int) (hq : quantizeEntries F entries maxColors = some result) :
    ∃ boxes : List Box, (∃ cubes, Partition cubes ∧ boxes.Perm (nonEmpty pixels cubes)) ∧ result.Perm (boxes.map (meanColor pixels)) ∧
      open Classical in
        min maxColors (occupiedCells pixels) ≤ result.length + (boxes.countP fun c => decide (Blocked pixels c) : Nat) := by
  classical
  have hm : 0 < maxColors := by
    by_contra hc
    rw [(c47_panics_iff (F := F) pixels entries h maxColors).2 (not_lt.1 hc)] at hq
    cases hq
  obtain ⟨boxes, h1, h2, h3⟩ := budget_blocked h ex maxColors hm result hq
  refine ⟨boxes, h1, h2, ?_⟩
  rcases h3 with ⟨-, h3⟩ | h3
  · rw [h3]; omega
  · omega

/-- Boxes are blocked only by different colours in the same cell. -/
theorem not_blocked (ho : OneColorPerCell pixels) (c : Box) : ¬ Blocked pixels c := by
  rintro ⟨h1, p, hp, q, hq, hne⟩
  have hp' := mem_pixelsIn.1 hp
  have hq' := mem_pixelsIn.1 hq
  exact hne (ho p hp'.1 q hq'.1 hp'.2.1 hq'.2.1 (one_cell h1 hp hq))

theorem full_budget (h : CountsOf pixels entries) (ex : ExactArith isInt split (tablesOf F entries) pixels)
    (ho : OneColorPerCell pixels) (maxColors : Int) (result : List Int)
    (hq : quantizeEntries F entries maxColors = some result) :
    (result.length : Int) = min maxColors (occupiedCells pixels) := by
  classical
  obtain ⟨boxes, -, -, h3⟩ := shortfall h ex maxColors result hq
  have h0 : (boxes.countP fun c => decide (Blocked pixels c)) = 0 := by
    rw [List.countP_eq_zero]
    intro c _ hc
    exact not_blocked ho c (by simpa using hc)
  rw [h0] at h3
  have := budget_le pixels entries h maxColors result hq
  push_cast at h3
  omega

theorem mean_const (w : Int → Int) (l : List Int) (a : Int) (h : ∀ p ∈ l, w p = a) (hl : l ≠ []) :
    (l.map w).sum / l.length = a := by
  have := mean_bounds w l a a (fun p hp => by rw [h p hp]; omega) hl
  omega

/-- If there are as many boxes as cells, no box can be split. -/
theorem unsplittable_of_count {cubes : List Box} (hpart : Partition cubes)
    (he : occupiedCells pixels ≤ (nonEmpty pixels cubes).length) : ∀ c ∈ nonEmpty pixels cubes, ¬ Splittable pixels c := by
  obtain ⟨h1, h2⟩ := cells_of_boxes (pixels := pixels) hpart
  have hperm := (List.subperm_of_subset h1 h2).perm_of_length_le (by rw [List.length_map]; exact he)
  have uniq : ∀ c ∈ nonEmpty pixels cubes, ∀ p, p ∈ pixelsIn pixels c → cellOf p = cellOf (somePixel pixels c) := by
    intro c hc p hp
    have hp' := mem_pixelsIn.1 hp
    have hmem : cellOf p ∈ ((pixels.filter fun p => decide (alphaFromArgb p = 255)).map cellOf).dedup := by
      rw [List.mem_dedup]
      exact List.mem_map.2 ⟨p, List.mem_filter.2 ⟨hp'.1, by simpa using hp'.2.1⟩, rfl⟩
    obtain ⟨c', hc', he'⟩ := List.mem_map.1 (hperm.mem_iff.2 hmem)
    have hsome := somePixel_mem (pixels := pixels) (c := c') (by simpa using (List.mem_filter.1 hc').2)
    have hin : InBox c' p := (inBox_cell he').1 (mem_pixelsIn.1 hsome).2.2
    have : c = c' := by
      by_contra hne
      have h4 := pixel_in_one hpart p
      obtain ⟨s, t, rfl⟩ := List.append_of_mem (List.mem_of_mem_filter hc)
      rw [List.countP_append, List.countP_cons, if_pos (by simpa using hp'.2.2)] at h4
      rcases List.mem_append.1 (List.mem_of_mem_filter hc') with hm | hm
      · have : 0 < s.countP fun c => decide (InBox c p) := List.countP_pos_iff.2 ⟨c', hm, by simpa using hin⟩
        omega
      · rcases List.mem_cons.1 hm with hm | hm
        · exact hne hm.symm
        · have : 0 < t.countP fun c => decide (InBox c p) := List.countP_pos_iff.2 ⟨c', hm, by simpa using hin⟩
          omega
    rw [this, ← he']
  rintro c hc ⟨c1, c2, ha, n1, n2⟩
  obtain ⟨d, p, l1, l2, rfl, rfl⟩ := (cutOf_iff _ _ _).1 ha
  obtain ⟨x, hx⟩ := List.exists_mem_of_ne_nil _ n1
  obtain ⟨y, hy⟩ := List.exists_mem_of_ne_nil _ n2
  have hx' := mem_pixelsIn.1 hx
  have hy' := mem_pixelsIn.1 hy
  have hs := inBox_split c d p ⟨l1, l2⟩
  have cx := uniq c hc x (mem_pixelsIn.2 ⟨hx'.1, hx'.2.1, (hs x).1.2 (Or.inl hx'.2.2)⟩)
  have cy := uniq c hc y (mem_pixelsIn.2 ⟨hy'.1, hy'.2.1, (hs y).1.2 (Or.inr hy'.2.2)⟩)
  exact (hs y).2 ⟨(inBox_cell (cx.trans cy.symm)).1 hx'.2.2, hy'.2.2⟩

theorem lossless (h : CountsOf pixels entries) (ex : ExactArith isInt split (tablesOf F entries) pixels)
    (ho : OneColorPerCell pixels) (maxColors : Int) (hm : (occupiedCells pixels : Int) ≤ maxColors) (result : List Int)
    (hq : quantizeEntries F entries maxColors = some result) (color : Int) :
    color ∈ result ↔ ∃ p ∈ pixels, alphaFromArgb p = 255 ∧
      color = argbFromRgb (redFromArgb p) (greenFromArgb p) (blueFromArgb p) := by
  classical
  have hpos : 0 < maxColors := by
    by_contra hc
    rw [(c47_panics_iff (F := F) pixels entries h maxColors).2 (not_lt.1 hc)] at hq
    cases hq
  obtain ⟨boxes, ⟨cubes, c1, c2⟩, h2, -⟩ := budget_blocked h ex maxColors hpos result hq
  have hlen := full_budget h ex ho maxColors result hq
  have hs : ∀ c ∈ boxes, ¬ Splittable pixels c := by
    intro c hc
    refine unsplittable_of_count c1 ?_ c (c2.mem_iff.1 hc)
    have := h2.length_eq
    rw [List.length_map, c2.length_eq] at this
    omega
  have mean_of : ∀ c p, ¬ Splittable pixels c → p ∈ pixelsIn pixels c →
      meanColor pixels c = argbFromRgb (redFromArgb p) (greenFromArgb p) (blueFromArgb p) := by
    intro c p hsc hp
    have same : ∀ x ∈ pixelsIn pixels c, (redFromArgb x, greenFromArgb x, blueFromArgb x) =
        (redFromArgb p, greenFromArgb p, blueFromArgb p) := by
      intro x hx
      have hx' := mem_pixelsIn.1 hx
      have hp' := mem_pixelsIn.1 hp
      exact ho x hx'.1 p hp'.1 hx'.2.1 hp'.2.1 (one_cell hsc hx hp)
    have hne := List.ne_nil_of_mem hp
    simp only [Prod.mk.injEq] at same
    unfold meanColor meanOf
    rw [pixelTotal_eq, pixelTotal_eq, pixelTotal_eq, pixelCount_eq,
      mean_const redFromArgb _ _ (fun x hx => (same x hx).1) hne,
      mean_const greenFromArgb _ _ (fun x hx => (same x hx).2.1) hne,
      mean_const blueFromArgb _ _ (fun x hx => (same x hx).2.2) hne]
  rw [h2.mem_iff, List.mem_map]
  constructor
  · rintro ⟨c, hc, rfl⟩
    have hne : pixelsIn pixels c ≠ [] := by simpa using (List.mem_filter.1 (c2.mem_iff.1 hc)).2
    obtain ⟨p, hp⟩ := List.exists_mem_of_ne_nil _ hne
    have hp' := mem_pixelsIn.1 hp
    exact ⟨p, hp'.1, hp'.2.1, mean_of c p (hs c hc) hp⟩
  · rintro ⟨p, hp, ha, rfl⟩
    have hone := pixel_in_one c1 p
    obtain ⟨c, hc, hin⟩ := List.countP_pos_iff.1 (by rw [hone]; norm_num : 0 < cubes.countP fun c => decide (InBox c p))
    have hpc : p ∈ pixelsIn pixels c := mem_pixelsIn.2 ⟨hp, ha, by simpa using hin⟩
    have hcm : c ∈ boxes := c2.mem_iff.2 (List.mem_filter.2 ⟨hc, by simpa using List.ne_nil_of_mem hpc⟩)
    exact ⟨c, hcm, mean_of c p (hs c hcm) hpc⟩

end

/-- C71: the number of colours falls short of what it should be by at most the number of final boxes that contain different
colours all lying in one cell. -/
theorem c71_shortfall_partial (pixels : List Int) (entries : List (Int × Int)) (h : CountsOf pixels entries)
    (maxColors : Int) (result : List Int) (hq : quantizeEntries ℝ entries maxColors = some result) :
    ∃ boxes : List Box, (∃ cubes, Partition cubes ∧ boxes.Perm (nonEmpty pixels cubes)) ∧ result.Perm (boxes.map (meanColor pixels)) ∧
      open Classical in
        min maxColors (occupiedCells pixels) ≤ result.length + (boxes.countP fun c => decide (Blocked pixels c) : Nat) :=
  shortfall h (exact_real h) maxColors result hq

/-- C71 for images in which no two different colours share a cell: exactly the requested number of colours, or as many as
there are cells if that is less. -/
theorem c71_separate_colors_partial (pixels : List Int) (entries : List (Int × Int)) (h : CountsOf pixels entries)
    (ho : OneColorPerCell pixels) (maxColors : Int) (result : List Int)
    (hq : quantizeEntries ℝ entries maxColors = some result) :
    (result.length : Int) = min maxColors (occupiedCells pixels) := full_budget h (exact_real h) ho maxColors result hq

/-- The same in binary64. -/
theorem c71_separate_colors_binary64_partial (L : Libm) (pixels : List Int) (entries : List (Int × Int))
    (h : CountsOf pixels entries) (hN : opaqueCount pixels ≤ 10 ^ 10) (ho : OneColorPerCell pixels) (maxColors : Int)
    (result : List Int) (hq : quantizeEntries (F64 L) entries maxColors = some result) :
    (result.length : Int) = min maxColors (occupiedCells pixels) :=
  full_budget h (exact_near (L := L) h hN) ho maxColors result hq

/-- C71: if moreover at least as many colours are requested as there are cells, the result consists of exactly the opaque colours of
the image. -/
theorem c71_lossless_partial (pixels : List Int) (entries : List (Int × Int)) (h : CountsOf pixels entries)
    (ho : OneColorPerCell pixels) (maxColors : Int) (hm : (occupiedCells pixels : Int) ≤ maxColors) (result : List Int)
    (hq : quantizeEntries ℝ entries maxColors = some result) (color : Int) :
    color ∈ result ↔ ∃ p ∈ pixels, alphaFromArgb p = 255 ∧
      color = argbFromRgb (redFromArgb p) (greenFromArgb p) (blueFromArgb p) :=
  lossless h (exact_real h) ho maxColors hm result hq color

/-- The same in binary64. -/
theorem c71_lossless_binary64_partial (L : Libm) (pixels : List Int) (entries : List (Int × Int))
    (h : CountsOf pixels entries) (hN : opaqueCount pixels ≤ 10 ^ 10) (ho : OneColorPerCell pixels) (maxColors : Int)
    (hm : (occupiedCells pixels : Int) ≤ maxColors) (result : List Int)
    (hq : quantizeEntries (F64 L) entries maxColors = some result) (color : Int) :
    color ∈ result ↔ ∃ p ∈ pixels, alphaFromArgb p = 255 ∧
      color = argbFromRgb (redFromArgb p) (greenFromArgb p) (blueFromArgb p) :=
  lossless h (exact_near (L := L) h hN) ho maxColors hm result hq color

/-- An image in which no two different colours share a cell. -/
example : OneColorPerCell [0xFFFF0000, 0x80FF0000, 0xFF00FF00, 0xFF0000FF] ∧
    occupiedCells [0xFFFF0000, 0x80FF0000, 0xFF00FF00, 0xFF0000FF] = 3 ∧
    opaqueCount [0xFFFF0000, 0x80FF0000, 0xFF00FF00, 0xFF0000FF] ≤ 10 ^ 10 ∧
    CountsOf [0xFFFF0000, 0x80FF0000, 0xFF00FF00, 0xFF0000FF]
      (QuantizerMap.quantize [0xFFFF0000, 0x80FF0000, 0xFF00FF00, 0xFF0000FF]) := by
  refine ⟨?_, by decide, by decide, List.Perm.refl _⟩
  unfold OneColorPerCell
  decide

end Mcu.Props
