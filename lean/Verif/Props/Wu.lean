import Verif.Lemmas.WuBoxes
import Verif.Props.Bits

/-! Properties C44–C49 (the Wu quantizer).  Floating point numbers only occur in the table of squares and in the search for a
cut.  C46, C47 and the integer parts of C45 hold for every arithmetic of class `WuArith`, in particular for exact reals and
for binary64 numbers.  The table of squares (C45) and the order of the histogram (C49) use exact reals here; see
`Props/WuBinary64.lean` for binary64. -/

namespace Mcu.Props

open Mcu.QuantizerWu Mcu.ColorUtils Mcu.Spec

/-! ### C44 -/

/-- C44: different histogram cells have different places in the table. -/
theorem c44_injective (r g b r' g' b' : Int) (hg : 0 ≤ g ∧ g ≤ 32) (hb : 0 ≤ b ∧ b ≤ 32)
    (hg' : 0 ≤ g' ∧ g' ≤ 32) (hb' : 0 ≤ b' ∧ b' ≤ 32) (h : getIndex r g b = getIndex r' g' b') :
    (r, g, b) = (r', g', b') := by
  obtain ⟨rfl, rfl, rfl⟩ := getIndex_inj hg hb hg' hb' h
  rfl

/-- C44: every cell has a place inside the table of 35937 entries, and every place is used. -/
theorem c44_in_bounds (i : Int) :
    (0 ≤ i ∧ i < (totalSize : Int)) ↔ ∃ r g b : Int, (0 ≤ r ∧ r ≤ 32) ∧ (0 ≤ g ∧ g ≤ 32) ∧ (0 ≤ b ∧ b ≤ 32) ∧
      getIndex r g b = i := by
  constructor
  · rintro ⟨h1, h2⟩
    unfold totalSize at h2
    push_cast at h2
    exact ⟨i / 1089, i / 33 % 33, i % 33, by omega, by omega, by omega, by rw [getIndex_eq]; omega⟩
  · rintro ⟨r, g, b, hr, hg, hb, rfl⟩
    have := getIndex_range hr hg hb
    unfold totalSize
    push_cast
    exact this

/-- C44: the cell of a pixel, for any pixel value, is inside the table and off its zero border. -/
theorem c44_pixel_cell (p : Int) :
    1 ≤ bucket (redFromArgb p) ∧ bucket (redFromArgb p) ≤ 32 ∧ 1 ≤ bucket (greenFromArgb p) ∧
    bucket (greenFromArgb p) ≤ 32 ∧ 1 ≤ bucket (blueFromArgb p) ∧ bucket (blueFromArgb p) ≤ 32 ∧
    0 ≤ getIndex (bucket (redFromArgb p)) (bucket (greenFromArgb p)) (bucket (blueFromArgb p)) ∧
    getIndex (bucket (redFromArgb p)) (bucket (greenFromArgb p)) (bucket (blueFromArgb p)) < (totalSize : Int) := by
  obtain ⟨⟨h1, h2⟩, ⟨h3, h4⟩, h5, h6⟩ := bucket_range p
  have := getIndex_range (r := bucket (redFromArgb p)) (g := bucket (greenFromArgb p)) (b := bucket (blueFromArgb p))
    (by omega) (by omega) (by omega)
  refine ⟨h1, h2, h3, h4, h5, h6, this.1, ?_⟩
  unfold totalSize; push_cast; exact this.2

example : bucket (redFromArgb 0xFFFF8000) = 32 ∧ bucket (greenFromArgb 0xFFFF8000) = 17 ∧
    bucket (blueFromArgb 0xFFFF8000) = 1 := by decide

/-! ### From (colour, count) pairs to pixels -/

theorem insert_weighted (f : Int → Int) (m : List (Int × Int)) (k v : Int) (hn : (m.map Prod.fst).Nodup) :
    ((QuantizerMap.insert m k v).map fun e => e.2 * f e.1).sum =
      (m.map fun e => e.2 * f e.1).sum - (m.lookup k).getD 0 * f k + v * f k := by
  induction m with
  | nil => simp [QuantizerMap.insert]
  | cons p rest ih =>
    rw [List.map_cons, List.nodup_cons] at hn
    unfold QuantizerMap.insert
    by_cases h : p.1 = k
    · obtain ⟨a, b⟩ := p
      simp only at h
      subst h
      rw [if_pos rfl]
      simp [List.lookup_cons_self]
      ring
    · have hb : (k == p.1) = false := by simpa using Ne.symm h
      rw [if_neg h, List.map_cons, List.sum_cons, ih hn.2, List.map_cons, List.sum_cons, List.lookup_cons, hb]
      show _ = p.2 * f p.1 + (rest.map fun e => e.2 * f e.1).sum - (rest.lookup k).getD 0 * f k + v * f k
      ring

theorem quantize_weighted (f : Int → Int) (pixels : List Int) :
    ((QuantizerMap.quantize pixels).map fun e => e.2 * f e.1).sum =
      ((pixels.filter fun p => decide (alphaFromArgb p = 255)).map f).sum := by
  have : ∀ (l : List Int) (m : List (Int × Int)), (m.map Prod.fst).Nodup →
      ((l.foldl QuantizerMap.addPixel m).map fun e => e.2 * f e.1).sum =
        (m.map fun e => e.2 * f e.1).sum + ((l.filter fun p => decide (alphaFromArgb p = 255)).map f).sum := by
    intro l
    induction l with
    | nil => intro m _; simp
    | cons p rest ih =>
      intro m h
      rw [List.foldl_cons, ih _ (addPixel_nodup m p h)]
      have := alpha_le p
      unfold QuantizerMap.addPixel
      by_cases ha : alphaFromArgb p < 255
      · have ha' : ¬ alphaFromArgb p = 255 := by omega
        simp [ha, ha']
      · have ha' : alphaFromArgb p = 255 := by omega
        simp only [ha, if_false]
        rw [insert_weighted f m p _ h, List.filter_cons_of_pos (by simpa using ha'), List.map_cons, List.sum_cons]
        ring
  have h := this pixels [] List.nodup_nil
  simpa [QuantizerMap.quantize] using h

theorem sum_filter_ite {α : Type} (l : List α) (q : α → Bool) (w : α → Int) :
    ((l.filter q).map w).sum = (l.map fun x => if q x then w x else 0).sum := by
  induction l with
  | nil => rfl
  | cons x rest ih =>
    cases h : q x <;> simp [h, ih]

theorem boxTotal_pixels {pixels : List Int} {entries : List (Int × Int)} (h : CountsOf pixels entries)
    (w : Int → Int) (c : Box) : boxTotal w entries c = pixelTotal w pixels c := by
  unfold boxTotal pixelTotal
  have h1 : ((entries.filter fun e => decide (InBox c e.1)).map fun e => e.2 * w e.1).sum =
      (((QuantizerMap.quantize pixels).filter fun e => decide (InBox c e.1)).map fun e => e.2 * w e.1).sum :=
    ((h.filter _).map _).sum_eq
  rw [h1, sum_filter_ite]
  have h2 : (fun e : Int × Int => if decide (InBox c e.1) = true then e.2 * w e.1 else 0) =
      fun e => e.2 * (fun p => if InBox c p then w p else 0) e.1 := by
    funext e
    by_cases hb : InBox c e.1 <;> simp [hb]
  rw [h2, quantize_weighted (fun p => if InBox c p then w p else 0), sum_filter_ite, sum_filter_ite]
  congr 2
  funext p
  by_cases ha : alphaFromArgb p = 255 <;> by_cases hb : InBox c p <;> simp [ha, hb]

theorem pixelTotal_one (pixels : List Int) (c : Box) : pixelTotal (fun _ => 1) pixels c = pixelCount pixels c := by
  unfold pixelTotal pixelCount
  rw [List.countP_eq_length_filter]
  simp

theorem boxPixels_pixels {pixels : List Int} {entries : List (Int × Int)} (h : CountsOf pixels entries)
    (c : Box) : boxPixels entries c = pixelCount pixels c := by
  unfold boxPixels
  rw [boxTotal_pixels h, pixelTotal_one]

/-! ### C45 -/

variable {F : Type} [Fl F]

/-- C45: after preprocessing, the volume of every box computed from the tables is the number of opaque
pixels in the box and the sum of their red, green and blue channels. -/
theorem c45_volume (pixels : List Int) (entries : List (Int × Int)) (h : CountsOf pixels entries) (c : Box)
    (hc : Proper c) :
    let t : Tables F := computeMoments (constructHistogram entries)
    volume c t.weights = pixelCount pixels c ∧
    volume c t.momentsR = pixelTotal redFromArgb pixels c ∧
    volume c t.momentsG = pixelTotal greenFromArgb pixels c ∧
    volume c t.momentsB = pixelTotal blueFromArgb pixels c := by
  refine ⟨?_, ?_, ?_, ?_⟩
  · rw [← boxPixels_pixels h]; exact volume_weights entries hc
  · rw [← boxTotal_pixels h]; exact volume_red entries hc
  · rw [← boxTotal_pixels h]; exact volume_green entries hc
  · rw [← boxTotal_pixels h]; exact volume_blue entries hc

/-- C45: and the volume computed from the table of squares is the sum of the squared lengths of these pixels. -/
theorem c45_squares (pixels : List Int) (entries : List (Int × Int)) (h : CountsOf pixels entries) (c : Box)
    (hc : Proper c) :
    let t : Tables ℝ := computeMoments (constructHistogram entries)
    volumeF c t.moments = (pixelTotal squared pixels c : ℝ) := by
  rw [← boxTotal_pixels h]; exact volumeF_squared entries hc

/-- C45: `bottom` plus `top` is the volume of the lower half box and the rest of the whole volume is
that of the upper half box, for every table, box, axis and cut position. -/
theorem c45_halves (c : Box) (d : Direction) (p : Int) (m : Array Int) :
    bottom c d m + top c d p m = volume (lower c d p) m ∧
    volume c m - (bottom c d m + top c d p m) = volume (upper c d p) m := by
  rw [bottom_top, volume_upper]; exact ⟨rfl, rfl⟩

/-- C45: in terms of pixels. -/
theorem c45_half_pixels (pixels : List Int) (entries : List (Int × Int)) (h : CountsOf pixels entries) (c : Box)
    (hc : Proper c) (p : Int) (hp : c.r0 ≤ p ∧ p ≤ c.r1) :
    let t : Tables F := computeMoments (constructHistogram entries)
    bottom c .red t.weights + top c .red p t.weights = pixelCount pixels { c with r1 := p } := by
  intro t
  rw [bottom_top]
  refine (c45_volume (F := F) pixels entries h (lower c .red p) ?_).1
  simp only [Proper, lower] at *
  omega

/-- C45: likewise along green and blue. -/
theorem c45_half_pixels_gb (pixels : List Int) (entries : List (Int × Int)) (h : CountsOf pixels entries)
    (c : Box) (hc : Proper c) (p q : Int) (hp : c.g0 ≤ p ∧ p ≤ c.g1) (hq : c.b0 ≤ q ∧ q ≤ c.b1) :
    let t : Tables F := computeMoments (constructHistogram entries)
    bottom c .green t.weights + top c .green p t.weights = pixelCount pixels { c with g1 := p } ∧
    bottom c .blue t.weights + top c .blue q t.weights = pixelCount pixels { c with b1 := q } := by
  intro t
  rw [bottom_top, bottom_top]
  refine ⟨(c45_volume (F := F) pixels entries h (lower c .green p) ?_).1,
    (c45_volume (F := F) pixels entries h (lower c .blue q) ?_).1⟩ <;>
  · simp only [Proper, lower] at *
    omega

/-- An image with two opaque pixels and a translucent one, and the box of its red pixels. -/
example : ∃ (pixels : List Int) (entries : List (Int × Int)) (c : Box), CountsOf pixels entries ∧ Proper c ∧
    pixelCount pixels c = 1 ∧ pixelTotal redFromArgb pixels c = 255 :=
  ⟨[0xFFFF0000, 0x80FF0000, 0xFF00FF00], QuantizerMap.quantize [0xFFFF0000, 0x80FF0000, 0xFF00FF00],
    { r0 := 16, r1 := 32, g0 := 0, g1 := 32, b0 := 0, b1 := 16 }, List.Perm.refl _, by unfold Proper; decide,
    by decide, by decide⟩

/-! ### C46 -/

section
variable [WuArith F]


theorem pixel_in_one {cubes : List Box} (h : Partition cubes) (p : Int) :
    cubes.countP (fun c => decide (InBox c p)) = 1 := by
  obtain ⟨⟨h1, h2⟩, ⟨h3, h4⟩, h5, h6⟩ := bucket_range p
  exact h.2 _ _ _ h1 h2 h3 h4 h5 h6

theorem partition_weight {cubes : List Box} (h : Partition cubes) (w : Int → Int) (pixels : List Int) :
    (cubes.map (pixelTotal w pixels)).sum = ((pixels.filter fun p => decide (alphaFromArgb p = 255)).map w).sum := by
  induction pixels with
  | nil =>
    have : ∀ c, pixelTotal w [] c = 0 := fun c => rfl
    simp [funext this]
  | cons p rest ih =>
    have e : ∀ c, pixelTotal w (p :: rest) c =
        (if decide (InBox c p) then (if alphaFromArgb p = 255 then w p else 0) else 0) + pixelTotal w rest c := by
      intro c
      unfold pixelTotal
      rw [sum_filter_ite, sum_filter_ite, List.map_cons, List.sum_cons]
      congr 1
      by_cases ha : alphaFromArgb p = 255 <;> by_cases hb : InBox c p <;> simp [ha, hb]
    have hs : ∀ (l : List Box) (x : Int), (l.map fun c => (if decide (InBox c p) then x else 0) + pixelTotal w rest c).sum =
        x * (l.countP fun c => decide (InBox c p) : Nat) + (l.map (pixelTotal w rest)).sum := by
      intro l x
      induction l with
      | nil => simp
      | cons c l ih2 =>
        rw [List.map_cons, List.sum_cons, ih2, List.map_cons, List.sum_cons, List.countP_cons]
        by_cases hb : InBox c p
        · simp [hb]; ring
        · simp [hb]; ring
    rw [funext e, hs, pixel_in_one h, ih]
    by_cases ha : alphaFromArgb p = 255 <;> simp [ha]

/-- C46: after any number of rounds of the box loop (0 rounds, ..., all of them), for every image and
every positive number of colours, the boxes are inside colour space, every histogram cell lies in
exactly one of them, and so the numbers of opaque pixels in the boxes add up to the number of opaque
pixels of the image. -/
theorem c46_partition (pixels : List Int) (entries : List (Int × Int)) (n : Nat) (hn : 1 ≤ n)
    (rounds : Nat) (hr : rounds ≤ n - 1) :
    let t : Tables F := computeMoments (constructHistogram entries)
    ∃ cubes k, boxLoop t n ((List.range rounds).map (· + 1)) 0 (List.replicate n 0.0)
        (firstBox :: List.replicate (n - 1) {}) = some (cubes, k) ∧
      Partition cubes ∧
      (cubes.map (pixelCount pixels)).sum = (pixels.countP fun p => decide (alphaFromArgb p = 255) : Nat) := by
  intro t
  obtain ⟨cubes, k, h1, -, -, -, h5, -⟩ := createBoxes_ok t n hn rounds hr
  refine ⟨cubes, k, by rw [range_map_succ]; exact h1, h5, ?_⟩
  have := partition_weight h5 (fun _ => 1) pixels
  rw [show (pixelTotal fun _ => 1) pixels = pixelCount pixels from funext (pixelTotal_one pixels)] at this
  rw [this, List.countP_eq_length_filter]
  simp

theorem partition_take {cubes : List Box} {k : Nat} (h : Partition cubes) (hu : UnusedFrom cubes k) :
    Partition (cubes.take k) := by
  constructor
  · exact fun c hc => h.1 c (List.mem_of_mem_take hc)
  · intro r g b h1 h2 h3 h4 h5 h6
    have := h.2 r g b h1 h2 h3 h4 h5 h6
    rw [← List.take_append_drop k cubes, List.countP_append] at this
    have hz : (cubes.drop k).countP (fun c => decide (HasCell c r g b)) = 0 := by
      rw [List.countP_eq_zero]
      intro c hc
      obtain ⟨j, hj, rfl⟩ := List.mem_iff_getElem.1 hc
      rw [List.length_drop] at hj
      have he := hu (k + j) (by omega) (by omega)
      rw [List.getD_eq_getElem?_getD, List.getElem?_eq_getElem (by omega)] at he
      rw [List.getElem_drop]
      simp only [Option.getD_some] at he
      rw [he]
      have hn' : ¬ HasCell ({} : Box) r g b := by unfold HasCell; simp only; omega
      simpa using hn'
    omega

/-! ### C47 -/

/-- Integer mean of a channel over the opaque pixels of a box. -/
def meanOf (w : Int → Int) (pixels : List Int) (c : Box) : Int := pixelTotal w pixels c / pixelCount pixels c

/-- The opaque colour whose channels are the integer means over the opaque pixels of a box. -/
def meanColor (pixels : List Int) (c : Box) : Int :=
  argbFromRgb (meanOf redFromArgb pixels c) (meanOf greenFromArgb pixels c) (meanOf blueFromArgb pixels c)

theorem pixelTotal_bounds (w : Int → Int) (hw : ∀ p, 0 ≤ w p ∧ w p ≤ 255) (pixels : List Int) (c : Box) :
    0 ≤ pixelTotal w pixels c ∧ pixelTotal w pixels c ≤ 255 * pixelCount pixels c := by
  rw [← pixelTotal_one]
  unfold pixelTotal
  generalize (pixels.filter fun p => decide (alphaFromArgb p = 255 ∧ InBox c p)) = l
  induction l with
  | nil => simp
  | cons p rest ih =>
    have := hw p
    simp only [List.map_cons, List.sum_cons]
    omega

/-- C47: the means are channel values. -/
theorem c47_mean_range (w : Int → Int) (hw : ∀ p, 0 ≤ w p ∧ w p ≤ 255) (pixels : List Int) (c : Box)
    (hc : 0 < pixelCount pixels c) : 0 ≤ meanOf w pixels c ∧ meanOf w pixels c ≤ 255 := by
  obtain ⟨h1, h2⟩ := pixelTotal_bounds w hw pixels c
  unfold meanOf
  exact ⟨Int.ediv_nonneg h1 (le_of_lt hc), Int.ediv_le_of_le_mul hc h2⟩

theorem meanChannel_eq {s w : Int} (hs : 0 ≤ s) (hw : 0 < w) (hq : s / w ≤ 255) : meanChannel F s w = s / w := by
  unfold meanChannel
  rw [Int.tdiv_eq_ediv_of_nonneg hs]
  exact WuArith.mean _ (Int.ediv_nonneg hs (le_of_lt hw)) hq

theorem channel_range (p : Int) : (0 ≤ redFromArgb p ∧ redFromArgb p ≤ 255) ∧
    (0 ≤ greenFromArgb p ∧ greenFromArgb p ≤ 255) ∧ (0 ≤ blueFromArgb p ∧ blueFromArgb p ≤ 255) := by
  unfold redFromArgb greenFromArgb blueFromArgb; omega

theorem boxColor_eq {pixels : List Int} {entries : List (Int × Int)} (h : CountsOf pixels entries) {c : Box}
    (hc : Proper c) : boxColor (tablesOf F entries) c =
      if 0 < pixelCount pixels c then some (meanColor pixels c) else none := by
  obtain ⟨h1, h2, h3, h4⟩ := c45_volume (F := F) pixels entries h c hc
  have e1 : volume c (tablesOf F entries).weights = pixelCount pixels c := h1
  have e2 : volume c (tablesOf F entries).momentsR = pixelTotal redFromArgb pixels c := h2
  have e3 : volume c (tablesOf F entries).momentsG = pixelTotal greenFromArgb pixels c := h3
  have e4 : volume c (tablesOf F entries).momentsB = pixelTotal blueFromArgb pixels c := h4
  unfold boxColor
  simp only [e1, e2, e3, e4]
  by_cases hp : 0 < pixelCount pixels c
  · rw [if_pos hp, if_pos hp]
    have m := fun w hw => c47_mean_range w hw pixels c hp
    have b := fun w hw => pixelTotal_bounds w hw pixels c
    rw [meanChannel_eq (b _ fun p => (channel_range p).1).1 hp (m _ fun p => (channel_range p).1).2,
      meanChannel_eq (b _ fun p => (channel_range p).2.1).1 hp (m _ fun p => (channel_range p).2.1).2,
      meanChannel_eq (b _ fun p => (channel_range p).2.2).1 hp (m _ fun p => (channel_range p).2.2).2]
    rfl
  · rw [if_neg hp, if_neg hp]

/-- C47: for a positive number of colours the quantizer succeeds, and its result lists, for some
partition of colour space into at most that many boxes, the mean colours of the boxes that contain
opaque pixels. -/
theorem c47_result (pixels : List Int) (entries : List (Int × Int)) (h : CountsOf pixels entries)
    (maxColors : Int) (hm : 0 < maxColors) :
    ∃ cubes : List Box, Partition cubes ∧ (cubes.length : Int) ≤ maxColors ∧
      quantizeEntries F entries maxColors =
        some ((cubes.filter fun c => decide (0 < pixelCount pixels c)).map (meanColor pixels)) := by
  obtain ⟨cubes, k, h1, h2, h3, h4, h5, h6⟩ :=
    createBoxes_ok (tablesOf F entries) maxColors.toNat (by omega) (maxColors.toNat - 1) (le_refl _)
  have hpart := partition_take h5 h6
  refine ⟨cubes.take k, hpart, by rw [List.length_take]; omega, ?_⟩
  have hq : quantizeEntries F entries maxColors = some (createResult (tablesOf F entries) cubes k) := by
    unfold quantizeEntries createBoxes
    simp only [if_neg (not_le.2 hm), range_map_succ]
    unfold tablesOf at h1 ⊢
    rw [h1]
    rfl
  rw [hq]
  unfold createResult
  congr 1
  have : ∀ l : List Box, (∀ c ∈ l, Proper c) → l.filterMap (boxColor (tablesOf F entries)) =
      (l.filter fun c => decide (0 < pixelCount pixels c)).map (meanColor pixels) := by
    intro l
    induction l with
    | nil => intro _; rfl
    | cons c rest ih =>
      intro hl
      have hc := boxColor_eq (F := F) h (hl c List.mem_cons_self)
      have hr := ih fun x hx => hl x (List.mem_cons_of_mem _ hx)
      by_cases hp : 0 < pixelCount pixels c
      · rw [if_pos hp] at hc
        rw [List.filterMap_cons_some hc, hr, List.filter_cons_of_pos (by simpa using hp), List.map_cons]
      · rw [if_neg hp] at hc
        rw [List.filterMap_cons_none hc, hr, List.filter_cons_of_neg (by simpa using hp)]
  exact this _ hpart.1

/-- C47: the quantizer panics exactly when asked for no colours. -/
theorem c47_panics_iff (pixels : List Int) (entries : List (Int × Int)) (h : CountsOf pixels entries)
    (maxColors : Int) : quantizeEntries F entries maxColors = none ↔ maxColors ≤ 0 := by
  constructor
  · intro hn
    by_contra hc
    obtain ⟨_, -, -, he⟩ := c47_result (F := F) pixels entries h maxColors (not_le.1 hc)
    rw [he] at hn
    cases hn
  · intro hm
    unfold quantizeEntries createBoxes
    simp only [if_pos hm]
    rfl

/-- C47: at most `maxColors` colours, each opaque with channels in 0..255. -/
theorem c47_colors (pixels : List Int) (entries : List (Int × Int)) (h : CountsOf pixels entries)
    (maxColors : Int) (result : List Int) (hq : quantizeEntries F entries maxColors = some result) :
    (result.length : Int) ≤ maxColors ∧
    ∀ color ∈ result, 0xFF000000 ≤ color ∧ color ≤ 0xFFFFFFFF ∧ alphaFromArgb color = 255 ∧
      ∃ c, Proper c ∧ 0 < pixelCount pixels c ∧ redFromArgb color = meanOf redFromArgb pixels c ∧
        greenFromArgb color = meanOf greenFromArgb pixels c ∧ blueFromArgb color = meanOf blueFromArgb pixels c := by
  have hm : 0 < maxColors := by
    by_contra hc
    rw [(c47_panics_iff (F := F) pixels entries h maxColors).2 (not_lt.1 hc)] at hq
    cases hq
  obtain ⟨cubes, h1, h2, h3⟩ := c47_result (F := F) pixels entries h maxColors hm
  rw [hq] at h3
  obtain rfl := Option.some.inj h3
  constructor
  · rw [List.length_map]
    have := List.length_filter_le (fun c => decide (0 < pixelCount pixels c)) cubes
    omega
  · intro color hcol
    obtain ⟨c, hc, rfl⟩ := List.mem_map.1 hcol
    obtain ⟨hc1, hc2⟩ := List.mem_filter.1 hc
    have hp : 0 < pixelCount pixels c := by simpa using hc2
    have m1 := c47_mean_range redFromArgb (fun p => (channel_range p).1) pixels c hp
    have m2 := c47_mean_range greenFromArgb (fun p => (channel_range p).2.1) pixels c hp
    have m3 := c47_mean_range blueFromArgb (fun p => (channel_range p).2.2) pixels c hp
    have hr := c01_channels (meanOf redFromArgb pixels c) (meanOf greenFromArgb pixels c) (meanOf blueFromArgb pixels c)
    have ho := c01_pack_opaque (meanOf redFromArgb pixels c) (meanOf greenFromArgb pixels c) (meanOf blueFromArgb pixels c)
    refine ⟨ho.2.1, ho.2.2, hr.2.2.2, c, h1.1 c hc1, hp, ?_, ?_, ?_⟩
    · unfold meanColor; rw [hr.1]; omega
    · unfold meanColor; rw [hr.2.1]; omega
    · unfold meanColor; rw [hr.2.2.1]; omega

/-- C47: an image with an opaque pixel has at least one colour. -/
theorem c47_nonempty (pixels : List Int) (entries : List (Int × Int)) (h : CountsOf pixels entries)
    (maxColors : Int) (result : List Int) (hq : quantizeEntries F entries maxColors = some result)
    (p : Int) (hp : p ∈ pixels) (ha : alphaFromArgb p = 255) : result ≠ [] := by
  have hm : 0 < maxColors := by
    by_contra hc
    rw [(c47_panics_iff (F := F) pixels entries h maxColors).2 (not_lt.1 hc)] at hq
    cases hq
  obtain ⟨cubes, h1, h2, h3⟩ := c47_result (F := F) pixels entries h maxColors hm
  rw [hq] at h3
  obtain rfl := Option.some.inj h3
  have h4 := pixel_in_one h1 p
  have h5 : 0 < cubes.countP fun c => decide (InBox c p) := by omega
  obtain ⟨c, hc, hin⟩ := List.countP_pos_iff.1 h5
  have hcount : 0 < pixelCount pixels c := by
    unfold pixelCount
    have : 0 < pixels.countP fun p => decide (alphaFromArgb p = 255 ∧ InBox c p) :=
      List.countP_pos_iff.2 ⟨p, hp, by simpa using ⟨ha, by simpa using hin⟩⟩
    omega
  intro he
  have hmem : meanColor pixels c ∈ ((cubes.filter fun c => decide (0 < pixelCount pixels c)).map (meanColor pixels)) :=
    List.mem_map_of_mem (List.mem_filter.2 ⟨hc, by simpa using hcount⟩)
  rw [he] at hmem
  cases hmem

end

/-! ### C49 -/

theorem table_ext {α : Type} [AddCommMonoid α] {t t' : Array α} {f : ℤ → ℤ → ℤ → α} (h : Shows t f)
    (h' : Shows t' f) : t = t' := by
  apply Array.ext (by rw [h.1, h'.1])
  intro i hi hi'
  rw [h.1] at hi
  obtain ⟨r, g, b, hr, hg, hb, he⟩ := (c44_in_bounds (i : Int)).1 ⟨by omega, by unfold totalSize; omega⟩
  have e1 := h.2 r g b hr.1 hr.2 hg.1 hg.2 hb.1 hb.2
  have e2 := h'.2 r g b hr.1 hr.2 hg.1 hg.2 hb.1 hb.2
  rw [he] at e1 e2
  unfold tget at e1 e2
  rw [if_pos (by omega), Int.toNat_natCast, Array.getD_eq_getD_getElem?, Array.getElem?_eq_getElem (by omega)] at e1
  rw [if_pos (by omega), Int.toNat_natCast, Array.getD_eq_getD_getElem?, Array.getElem?_eq_getElem (by omega)] at e2
  exact e1.trans e2.symm

theorem cellTotal_perm {α : Type} [AddCommMonoid α] (v : Int × Int → α) {l l' : List (Int × Int)}
    (h : l.Perm l') : cellTotal v l = cellTotal v l' := by
  funext r g b
  exact (h.map _).sum_eq

theorem histogram_perm {l l' : List (Int × Int)} (h : l.Perm l') :
    (constructHistogram l : Tables ℝ) = constructHistogram l' := by
  rw [hist_split, hist_split, addSquare_real, addSquare_real, show (OfScientific.ofScientific 0 true 1 : ℝ) = 0 by norm_num]
  have key : ∀ {α : Type} [AddCommMonoid α] (v : Int × Int → α),
      l.foldl (addOne v) (Array.replicate totalSize 0) = l'.foldl (addOne v) (Array.replicate totalSize 0) := by
    intro α _ v
    have h1 := addOne_fold v l
    rw [cellTotal_perm v h] at h1
    exact table_ext h1 (addOne_fold v l')
  rw [key, key, key, key, key]

/-- C49: the result is the same for every order of the pixels and every iteration order of the hash map
between the two quantizers. -/
theorem c49_order_independent (p q : List Int) (hp : p.Perm q) (entries entries' : List (Int × Int))
    (h : CountsOf p entries) (h' : CountsOf q entries') (maxColors : Int) :
    quantizeEntries ℝ entries maxColors = quantizeEntries ℝ entries' maxColors := by
  have hperm : entries.Perm entries' := h.trans ((c43_order_independent p q hp).trans h'.symm)
  unfold quantizeEntries
  rw [histogram_perm hperm]

example : ∃ p q : List Int, p ≠ q ∧ p.Perm q ∧ CountsOf p (QuantizerMap.quantize q) ∧
    CountsOf q (QuantizerMap.quantize p) :=
  ⟨[0xFFFF0000, 0xFF00FF00], [0xFF00FF00, 0xFFFF0000], by decide, List.Perm.swap _ _ _,
    c43_order_independent _ _ (List.Perm.swap _ _ _), c43_order_independent _ _ (List.Perm.swap _ _ _)⟩

end Mcu.Props
