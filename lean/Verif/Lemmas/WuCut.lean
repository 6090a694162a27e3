import Verif.Spec.Spread
import Verif.Props.Wu

/-! The search for the best cut, over exact reals. -/

namespace Mcu.QuantizerWu

open Mcu.Spec Mcu.Props ColorUtils

/-! ### Spread -/

theorem sum_sq_dev (w : Int → Int) (l : List Int) (m : ℝ) :
    (l.map fun p => ((w p : ℝ) - m) ^ 2).sum =
      ((l.map fun p => w p * w p).sum : Int) - 2 * m * ((l.map w).sum : Int) + m ^ 2 * l.length := by
  induction l with
  | nil => simp
  | cons p rest ih =>
    rw [List.map_cons, List.sum_cons, ih, List.map_cons, List.sum_cons, List.map_cons, List.sum_cons, List.length_cons]
    push_cast
    ring

theorem sum_sq_dev_mean (w : Int → Int) (l : List Int) :
    (l.map fun p => ((w p : ℝ) - meanChan w l) ^ 2).sum =
      ((l.map fun p => w p * w p).sum : Int) - (((l.map w).sum : Int) : ℝ) ^ 2 / l.length := by
  rw [sum_sq_dev]
  unfold meanChan
  rcases Nat.eq_zero_or_pos l.length with h | h
  · rw [List.eq_nil_of_length_eq_zero h]; simp
  · have : (l.length : ℝ) ≠ 0 := by exact_mod_cast h.ne'
    field_simp
    ring

theorem sum_add3 (l : List Int) (f g h : Int → ℝ) :
    (l.map fun p => f p + g p + h p).sum = (l.map f).sum + (l.map g).sum + (l.map h).sum := by
  induction l with
  | nil => simp
  | cons p rest ih => simp only [List.map_cons, List.sum_cons, ih]; ring

theorem sum_squared (l : List Int) : (l.map squared).sum = (l.map fun p => redFromArgb p * redFromArgb p).sum +
    (l.map fun p => greenFromArgb p * greenFromArgb p).sum + (l.map fun p => blueFromArgb p * blueFromArgb p).sum := by
  induction l with
  | nil => simp
  | cons p rest ih => simp only [List.map_cons, List.sum_cons, ih, squared]; ring

/-- The spread from the totals. -/
theorem spread_eq (l : List Int) : spread l = ((l.map squared).sum : Int) -
    ((((l.map redFromArgb).sum : Int) : ℝ) ^ 2 + (((l.map greenFromArgb).sum : Int) : ℝ) ^ 2 +
      (((l.map blueFromArgb).sum : Int) : ℝ) ^ 2) / l.length := by
  unfold spread
  rw [sum_add3, sum_sq_dev_mean, sum_sq_dev_mean, sum_sq_dev_mean, sum_squared]
  push_cast
  ring

theorem pixelTotal_eq (w : Int → Int) (pixels : List Int) (c : Box) :
    pixelTotal w pixels c = ((pixelsIn pixels c).map w).sum := rfl

theorem pixelCount_eq (pixels : List Int) (c : Box) : pixelCount pixels c = (pixelsIn pixels c).length := by
  unfold pixelCount pixelsIn
  rw [List.countP_eq_length_filter]

theorem spread_box (pixels : List Int) (c : Box) : spread (pixelsIn pixels c) = (pixelTotal squared pixels c : ℝ) -
    ((pixelTotal redFromArgb pixels c : ℝ) ^ 2 + (pixelTotal greenFromArgb pixels c : ℝ) ^ 2 +
      (pixelTotal blueFromArgb pixels c : ℝ) ^ 2) / (pixelCount pixels c : ℝ) := by
  rw [spread_eq, pixelCount_eq, Int.cast_natCast]
  rfl

theorem inBox_split (c : Box) (d : Direction) (p : Int) (h : lo c d < p ∧ p < hi c d) (q : Int) :
    (InBox c q ↔ InBox (lower c d p) q ∨ InBox (upper c d p) q) ∧ ¬ (InBox (lower c d p) q ∧ InBox (upper c d p) q) := by
  cases d <;> simp only [lo, hi] at h <;> simp only [InBox, lower, upper] <;> constructor <;> omega

theorem pixelTotal_split (w : Int → Int) (pixels : List Int) (c : Box) (d : Direction) (p : Int)
    (h : lo c d < p ∧ p < hi c d) :
    pixelTotal w pixels (lower c d p) + pixelTotal w pixels (upper c d p) = pixelTotal w pixels c := by
  unfold pixelTotal
  rw [sum_filter_ite, sum_filter_ite, sum_filter_ite]
  induction pixels with
  | nil => rfl
  | cons q rest ih =>
    simp only [List.map_cons, List.sum_cons]
    rw [← ih]
    clear ih
    obtain ⟨h1, h2⟩ := inBox_split c d p h q
    by_cases ha : alphaFromArgb q = 255 <;> by_cases hl : InBox (lower c d p) q <;>
      by_cases hu : InBox (upper c d p) q <;> simp_all <;> ring

/-! ### The search along one axis -/

/-- What the search maximises. -/
noncomputable def score (t : Tables ℝ) (c : Box) (d : Direction) (i : Int) : ℝ :=
  ((volume (lower c d i) t.momentsR : ℝ) ^ 2 + (volume (lower c d i) t.momentsG : ℝ) ^ 2 +
    (volume (lower c d i) t.momentsB : ℝ) ^ 2) / (volume (lower c d i) t.weights : ℝ) +
  ((volume (upper c d i) t.momentsR : ℝ) ^ 2 + (volume (upper c d i) t.momentsG : ℝ) ^ 2 +
    (volume (upper c d i) t.momentsB : ℝ) ^ 2) / (volume (upper c d i) t.weights : ℝ)

/-- Both parts have pixels. -/
def Separates (t : Tables ℝ) (c : Box) (d : Direction) (i : Int) : Prop :=
  volume (lower c d i) t.weights ≠ 0 ∧ volume (upper c d i) t.weights ≠ 0

theorem step_eq (t : Tables ℝ) (c : Box) (d : Direction) (s : MaximizeResult ℝ) (i : Int) :
    maximizeStep t c d (volume c t.momentsR) (volume c t.momentsG) (volume c t.momentsB) (volume c t.weights) s i =
      open Classical in if Separates t c d i ∧ score t c d i > s.maximum then ⟨i, score t c d i⟩ else s := by
  simp only [maximizeStep, bottom_top, ← volume_upper, fl_ofInt]
  have e : (((volume (lower c d i) t.momentsR * volume (lower c d i) t.momentsR +
      volume (lower c d i) t.momentsG * volume (lower c d i) t.momentsG +
      volume (lower c d i) t.momentsB * volume (lower c d i) t.momentsB : Int) : ℝ) / (volume (lower c d i) t.weights : ℝ) +
      ((volume (upper c d i) t.momentsR * volume (upper c d i) t.momentsR +
      volume (upper c d i) t.momentsG * volume (upper c d i) t.momentsG +
      volume (upper c d i) t.momentsB * volume (upper c d i) t.momentsB : Int) : ℝ) / (volume (upper c d i) t.weights : ℝ)) =
      score t c d i := by
    unfold score; push_cast; ring
  rw [e]
  unfold Separates
  by_cases h1 : volume (lower c d i) t.weights = 0
  · rw [if_pos h1, if_neg (fun h => h.1.1 h1)]
  · rw [if_neg h1]
    by_cases h2 : volume (upper c d i) t.weights = 0
    · rw [if_pos h2, if_neg (fun h => h.1.2 h2)]
    · rw [if_neg h2]
      by_cases h3 : score t c d i > s.maximum
      · rw [if_pos h3, if_pos ⟨⟨h1, h2⟩, h3⟩]
      · rw [if_neg h3, if_neg (fun h => h3 h.2)]

theorem mem_rangeI_iff {first last i : Int} : i ∈ rangeI first last ↔ first ≤ i ∧ i < last := by
  refine ⟨mem_rangeI, fun h => ?_⟩
  unfold rangeI
  refine List.mem_map.2 ⟨(i - first).toNat, List.mem_range.2 (by omega), by omega⟩

/-- The search finds the best separating position, if there is one with a positive score. -/
theorem maximize_best (t : Tables ℝ) (c : Box) (d : Direction) (first last : Int) :
    let m := maximize t c d first last (volume c t.momentsR) (volume c t.momentsG) (volume c t.momentsB) (volume c t.weights)
    (∀ i, first ≤ i → i < last → Separates t c d i → score t c d i ≤ m.maximum) ∧
    ((m.cutLocation = -1 ∧ m.maximum = 0) ∨
      (first ≤ m.cutLocation ∧ m.cutLocation < last ∧ Separates t c d m.cutLocation ∧
        m.maximum = score t c d m.cutLocation ∧ 0 < m.maximum)) := by
  intro m
  have key : ∀ (l : List Int) (s : MaximizeResult ℝ), (∀ i ∈ l, first ≤ i ∧ i < last) →
      ((s.cutLocation = -1 ∧ s.maximum = 0) ∨
        (first ≤ s.cutLocation ∧ s.cutLocation < last ∧ Separates t c d s.cutLocation ∧
          s.maximum = score t c d s.cutLocation ∧ 0 < s.maximum)) →
      let r := l.foldl (maximizeStep t c d (volume c t.momentsR) (volume c t.momentsG) (volume c t.momentsB)
        (volume c t.weights)) s
      s.maximum ≤ r.maximum ∧ (∀ i ∈ l, Separates t c d i → score t c d i ≤ r.maximum) ∧
      ((r.cutLocation = -1 ∧ r.maximum = 0) ∨
        (first ≤ r.cutLocation ∧ r.cutLocation < last ∧ Separates t c d r.cutLocation ∧
          r.maximum = score t c d r.cutLocation ∧ 0 < r.maximum)) := by
    intro l
    induction l with
    | nil => intro s _ hs; exact ⟨le_refl _, by simp, hs⟩
    | cons x rest ih =>
      intro s hl hs
      have hx := hl x List.mem_cons_self
      have hr : ∀ i ∈ rest, first ≤ i ∧ i < last := fun i hi => hl i (List.mem_cons_of_mem _ hi)
      simp only [List.foldl_cons]
      rw [step_eq]
      classical
      by_cases hb : Separates t c d x ∧ score t c d x > s.maximum
      · rw [if_pos hb]
        have h0 : 0 ≤ s.maximum := by
          rcases hs with ⟨-, h⟩ | ⟨-, -, -, -, h⟩
          · exact h.ge
          · exact h.le
        obtain ⟨i1, i2, i3⟩ := ih ⟨x, score t c d x⟩ hr
          (Or.inr ⟨hx.1, hx.2, hb.1, rfl, lt_of_le_of_lt h0 hb.2⟩)
        refine ⟨hb.2.le.trans i1, ?_, i3⟩
        intro i hi hsep
        rcases List.mem_cons.1 hi with rfl | hi
        · exact i1
        · exact i2 i hi hsep
      · rw [if_neg hb]
        obtain ⟨i1, i2, i3⟩ := ih s hr hs
        refine ⟨i1, ?_, i3⟩
        intro i hi hsep
        rcases List.mem_cons.1 hi with rfl | hi
        · have : ¬ score t c d i > s.maximum := fun h => hb ⟨hsep, h⟩
          exact (not_lt.1 this).trans i1
        · exact i2 i hi hsep
  have e0 : (0.0:ℝ) = 0 := by norm_num
  obtain ⟨-, h2, h3⟩ := key (rangeI first last) ⟨-1, 0.0⟩ (fun i hi => mem_rangeI hi) (Or.inl ⟨rfl, e0⟩)
  exact ⟨fun i h h' hs => h2 i (mem_rangeI_iff.2 ⟨h, h'⟩) hs, h3⟩

/-- The chosen cut is at least as good as every other one. -/
theorem cut_best {t : Tables ℝ} {one c1 c2 : Box} (h : cut t one = some (c1, c2)) :
    ∃ d p, lo one d < p ∧ p < hi one d ∧ c1 = withVol (lower one d p) ∧ c2 = withVol (upper one d p) ∧
      Separates t one d p ∧ ∀ d' p', lo one d' < p' → p' < hi one d' → Separates t one d' p' →
        score t one d' p' ≤ score t one d p := by
  simp only [cut] at h
  obtain ⟨br, mr⟩ := maximize_best t one .red (one.r0 + 1) one.r1
  obtain ⟨bg, mg⟩ := maximize_best t one .green (one.g0 + 1) one.g1
  obtain ⟨bb, mb⟩ := maximize_best t one .blue (one.b0 + 1) one.b1
  set rr := maximize t one .red (one.r0 + 1) one.r1 (volume one t.momentsR) (volume one t.momentsG)
    (volume one t.momentsB) (volume one t.weights)
  set gr := maximize t one .green (one.g0 + 1) one.g1 (volume one t.momentsR) (volume one t.momentsG)
    (volume one t.momentsB) (volume one t.weights)
  set bl := maximize t one .blue (one.b0 + 1) one.b1 (volume one t.momentsR) (volume one t.momentsG)
    (volume one t.momentsB) (volume one t.weights)
  have all : ∀ M : ℝ, rr.maximum ≤ M → gr.maximum ≤ M → bl.maximum ≤ M →
      ∀ d' p', lo one d' < p' → p' < hi one d' → Separates t one d' p' → score t one d' p' ≤ M := by
    intro M h1 h2 h3 d' p' hl hh hs
    cases d' <;> simp only [lo, hi] at hl hh
    · exact (br p' (by omega) hh hs).trans h1
    · exact (bg p' (by omega) hh hs).trans h2
    · exact (bb p' (by omega) hh hs).trans h3
  have nn : ∀ (d : Direction) (a b : Int) (m : MaximizeResult ℝ), ((m.cutLocation = -1 ∧ m.maximum = 0) ∨
      (a ≤ m.cutLocation ∧ m.cutLocation < b ∧ Separates t one d m.cutLocation ∧
        m.maximum = score t one d m.cutLocation ∧ 0 < m.maximum)) → 0 ≤ m.maximum := by
    rintro d a b m (⟨-, h⟩ | ⟨-, -, -, -, h⟩)
    · exact h.ge
    · exact h.le
  have nr := nn _ _ _ _ mr
  have ng := nn _ _ _ _ mg
  have nb := nn _ _ _ _ mb
  split_ifs at h with h1 h2 h3
  · rcases mr with ⟨e, -⟩ | ⟨l1, l2, l3, l4, -⟩
    · exact absurd (by rw [e]; norm_num) h2
    · obtain ⟨rfl, rfl⟩ := Prod.mk.inj (Option.some.inj h)
      exact ⟨.red, rr.cutLocation, by show one.r0 < _; omega, l2, rfl, rfl, l3, all _ l4.le (l4 ▸ h1.1) (l4 ▸ h1.2)⟩
  · rcases mg with ⟨-, e⟩ | ⟨l1, l2, l3, l4, -⟩
    · exfalso
      refine h1 ⟨?_, ?_⟩
      · show gr.maximum ≤ rr.maximum; linarith
      · have : bl.maximum ≤ gr.maximum := h3.2
        show bl.maximum ≤ rr.maximum; linarith
    · obtain ⟨rfl, rfl⟩ := Prod.mk.inj (Option.some.inj h)
      exact ⟨.green, gr.cutLocation, by show one.g0 < _; omega, l2, rfl, rfl, l3, all _ (l4 ▸ h3.1) l4.le (l4 ▸ h3.2)⟩
  · have hb : rr.maximum < bl.maximum ∧ gr.maximum < bl.maximum := by
      constructor
      · by_contra hc
        rcases le_total gr.maximum rr.maximum with hh | hh
        · exact h1 ⟨hh, not_lt.1 hc⟩
        · exact h3 ⟨hh, (not_lt.1 hc).trans hh⟩
      · by_contra hc
        rcases le_total gr.maximum rr.maximum with hh | hh
        · exact h1 ⟨hh, (not_lt.1 hc).trans hh⟩
        · exact h3 ⟨hh, not_lt.1 hc⟩
    rcases mb with ⟨-, e⟩ | ⟨l1, l2, l3, l4, -⟩
    · linarith [hb.1]
    · obtain ⟨rfl, rfl⟩ := Prod.mk.inj (Option.some.inj h)
      exact ⟨.blue, bl.cutLocation, by show one.b0 < _; omega, l2, rfl, rfl, l3,
        all _ (l4 ▸ hb.1.le) (l4 ▸ hb.2.le) l4.le⟩

/-- If no cut is made, no separating position has a positive score. -/
theorem cut_none {t : Tables ℝ} {one : Box} (h0 : 0 ≤ one.r0) (h : cut t one = none) (d : Direction) (p : Int) (hl : lo one d < p)
    (hh : p < hi one d) (hs : Separates t one d p) : score t one d p ≤ 0 := by
  simp only [cut] at h
  obtain ⟨br, mr⟩ := maximize_best t one .red (one.r0 + 1) one.r1
  obtain ⟨bg, mg⟩ := maximize_best t one .green (one.g0 + 1) one.g1
  obtain ⟨bb, mb⟩ := maximize_best t one .blue (one.b0 + 1) one.b1
  split_ifs at h with h1 h2
  rcases mr with ⟨-, e⟩ | ⟨l1, -, l3, -, -⟩
  · rw [e] at h1
    cases d <;> simp only [lo, hi] at hl hh
    · exact (br p (by omega) hh hs).trans e.le
    · exact (bg p (by omega) hh hs).trans h1.1
    · exact (bb p (by omega) hh hs).trans h1.2
  · omega

/-! ### In terms of pixels -/

theorem cutOf_iff (c c1 c2 : Box) : CutOf c c1 c2 ↔ ∃ d p, lo c d < p ∧ p < hi c d ∧ c1 = withVol (lower c d p) ∧
    c2 = withVol (upper c d p) := by
  constructor
  · rintro (⟨p, h⟩ | ⟨p, h⟩ | ⟨p, h⟩)
    · exact ⟨.red, p, h.1, h.2, rfl, rfl⟩
    · exact ⟨.green, p, h.1, h.2, rfl, rfl⟩
    · exact ⟨.blue, p, h.1, h.2, rfl, rfl⟩
  · rintro ⟨d, p, h1, h2, rfl, rfl⟩
    cases d
    · exact .red p ⟨h1, h2⟩
    · exact .green p ⟨h1, h2⟩
    · exact .blue p ⟨h1, h2⟩

theorem pixelsIn_withVol (pixels : List Int) (c : Box) : pixelsIn pixels (withVol c) = pixelsIn pixels c := rfl

theorem pixelCount_pos (pixels : List Int) (c : Box) : 0 < pixelCount pixels c ↔ pixelsIn pixels c ≠ [] := by
  rw [pixelCount_eq, ← List.length_pos_iff]
  omega

theorem pixelCount_ne (pixels : List Int) (c : Box) : pixelCount pixels c ≠ 0 ↔ pixelsIn pixels c ≠ [] := by
  rw [← pixelCount_pos]
  have : 0 ≤ pixelCount pixels c := by rw [pixelCount_eq]; omega
  omega

theorem proper_parts {c : Box} (hc : Proper c) {d : Direction} {p : Int} (h1 : lo c d < p) (h2 : p < hi c d) :
    Proper (lower c d p) ∧ Proper (upper c d p) := proper_split hc d p ⟨h1, h2⟩

section
variable {F : Type} [Fl F]

/-- The volume of the weights says whether there are pixels. -/
theorem weights_ne {pixels : List Int} {entries : List (Int × Int)} (h : CountsOf pixels entries) {c : Box}
    (hc : Proper c) : volume c (tablesOf F entries).weights ≠ 0 ↔ pixelsIn pixels c ≠ [] := by
  rw [← pixelCount_ne]
  have := (c45_volume (F := F) pixels entries h c hc).1
  rw [show volume c (tablesOf F entries).weights = pixelCount pixels c from this]

end

theorem separates_iff {pixels : List Int} {entries : List (Int × Int)} (h : CountsOf pixels entries) {c : Box}
    (hc : Proper c) {d : Direction} {p : Int} (h1 : lo c d < p) (h2 : p < hi c d) :
    Separates (tablesOf ℝ entries) c d p ↔ pixelsIn pixels (lower c d p) ≠ [] ∧ pixelsIn pixels (upper c d p) ≠ [] := by
  obtain ⟨p1, p2⟩ := proper_parts hc h1 h2
  unfold Separates
  rw [weights_ne h p1, weights_ne h p2]

/-- A larger score is a smaller total spread. -/
theorem score_spread {pixels : List Int} {entries : List (Int × Int)} (h : CountsOf pixels entries) {c : Box}
    (hc : Proper c) {d : Direction} {p : Int} (h1 : lo c d < p) (h2 : p < hi c d) :
    score (tablesOf ℝ entries) c d p = (pixelTotal squared pixels c : ℝ) -
      (spread (pixelsIn pixels (lower c d p)) + spread (pixelsIn pixels (upper c d p))) := by
  obtain ⟨p1, p2⟩ := proper_parts hc h1 h2
  obtain ⟨a1, a2, a3, a4⟩ := c45_volume (F := ℝ) pixels entries h _ p1
  obtain ⟨b1, b2, b3, b4⟩ := c45_volume (F := ℝ) pixels entries h _ p2
  have hs : (pixelTotal squared pixels (lower c d p) : ℝ) + pixelTotal squared pixels (upper c d p) =
      pixelTotal squared pixels c := by exact_mod_cast pixelTotal_split squared pixels c d p ⟨h1, h2⟩
  rw [spread_box, spread_box, ← hs]
  unfold score tablesOf
  rw [a1, a2, a3, a4, b1, b2, b3, b4]
  ring

theorem total_pos (w : Int → Int) (hw : ∀ p, 0 ≤ w p) (l : List Int) (p : Int) (hp : p ∈ l) (h : 0 < w p) :
    0 < (l.map w).sum := by
  induction l with
  | nil => cases hp
  | cons x rest ih =>
    have hn : ∀ l : List Int, 0 ≤ (l.map w).sum := by
      intro l
      induction l with
      | nil => simp
      | cons y l ih2 => rw [List.map_cons, List.sum_cons]; have := hw y; omega
    rw [List.map_cons, List.sum_cons]
    have h1 := hw x
    have h2 := hn rest
    rcases List.mem_cons.1 hp with rfl | hp
    · omega
    · have := ih hp; omega

theorem mem_pixelsIn {pixels : List Int} {c : Box} {p : Int} :
    p ∈ pixelsIn pixels c ↔ p ∈ pixels ∧ alphaFromArgb p = 255 ∧ InBox c p := by
  unfold pixelsIn
  rw [List.mem_filter, decide_eq_true_eq]

/-- The upper part of a cut has a colour that is not black. -/
theorem upper_bright {pixels : List Int} {c : Box} (hc : Proper c) {d : Direction} {p : Int} (h1 : lo c d < p)
    (hn : pixelsIn pixels (upper c d p) ≠ []) :
    0 < pixelTotal redFromArgb pixels (upper c d p) ∨ 0 < pixelTotal greenFromArgb pixels (upper c d p) ∨
      0 < pixelTotal blueFromArgb pixels (upper c d p) := by
  obtain ⟨q, hq⟩ := List.exists_mem_of_ne_nil _ hn
  have hb := (mem_pixelsIn.1 hq).2.2
  have hr := channel_range q
  cases d
  · refine Or.inl (total_pos _ (fun p => (channel_range p).1.1) _ q hq ?_)
    simp only [InBox, upper, lo, Proper] at *
    omega
  · refine Or.inr (Or.inl (total_pos _ (fun p => (channel_range p).2.1.1) _ q hq ?_))
    simp only [InBox, upper, lo, Proper] at *
    omega
  · refine Or.inr (Or.inr (total_pos _ (fun p => (channel_range p).2.2.1) _ q hq ?_))
    simp only [InBox, upper, lo, Proper] at *
    omega

theorem score_pos {pixels : List Int} {entries : List (Int × Int)} (h : CountsOf pixels entries) {c : Box}
    (hc : Proper c) {d : Direction} {p : Int} (h1 : lo c d < p) (h2 : p < hi c d)
    (hs : Separates (tablesOf ℝ entries) c d p) : 0 < score (tablesOf ℝ entries) c d p := by
  obtain ⟨p1, p2⟩ := proper_parts hc h1 h2
  have hsep := (separates_iff h hc h1 h2).1 hs
  obtain ⟨a1, a2, a3, a4⟩ := c45_volume (F := ℝ) pixels entries h _ p1
  obtain ⟨b1, b2, b3, b4⟩ := c45_volume (F := ℝ) pixels entries h _ p2
  have n1 : (0:ℝ) < pixelCount pixels (lower c d p) := by exact_mod_cast (pixelCount_pos _ _).2 hsep.1
  have n2 : (0:ℝ) < pixelCount pixels (upper c d p) := by exact_mod_cast (pixelCount_pos _ _).2 hsep.2
  unfold score tablesOf
  rw [a1, a2, a3, a4, b1, b2, b3, b4]
  refine add_pos_of_nonneg_of_pos (by positivity) (div_pos ?_ n2)
  rcases upper_bright hc h1 hsep.2 with hp | hp | hp
  · have : (0:ℝ) < pixelTotal redFromArgb pixels (upper c d p) := by exact_mod_cast hp
    positivity
  · have : (0:ℝ) < pixelTotal greenFromArgb pixels (upper c d p) := by exact_mod_cast hp
    positivity
  · have : (0:ℝ) < pixelTotal blueFromArgb pixels (upper c d p) := by exact_mod_cast hp
    positivity

end Mcu.QuantizerWu
