import Verif.Lemmas.WuHistogram
import Verif.Lemmas.WuArith
import Verif.Props.QuantizerMap

/-! Volumes, cuts and the box loop of the Wu quantizer. -/

namespace Mcu.QuantizerWu

open Mcu.Spec ColorUtils

/-! ### Volumes -/

/-- The tables the quantizer works with. -/
def tablesOf (F : Type) [Fl F] (entries : List (Int × Int)) : Tables F := computeMoments (constructHistogram entries)

section
variable {F : Type} [Fl F]

theorem volume_of_shows {m : Array Int} {f : ℤ → ℤ → ℤ → Int} (h : Shows m (prefixSum f)) {c : Box}
    (hc : Proper c) : volume c m = cellSum f c.r0 c.r1 c.g0 c.g1 c.b0 c.b1 := by
  obtain ⟨⟨r0, r1, r2⟩, ⟨g0, g1, g2⟩, b0, b1, b2⟩ := hc
  unfold volume
  rw [← prefixSum_box f ⟨r0, r1⟩ ⟨g0, g1⟩ ⟨b0, b1⟩]
  rw [h.2, h.2, h.2, h.2, h.2, h.2, h.2, h.2] <;> omega

theorem volumeF_of_shows {m : Array ℝ} {f : ℤ → ℤ → ℤ → ℝ} (h : Shows m (prefixSum f)) {c : Box}
    (hc : Proper c) : volumeF c m = cellSum f c.r0 c.r1 c.g0 c.g1 c.b0 c.b1 := by
  obtain ⟨⟨r0, r1, r2⟩, ⟨g0, g1, g2⟩, b0, b1, b2⟩ := hc
  have e0 : (0.0:ℝ) = 0 := by norm_num
  unfold volumeF
  rw [show (OfScientific.ofScientific 0 true 1 : ℝ) = 0 from e0]
  rw [← prefixSum_box f ⟨r0, r1⟩ ⟨g0, g1⟩ ⟨b0, b1⟩]
  rw [h.2, h.2, h.2, h.2, h.2, h.2, h.2, h.2] <;> omega

theorem boxTotal_eq (w : Int → Int) (v : Int × Int → Int) (hv : ∀ e, v e = e.2 * w e.1)
    (entries : List (Int × Int)) (c : Box) :
    cellSum (cellTotal v entries) c.r0 c.r1 c.g0 c.g1 c.b0 c.b1 = boxTotal w entries c := by
  rw [cellSum_cellTotal]
  unfold boxTotal
  congr 2
  funext e
  exact hv e

theorem cm_weights (t : Tables F) : (computeMoments t).weights = cumulate 0 t.weights := by simp only [computeMoments]
theorem cm_momentsR (t : Tables F) : (computeMoments t).momentsR = cumulate 0 t.momentsR := by simp only [computeMoments]
theorem cm_momentsG (t : Tables F) : (computeMoments t).momentsG = cumulate 0 t.momentsG := by simp only [computeMoments]
theorem cm_momentsB (t : Tables F) : (computeMoments t).momentsB = cumulate 0 t.momentsB := by simp only [computeMoments]
theorem cm_moments (t : Tables F) : (computeMoments t).moments = cumulate 0.0 t.moments := by simp only [computeMoments]

theorem tables_weights (entries : List (Int × Int)) :
    Shows (tablesOf F entries).weights (prefixSum (cellTotal (fun e => e.2) entries)) := by
  have h := congrArg Tables.weights (hist_split (F := F) entries)
  rw [tablesOf, cm_weights, h]
  exact table_shows (fun e => e.2) entries

theorem tables_red (entries : List (Int × Int)) :
    Shows (tablesOf F entries).momentsR (prefixSum (cellTotal (fun e => redFromArgb e.1 * e.2) entries)) := by
  have h := congrArg Tables.momentsR (hist_split (F := F) entries)
  rw [tablesOf, cm_momentsR, h]
  exact table_shows (fun e => redFromArgb e.1 * e.2) entries

theorem tables_green (entries : List (Int × Int)) :
    Shows (tablesOf F entries).momentsG (prefixSum (cellTotal (fun e => greenFromArgb e.1 * e.2) entries)) := by
  have h := congrArg Tables.momentsG (hist_split (F := F) entries)
  rw [tablesOf, cm_momentsG, h]
  exact table_shows (fun e => greenFromArgb e.1 * e.2) entries

theorem tables_blue (entries : List (Int × Int)) :
    Shows (tablesOf F entries).momentsB (prefixSum (cellTotal (fun e => blueFromArgb e.1 * e.2) entries)) := by
  have h := congrArg Tables.momentsB (hist_split (F := F) entries)
  rw [tablesOf, cm_momentsB, h]
  exact table_shows (fun e => blueFromArgb e.1 * e.2) entries

theorem volume_weights (entries : List (Int × Int)) {c : Box} (hc : Proper c) :
    volume c (tablesOf F entries).weights = boxPixels entries c :=
  (volume_of_shows (tables_weights entries) hc).trans (boxTotal_eq _ _ (fun _ => (mul_one _).symm) _ _)

theorem volume_red (entries : List (Int × Int)) {c : Box} (hc : Proper c) :
    volume c (tablesOf F entries).momentsR = boxTotal redFromArgb entries c :=
  (volume_of_shows (tables_red entries) hc).trans (boxTotal_eq _ _ (fun _ => mul_comm _ _) _ _)

theorem volume_green (entries : List (Int × Int)) {c : Box} (hc : Proper c) :
    volume c (tablesOf F entries).momentsG = boxTotal greenFromArgb entries c :=
  (volume_of_shows (tables_green entries) hc).trans (boxTotal_eq _ _ (fun _ => mul_comm _ _) _ _)

theorem volume_blue (entries : List (Int × Int)) {c : Box} (hc : Proper c) :
    volume c (tablesOf F entries).momentsB = boxTotal blueFromArgb entries c :=
  (volume_of_shows (tables_blue entries) hc).trans (boxTotal_eq _ _ (fun _ => mul_comm _ _) _ _)

end

theorem tables_squared (entries : List (Int × Int)) :
    Shows (tablesOf ℝ entries).moments
      (prefixSum (cellTotal (fun e => ((e.2 * squared e.1 : Int) : ℝ)) entries)) := by
  have e0 : (0.0:ℝ) = 0 := by norm_num
  have h := congrArg Tables.moments (hist_split (F := ℝ) entries)
  rw [tablesOf, cm_moments, h, addSquare_real, show (OfScientific.ofScientific 0 true 1 : ℝ) = 0 from e0]
  exact table_shows (fun e => ((e.2 * squared e.1 : Int) : ℝ)) entries

theorem sum_cast (l : List (Int × Int)) (f : Int × Int → Int) :
    (l.map fun e => ((f e : Int) : ℝ)).sum = (((l.map f).sum : Int) : ℝ) := by
  induction l with
  | nil => simp
  | cons e rest ih => rw [List.map_cons, List.sum_cons, ih, List.map_cons, List.sum_cons]; push_cast; rfl

theorem volumeF_squared (entries : List (Int × Int)) {c : Box} (hc : Proper c) :
    volumeF c (tablesOf ℝ entries).moments = (boxTotal squared entries c : ℝ) := by
  refine (volumeF_of_shows (tables_squared entries) hc).trans ?_
  rw [cellSum_cellTotal]
  exact sum_cast _ fun e => e.2 * squared e.1

/-- The lower part of a box cut at `p`. -/
def lower (c : Box) (d : Direction) (p : Int) : Box :=
  match d with
  | .red => { c with r1 := p }
  | .green => { c with g1 := p }
  | .blue => { c with b1 := p }

/-- The upper part of a box cut at `p`. -/
def upper (c : Box) (d : Direction) (p : Int) : Box :=
  match d with
  | .red => { c with r0 := p }
  | .green => { c with g0 := p }
  | .blue => { c with b0 := p }

theorem bottom_top (c : Box) (d : Direction) (p : Int) (m : Array Int) :
    bottom c d m + top c d p m = volume (lower c d p) m := by
  cases d <;> simp only [bottom, top, volume, lower] <;> ring

theorem volume_upper (c : Box) (d : Direction) (p : Int) (m : Array Int) :
    volume (upper c d p) m = volume c m - volume (lower c d p) m := by
  cases d <;> simp only [volume, lower, upper] <;> ring

theorem volume_withVol (c : Box) (m : Array Int) : volume (withVol c) m = volume c m := rfl

/-! ### Maximize -/

section
variable {F : Type} [Fl F] [WuArith F]

/-- What `maximize` guarantees about its result. -/
def MaxOk (t : Tables F) (c : Box) (d : Direction) (first last wholeW : Int) (s : MaximizeResult F) : Prop :=
  (s.cutLocation = -1 ∧ s.maximum = 0.0) ∨
    (first ≤ s.cutLocation ∧ s.cutLocation < last ∧ volume (lower c d s.cutLocation) t.weights ≠ 0 ∧
      wholeW - volume (lower c d s.cutLocation) t.weights ≠ 0 ∧ (0.0 : F) < s.maximum)

omit [WuArith F] in
theorem MaxOk.nonneg {t : Tables F} {c : Box} {d : Direction} {first last wW : Int}
    {s : MaximizeResult F} (hs : MaxOk t c d first last wW s) : NonNeg s.maximum := by
  rcases hs with ⟨-, h⟩ | ⟨-, -, -, -, h⟩
  · exact Or.inl h
  · exact Or.inr h

theorem maximizeStep_ok {t : Tables F} {c : Box} {d : Direction} {first last wR wG wB wW : Int}
    {s : MaximizeResult F} (hs : MaxOk t c d first last wW s) {i : Int} (hi : first ≤ i ∧ i < last) :
    MaxOk t c d first last wW (maximizeStep t c d wR wG wB wW s i) := by
  simp only [maximizeStep, bottom_top]
  split_ifs with h1 h2 h3
  · exact hs
  · exact hs
  · refine Or.inr ⟨hi.1, hi.2, h1, h2, ?_⟩
    rcases hs.nonneg with h | h
    · rw [h] at h3; exact h3
    · exact WuArith.lt_trans _ _ _ h h3
  · exact hs

theorem mem_rangeI {first last i : Int} (h : i ∈ rangeI first last) : first ≤ i ∧ i < last := by
  unfold rangeI at h
  obtain ⟨n, hn, rfl⟩ := List.mem_map.1 h
  have := List.mem_range.1 hn
  omega

theorem maximize_ok (t : Tables F) (c : Box) (d : Direction) (first last wR wG wB wW : Int) :
    MaxOk t c d first last wW (maximize t c d first last wR wG wB wW) := by
  unfold maximize
  have : ∀ (l : List Int), (∀ i ∈ l, first ≤ i ∧ i < last) → ∀ s, MaxOk t c d first last wW s →
      MaxOk t c d first last wW (l.foldl (maximizeStep t c d wR wG wB wW) s) := by
    intro l
    induction l with
    | nil => exact fun _ s h => h
    | cons i rest ih =>
      exact fun hl s hs => ih (fun j hj => hl j (List.mem_cons_of_mem _ hj)) _
        (maximizeStep_ok hs (hl i List.mem_cons_self))
  exact this _ (fun i hi => mem_rangeI hi) _ (Or.inl ⟨rfl, rfl⟩)

/-! ### Cut -/

/-- Lower and upper bound of a box along an axis. -/
def lo (c : Box) : Direction → Int
  | .red => c.r0 | .green => c.g0 | .blue => c.b0
def hi (c : Box) : Direction → Int
  | .red => c.r1 | .green => c.g1 | .blue => c.b1

/-- What `cut` guarantees: the box is divided along one axis at a place strictly inside, and both
parts contain pixels. -/
theorem cut_ok {t : Tables F} {one c1 c2 : Box} (h : cut t one = some (c1, c2)) :
    ∃ d p, lo one d < p ∧ p < hi one d ∧ c1 = withVol (lower one d p) ∧ c2 = withVol (upper one d p) ∧
      volume c1 t.weights ≠ 0 ∧ volume c2 t.weights ≠ 0 := by
  simp only [cut] at h
  set wR := volume one t.momentsR
  set wG := volume one t.momentsG
  set wB := volume one t.momentsB
  set wW := volume one t.weights with hwW
  have mr := maximize_ok t one .red (one.r0 + 1) one.r1 wR wG wB wW
  have mg := maximize_ok t one .green (one.g0 + 1) one.g1 wR wG wB wW
  have mb := maximize_ok t one .blue (one.b0 + 1) one.b1 wR wG wB wW
  set rr := maximize t one .red (one.r0 + 1) one.r1 wR wG wB wW
  set gr := maximize t one .green (one.g0 + 1) one.g1 wR wG wB wW
  set br := maximize t one .blue (one.b0 + 1) one.b1 wR wG wB wW
  have nr := mr.nonneg
  have ng := mg.nonneg
  have nb := mb.nonneg
  split_ifs at h with h1 h2 h3
  · rcases mr with ⟨e, -⟩ | ⟨l1, l2, l3, l4, -⟩
    · exact absurd (by rw [e]; norm_num) h2
    · obtain ⟨rfl, rfl⟩ := Prod.mk.inj (Option.some.inj h)
      refine ⟨.red, rr.cutLocation, by show one.r0 < _; omega, l2, rfl, rfl, l3, ?_⟩
      have := volume_upper one .red rr.cutLocation t.weights
      rw [volume_withVol]
      exact fun h0 => l4 (this.symm.trans h0)
  · rcases mg with ⟨-, e⟩ | ⟨l1, l2, l3, l4, -⟩
    · refine absurd ⟨?_, WuArith.le_trans _ _ _ nb ng nr h3.2 ?_⟩ h1
      · show gr.maximum ≤ rr.maximum
        rw [e]; exact WuArith.zero_le _ nr
      · rw [e]; exact WuArith.zero_le _ nr
    · obtain ⟨rfl, rfl⟩ := Prod.mk.inj (Option.some.inj h)
      refine ⟨.green, gr.cutLocation, by show one.g0 < _; omega, l2, rfl, rfl, l3, ?_⟩
      have := volume_upper one .green gr.cutLocation t.weights
      rw [volume_withVol]
      exact fun h0 => l4 (this.symm.trans h0)
  · rcases mb with ⟨-, e⟩ | ⟨l1, l2, l3, l4, -⟩
    · exfalso
      rcases WuArith.total _ _ nr ng with hle | hle
      · exact h3 ⟨hle, by show br.maximum ≤ gr.maximum; rw [e]; exact WuArith.zero_le _ ng⟩
      · exact h1 ⟨hle, by show br.maximum ≤ rr.maximum; rw [e]; exact WuArith.zero_le _ nr⟩
    · obtain ⟨rfl, rfl⟩ := Prod.mk.inj (Option.some.inj h)
      refine ⟨.blue, br.cutLocation, by show one.b0 < _; omega, l2, rfl, rfl, l3, ?_⟩
      have := volume_upper one .blue br.cutLocation t.weights
      rw [volume_withVol]
      exact fun h0 => l4 (this.symm.trans h0)

omit [WuArith F] in
theorem recorded_total {t : Tables F} {c : Box} (h : volume c t.weights ≠ 0) : ∃ v, recorded t c = some v := by
  unfold recorded variance
  simp only
  split_ifs
  · exact ⟨_, rfl⟩
  · exact ⟨_, rfl⟩

/-! ### The box loop -/

omit [WuArith F] in
theorem argmax_le (vv : List F) (i : Nat) : (argmax vv i).1 ≤ i := by
  unfold argmax
  have : ∀ (l : List Nat), (∀ j ∈ l, j ≤ i) → ∀ best : Nat × F, best.1 ≤ i →
      (l.foldl (fun (best : Nat × F) j =>
        let v := vv.getD j 0.0
        if v > best.2 then (j, v) else best) best).1 ≤ i := by
    intro l
    induction l with
    | nil => exact fun _ best h => h
    | cons j rest ih =>
      intro hl best hb
      rw [List.foldl_cons]
      refine ih (fun k hk => hl k (List.mem_cons_of_mem _ hk)) _ ?_
      simp only
      split_ifs
      · exact hl j List.mem_cons_self
      · exact hb
  refine this _ ?_ _ (Nat.zero_le _)
  intro j hj
  obtain ⟨k, hk, rfl⟩ := List.mem_map.1 hj
  have := List.mem_range.1 hk
  omega

/-- The boxes from index `k` on are unused. -/
def UnusedFrom (cubes : List Box) (k : Nat) : Prop := ∀ j, k ≤ j → j < cubes.length → cubes.getD j {} = {}

theorem countP_set_add {α : Type} (p : α → Bool) (l : List α) (i : Nat) (a d : α) (h : i < l.length) :
    (l.set i a).countP p + (if p (l.getD i d) then 1 else 0) = l.countP p + (if p a then 1 else 0) := by
  induction l generalizing i with
  | nil => simp at h
  | cons x rest ih =>
    cases i with
    | zero => simp [List.countP_cons]; omega
    | succ i =>
      have h' : i < rest.length := by simpa using h
      have := ih i h'
      simp only [List.set_cons_succ, List.countP_cons, List.getD_cons_succ]
      omega

theorem getD_set_ne {α : Type} (l : List α) (i j : Nat) (a d : α) (h : i ≠ j) :
    (l.set i a).getD j d = l.getD j d := by
  simp [List.getD, h]

theorem getD_mem {α : Type} (l : List α) (i : Nat) (d : α) (h : i < l.length) : l.getD i d ∈ l := by
  rw [List.getD_eq_getElem?_getD, List.getElem?_eq_getElem h]; exact List.getElem_mem h

theorem indicator_split {p q r : Prop} [Decidable p] [Decidable q] [Decidable r] (h : p ↔ q ∨ r)
    (hx : ¬ (q ∧ r)) : (if decide q then 1 else 0) + (if decide r then 1 else 0) =
      (if decide p then 1 else 0 : Nat) := by
  by_cases hq : q <;> by_cases hr : r <;> simp_all

theorem hasCell_split (c : Box) (d : Direction) (p : Int) (h : lo c d < p ∧ p < hi c d) (r g b : Int) :
    (if decide (HasCell (withVol (lower c d p)) r g b) then 1 else 0) +
      (if decide (HasCell (withVol (upper c d p)) r g b) then 1 else 0) =
    (if decide (HasCell c r g b) then 1 else 0 : Nat) := by
  refine indicator_split ?_ ?_ <;> cases d <;> simp only [lo, hi] at h <;>
    simp only [HasCell, withVol, lower, upper] <;> omega

theorem proper_split {c : Box} (hc : Proper c) (d : Direction) (p : Int) (h : lo c d < p ∧ p < hi c d) :
    Proper (withVol (lower c d p)) ∧ Proper (withVol (upper c d p)) := by
  cases d <;> simp only [lo, hi] at h <;> simp only [Proper, withVol, lower, upper] at * <;> omega

/-- One successful cut keeps the partition. -/
theorem partition_cut {cubes : List Box} (h : Partition cubes) {next i : Nat} (hn : next < i)
    (hi' : i < cubes.length) (hu : UnusedFrom cubes i) {d : Direction} {p : Int}
    (hp : lo (cubes.getD next {}) d < p ∧ p < hi (cubes.getD next {}) d) :
    Partition ((cubes.set next (withVol (lower (cubes.getD next {}) d p))).set i
        (withVol (upper (cubes.getD next {}) d p))) ∧
      UnusedFrom ((cubes.set next (withVol (lower (cubes.getD next {}) d p))).set i
        (withVol (upper (cubes.getD next {}) d p))) (i + 1) := by
  have hnl : next < cubes.length := lt_trans hn hi'
  have hc := h.1 _ (getD_mem cubes next {} hnl)
  set c := cubes.getD next {} with hcdef
  obtain ⟨pl, pu⟩ := proper_split hc d p hp
  refine ⟨⟨?_, ?_⟩, ?_⟩
  · intro x hx
    rcases List.mem_or_eq_of_mem_set hx with hx | rfl
    · rcases List.mem_or_eq_of_mem_set hx with hx | rfl
      · exact h.1 x hx
      · exact pl
    · exact pu
  · intro r g b h1 h2 h3 h4 h5 h6
    have hpart := h.2 r g b h1 h2 h3 h4 h5 h6
    have e1 := countP_set_add (fun c => decide (HasCell c r g b)) cubes next (withVol (lower c d p)) {} hnl
    have e2 := countP_set_add (fun c => decide (HasCell c r g b)) (cubes.set next (withVol (lower c d p))) i
      (withVol (upper c d p)) {} (by rw [List.length_set]; exact hi')
    rw [getD_set_ne _ _ _ _ _ (ne_of_lt hn), hu i (le_refl _) hi'] at e2
    have e3 := hasCell_split c d p hp r g b
    have e4 : (if decide (HasCell ({} : Box) r g b) then 1 else 0 : Nat) = 0 := by
      have hn' : ¬ HasCell ({} : Box) r g b := by unfold HasCell; simp only; omega
      rw [if_neg (by simpa using hn')]
    rw [← hcdef] at e1
    omega
  · intro j hj hjl
    rw [List.length_set, List.length_set] at hjl
    rw [getD_set_ne _ _ _ _ _ (by omega), getD_set_ne _ _ _ _ _ (by omega)]
    exact hu j (by omega) hjl

/-- The loop never panics and keeps the partition. -/
theorem boxLoop_ok (t : Tables F) (n : Nat) (m : Nat) : ∀ (i next : Nat) (vv : List F) (cubes : List Box),
    1 ≤ i → i + m ≤ n → cubes.length = n → next < i → Partition cubes → UnusedFrom cubes i →
    ∃ cubes' k, boxLoop t n (List.range' i m) next vv cubes = some (cubes', k) ∧ cubes'.length = n ∧
      1 ≤ k ∧ k ≤ n ∧ Partition cubes' ∧ UnusedFrom cubes' k := by
  induction m with
  | zero =>
    intro i next vv cubes h1 h2 h3 h4 h5 _
    exact ⟨cubes, n, rfl, h3, by omega, le_refl _, h5, fun j hj hjl => by omega⟩
  | succ m ih =>
    intro i next vv cubes h1 h2 h3 h4 h5 h6
    rw [List.range'_succ]
    simp only [boxLoop]
    cases hcut : cut t (cubes.getD next {}) with
    | none =>
      simp only
      split_ifs with hbest
      · exact ⟨cubes, i - 1 + 1, rfl, h3, by omega, by omega, h5, fun j hj hjl => h6 j (by omega) hjl⟩
      · exact ih (i + 1) _ _ cubes (by omega) (by omega) h3
          (lt_of_le_of_lt (argmax_le _ _) (by omega)) h5 (fun j hj hjl => h6 j (by omega) hjl)
    | some pr =>
      obtain ⟨c1, c2⟩ := pr
      obtain ⟨d, p, hp1, hp2, rfl, rfl, v1, v2⟩ := cut_ok hcut
      obtain ⟨w1, hw1⟩ := recorded_total v1
      obtain ⟨w2, hw2⟩ := recorded_total v2
      obtain ⟨q1, q2⟩ := partition_cut h5 h4 (by omega) h6 ⟨hp1, hp2⟩
      simp only [hw1, hw2, Option.bind_eq_bind, Option.bind_some]
      split_ifs with hbest
      · exact ⟨_, _, rfl, by rw [List.length_set, List.length_set, h3], by omega, by omega, q1, q2⟩
      · exact ih (i + 1) _ _ _ (by omega) (by omega) (by rw [List.length_set, List.length_set, h3])
          (lt_of_le_of_lt (argmax_le _ _) (by omega)) q1 q2

theorem range_map_succ (k : Nat) : (List.range k).map (· + 1) = List.range' 1 k := by
  rw [List.range_eq_range', List.range'_eq_map_range, List.range'_eq_map_range, List.map_map]
  congr 1
  funext x
  simp [Nat.add_comm]

theorem partition_first (k : Nat) : Partition (firstBox :: List.replicate k {}) := by
  constructor
  · intro c hc
    rcases List.mem_cons.1 hc with rfl | hc
    · simp [Proper, firstBox, maxIndex]
    · rw [List.eq_of_mem_replicate hc]; simp [Proper]
  · intro r g b h1 h2 h3 h4 h5 h6
    have hn' : ¬ HasCell ({} : Box) r g b := by unfold HasCell; simp only; omega
    have hf : HasCell firstBox r g b := by unfold HasCell firstBox maxIndex; simp only; omega
    rw [List.countP_cons, if_pos (by simpa using hf), List.countP_eq_zero.2]
    intro c hc
    rw [List.eq_of_mem_replicate hc]
    simpa using hn'

theorem createBoxes_ok (t : Tables F) (n : Nat) (hn : 1 ≤ n) (m : Nat) (hm : m ≤ n - 1) :
    ∃ cubes k, boxLoop t n (List.range' 1 m) 0 (List.replicate n 0.0)
        (firstBox :: List.replicate (n - 1) {}) = some (cubes, k) ∧
      cubes.length = n ∧ 1 ≤ k ∧ k ≤ n ∧ Partition cubes ∧ UnusedFrom cubes k := by
  refine boxLoop_ok t n m 1 0 _ _ (le_refl _) (by omega) (by simp; omega) (by omega) (partition_first _) ?_
  intro j hj hjl
  obtain ⟨j', rfl⟩ : ∃ j', j = j' + 1 := ⟨j - 1, by omega⟩
  rw [List.getD_cons_succ, List.getD_eq_getElem?_getD, List.getElem?_replicate]
  split_ifs <;> rfl

end

end Mcu.QuantizerWu
