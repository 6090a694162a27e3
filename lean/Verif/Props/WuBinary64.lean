import Verif.Props.WuOverflow

/-! Properties C45 and C49 for binary64 numbers: the table of squares holds integers below 2^53, so no addition rounds. -/

namespace Mcu.QuantizerWu

/-! ### Running the loops on related numbers -/

section
variable {α β : Type} (R : α → β → Prop)

/-- Two tables of the same size with related entries. -/
def TabRel (t : Array α) (u : Array β) : Prop :=
  t.size = u.size ∧ ∀ (i : Nat) (h : i < t.size) (h' : i < u.size), R t[i] u[i]

variable {R} {z : α} {z' : β}

theorem TabRel.get (hz : R z z') {t : Array α} {u : Array β} (h : TabRel R t u) (i : Int) : R (tget z t i) (tget z' u i) := by
  unfold tget
  split_ifs
  · rw [Array.getD_eq_getD_getElem?, Array.getD_eq_getD_getElem?]
    by_cases hi : i.toNat < t.size
    · have hi' : i.toNat < u.size := h.1 ▸ hi
      rw [Array.getElem?_eq_getElem hi, Array.getElem?_eq_getElem hi']
      exact h.2 _ hi hi'
    · have hi' : ¬ i.toNat < u.size := h.1 ▸ hi
      rw [Array.getElem?_eq_none (by omega), Array.getElem?_eq_none (by omega)]
      exact hz
  · exact hz

theorem TabRel.set {t : Array α} {u : Array β} (h : TabRel R t u) (i : Int) {x : α} {y : β} (hx : R x y) :
    TabRel R (tset t i x) (tset u i y) := by
  refine ⟨by rw [tset_size, tset_size, h.1], ?_⟩
  unfold tset
  split_ifs
  · intro j hj hj'
    rw [Array.size_setIfInBounds] at hj hj'
    rw [Array.getElem_setIfInBounds hj, Array.getElem_setIfInBounds hj']
    split_ifs
    · exact hx
    · exact h.2 _ _ _
  · exact h.2

theorem TabRel.replicate (hz : R z z') (n : Nat) : TabRel R (Array.replicate n z) (Array.replicate n z') := by
  refine ⟨by simp, fun i h h' => ?_⟩
  rw [Array.getElem_replicate, Array.getElem_replicate]
  exact hz

theorem foldl_rel {γ δ ε : Type} {S : γ → δ → Prop} {f : γ → ε → γ} {g : δ → ε → δ}
    (h : ∀ a b e, S a b → S (f a e) (g b e)) (l : List ε) : ∀ a b, S a b → S (l.foldl f a) (l.foldl g b) := by
  induction l with
  | nil => exact fun a b h => h
  | cons e rest ih => exact fun a b hab => ih _ _ (h a b e hab)

variable [Add α] [Add β]

theorem cumulate_rel (hz : R z z') (ha : ∀ a b x y, R a x → R b y → R (a + b) (x + y)) {t : Array α} {u : Array β}
    (h : TabRel R t u) : TabRel R (cumulate z t) (cumulate z' u) := by
  let S : MomentState α → MomentState β → Prop := fun s s' =>
    TabRel R s.tab s'.tab ∧ TabRel R s.area s'.area ∧ R s.line s'.line
  unfold cumulate
  refine foldl_rel (S := TabRel R) ?_ side _ _ h
  intro t u r h
  unfold momentR
  have hs : S { tab := t, area := Array.replicate sideLength z, line := z }
      { tab := u, area := Array.replicate sideLength z', line := z' } := ⟨h, TabRel.replicate hz _, hz⟩
  refine (foldl_rel (S := S) ?_ side _ _ hs).1
  intro s s' g h
  unfold momentG
  refine foldl_rel (S := S) ?_ side _ _ ⟨h.1, h.2.1, hz⟩
  intro s s' b h
  unfold momentB
  simp only
  have hl := ha _ _ _ _ h.2.2 (h.1.get hz (getIndex r g b))
  have har := h.2.1.set b (ha _ _ _ _ (h.2.1.get hz b) hl)
  exact ⟨h.1.set _ (ha _ _ _ _ (h.1.get hz _) (har.get hz b)), har, hl⟩

end

end Mcu.QuantizerWu

namespace Mcu.Props

open Mcu.QuantizerWu Mcu.ColorUtils Mcu.Spec Mcu.Ieee Mcu.Lemmas

variable {L : Libm}

/-- A number that remembers exceeding `M`, and the binary64 number of the same value. -/
def Same (M : Nat) (a : Cap M) (x : F64 L) : Prop := ∀ n, a = .ok n → x = Fl.ofInt (n.1 : Int)

theorem dbl_nat {n : Nat} (h : n ≤ 2 ^ 53) (h0 : n ≠ 0) : ∃ hw, Dbl.ofReal false (n : ℝ) = Dbl.num (n : ℝ) hw := by
  have e : rnd (n : ℝ) = n := by
    have := (rep_int (n := (n : ℤ)) (by rw [Nat.abs_cast]; exact_mod_cast h)).rnd_eq
    simpa using this
  have hn : (n : ℝ) ≠ 0 := by exact_mod_cast h0
  have hlt : |(n : ℝ)| < 2 ^ 1024 := by
    rw [Nat.abs_cast]
    have : (n : ℝ) ≤ ((2 ^ 53 : ℕ) : ℝ) := by exact_mod_cast h
    refine this.trans_lt ?_
    rw [show ((2 ^ 53 : ℕ) : ℝ) = (2 : ℝ) ^ 53 by norm_num]
    exact pow_lt_pow_right₀ (by norm_num) (by norm_num)
  have hr : Rep (n : ℝ) := e ▸ rep_rnd _
  refine ⟨⟨hr, hn, hlt⟩, ?_⟩
  unfold Dbl.ofReal
  simp only [e]
  rw [dif_neg hn, dif_pos hlt]

theorem dbl_zero : Dbl.ofReal false 0 = Dbl.zero false := by
  unfold Dbl.ofReal
  rw [dif_pos]
  have := (rep_int (n := (0 : ℤ)) (by norm_num)).rnd_eq
  simpa using this

theorem dbl_add {a b : Nat} (h : a + b ≤ 2 ^ 53) :
    Dbl.add (Dbl.ofReal false a) (Dbl.ofReal false b) = Dbl.ofReal false ((a + b : ℕ) : ℝ) := by
  by_cases ha : a = 0
  · subst ha
    rw [Nat.zero_add, Nat.cast_zero, dbl_zero]
    by_cases hb : b = 0
    · subst hb
      rw [Nat.cast_zero, dbl_zero]
      simp [Dbl.add, Dbl.val, Dbl.neg?]
    · obtain ⟨hw, e⟩ := dbl_nat (by omega) hb
      have hb' : (b : ℝ) ≠ 0 := by exact_mod_cast hb
      conv_lhs => rw [e]
      simp [Dbl.add, Dbl.val, hb']
  · obtain ⟨hw, e⟩ := dbl_nat (n := a) (by omega) ha
    have ha' : (0 : ℝ) < a := by exact_mod_cast Nat.pos_of_ne_zero ha
    by_cases hb : b = 0
    · subst hb
      rw [Nat.add_zero, Nat.cast_zero, dbl_zero]
      conv_lhs => rw [e]
      simp [Dbl.add, Dbl.val, ha]
    · obtain ⟨hw', e'⟩ := dbl_nat (n := b) (by omega) hb
      have hb' : (0 : ℝ) < b := by exact_mod_cast Nat.pos_of_ne_zero hb
      conv_lhs => rw [e, e']
      have hs : ¬ (Dbl.num (a : ℝ) hw).val + (Dbl.num (b : ℝ) hw').val = 0 := by
        show ¬ (a : ℝ) + b = 0
        linarith
      simp only [Dbl.add]
      rw [if_neg hs, Nat.cast_add]
      rfl

/-- Sums of natural numbers up to 2^53 are exact, signs of zeros included. -/
theorem ofInt_add {a b : Nat} (h : a + b ≤ 2 ^ 53) :
    (Fl.ofInt (a : Int) + Fl.ofInt (b : Int) : F64 L) = Fl.ofInt ((a + b : ℕ) : Int) := by
  show Dbl.add (Dbl.ofReal false (((a : ℕ) : ℤ) : ℝ)) (Dbl.ofReal false (((b : ℕ) : ℤ) : ℝ)) =
    Dbl.ofReal false (((a + b : ℕ) : ℤ) : ℝ)
  rw [Int.cast_natCast, Int.cast_natCast, Int.cast_natCast]
  exact dbl_add h

theorem lit_zero : (0.0 : F64 L) = Fl.ofInt (0 : Int) := by
  show Dbl.ofReal false (OfScientific.ofScientific 0 true 1 : ℝ) = Dbl.ofReal false ((0 : ℤ) : ℝ)
  congr 1
  norm_num

theorem same_zero (M : Nat) : Same (L := L) M 0 0.0 := by
  intro n hn
  have : n.1 = 0 := by
    have h0 : (0 : Cap M) = .ok ⟨0, by omega⟩ := cap_ok (by omega)
    rw [h0] at hn
    cases hn
    rfl
  rw [this, lit_zero]
  rfl

theorem same_add {M : Nat} (hM : M ≤ 2 ^ 53) (a b : Cap M) (x y : F64 L) (ha : Same M a x) (hb : Same M b y) :
    Same M (a + b) (x + y) := by
  intro n hn
  cases a with
  | over => cases hn
  | ok a =>
    cases b with
    | over => cases hn
    | ok b =>
      have hs : cap M (a.1 + b.1) = .ok n := hn
      by_cases h : a.1 + b.1 < M + 1
      · rw [cap_ok h] at hs
        cases hs
        rw [ha a rfl, hb b rfl]
        exact ofInt_add (by omega)
      · rw [cap_over h] at hs
        cases hs

theorem same_cap {M : Nat} (n : Nat) : Same (L := L) M (cap M n) (Fl.ofInt (n : Int)) := by
  intro m hm
  by_cases h : n < M + 1
  · rw [cap_ok h] at hm
    cases hm
    rfl
  · rw [cap_over h] at hm
    cases hm

theorem squared_range (p : Int) : 0 ≤ squared p ∧ squared p ≤ 195075 := by
  obtain ⟨c1, c2, c3⟩ := channel_range p
  unfold squared
  constructor <;> nlinarith

/-- The numbers added up in the table of squares. -/
def squareSummand (e : Int × Int) : Nat := (e.2 * squared e.1).toNat

theorem squares_fold (M : Nat) (hM : M ≤ 2 ^ 53) (entries : List (Int × Int)) (hpos : ∀ e ∈ entries, 0 ≤ e.2) :
    TabRel (Same (L := L) M) (entries.foldl (addOne fun e => cap M (squareSummand e)) (Array.replicate totalSize 0))
      (entries.foldl addSquare (Array.replicate totalSize 0.0)) := by
  have : ∀ (l : List (Int × Int)), (∀ e ∈ l, 0 ≤ e.2) → ∀ (t : Array (Cap M)) (u : Array (F64 L)), TabRel (Same M) t u →
      TabRel (Same (L := L) M) (l.foldl (addOne fun e => cap M (squareSummand e)) t) (l.foldl addSquare u) := by
    intro l
    induction l with
    | nil => exact fun _ t u h => h
    | cons e rest ih =>
      intro hl t u h
      refine ih (fun x hx => hl x (List.mem_cons_of_mem _ hx)) _ _ ?_
      unfold addOne addSquare
      refine h.set _ (same_add hM _ _ _ _ (h.get (same_zero M) _) ?_)
      have he : e.2 * squared e.1 = (squareSummand e : Int) :=
        (Int.toNat_of_nonneg (mul_nonneg (hl e List.mem_cons_self) (squared_range e.1).1)).symm
      rw [he]
      exact same_cap _
  exact this entries hpos _ _ (TabRel.replicate (same_zero M) _)

theorem counts_pos {pixels : List Int} {entries : List (Int × Int)} (h : CountsOf pixels entries) :
    ∀ e ∈ entries, 0 ≤ e.2 := by
  intro e he
  have := (c43_entries pixels e.1 e.2).1 (h.mem_iff.1 he)
  omega

theorem squares_total {pixels : List Int} {entries : List (Int × Int)} (h : CountsOf pixels entries) :
    ((entries.map squareSummand).sum : Int) ≤ 195075 * opaqueCount pixels := by
  have h1 : ∀ l : List (Int × Int), (∀ e ∈ l, 0 ≤ e.2) →
      (((l.map squareSummand).sum : Nat) : Int) ≤ 195075 * (l.map fun e => e.2 * 1).sum := by
    intro l
    induction l with
    | nil => intro _; simp
    | cons e rest ih =>
      intro hl
      have h0 := hl e List.mem_cons_self
      have hs := squared_range e.1
      have := ih fun x hx => hl x (List.mem_cons_of_mem _ hx)
      rw [List.map_cons, List.sum_cons, List.map_cons, List.sum_cons, Nat.cast_add]
      have he : (squareSummand e : Int) = e.2 * squared e.1 := Int.toNat_of_nonneg (mul_nonneg h0 hs.1)
      rw [he]
      have : e.2 * squared e.1 ≤ e.2 * 195075 := mul_le_mul_of_nonneg_left hs.2 h0
      omega
  have h2 := h1 entries (counts_pos h)
  have h3 : (entries.map fun e => e.2 * 1).sum = opaqueCount pixels := by
    rw [(h.map fun e : Int × Int => e.2 * 1).sum_eq, quantize_weighted (fun _ => 1)]
    unfold opaqueCount
    rw [List.countP_eq_length_filter]
    simp
  rw [h3] at h2
  exact h2

/-- The cumulated table of squares in binary64 holds exact sums. -/
theorem squares_table {pixels : List Int} {entries : List (Int × Int)} (h : CountsOf pixels entries)
    (hN : 195075 * opaqueCount pixels ≤ 2 ^ 53) {r g b : ℤ} (hr : 0 ≤ r ∧ r ≤ 32) (hg : 0 ≤ g ∧ g ≤ 32) (hb : 0 ≤ b ∧ b ≤ 32) :
    tget 0.0 (tablesOf (F64 L) entries).moments (getIndex r g b) =
      Fl.ofInt ((prefixSum (cellTotal squareSummand entries) r g b : Nat) : Int) ∧
    ((prefixSum (cellTotal squareSummand entries) r g b : Nat) : Int) ≤ 195075 * opaqueCount pixels := by
  set M := (entries.map squareSummand).sum with hMdef
  have hle : (M : Int) ≤ 195075 * opaqueCount pixels := squares_total h
  have hM : M ≤ 2 ^ 53 := by omega
  have ht := c48_tables M squareSummand entries (le_refl _) r g b hr hg hb
  have hrel := cumulate_rel (same_zero (L := L) M) (same_add hM) (squares_fold M hM entries (counts_pos h))
  have hm : (tablesOf (F64 L) entries).moments = cumulate 0.0 (entries.foldl addSquare (Array.replicate totalSize 0.0)) := by
    rw [tablesOf, cm_moments, congrArg Tables.moments (hist_split (F := F64 L) entries)]
  have hlt : prefixSum (cellTotal squareSummand entries) r g b < M + 1 := by
    have := cellSum_nat squareSummand entries r g b
    omega
  refine ⟨?_, by omega⟩
  rw [hm]
  refine hrel.get (same_zero M) (getIndex r g b) ⟨_, hlt⟩ ?_
  rw [ht.1, cap_ok hlt]

theorem lt_max {n : ℤ} (h : |n| ≤ 2 ^ 53) : |rnd (n : ℝ)| < 2 ^ 1024 := by
  rw [(rep_int h).rnd_eq, ← Int.cast_abs]
  have : ((|n| : ℤ) : ℝ) ≤ ((2 ^ 53 : ℤ) : ℝ) := by exact_mod_cast h
  refine this.trans_lt ?_
  rw [show ((2 ^ 53 : ℤ) : ℝ) = (2 : ℝ) ^ 53 by norm_num]
  exact pow_lt_pow_right₀ (by norm_num) (by norm_num)

theorem is_int_sub {x y : F64 L} {a b : ℤ} (hx : Is x (a : ℝ)) (hy : Is y (b : ℝ)) (h : |a - b| ≤ 2 ^ 53) :
    Is (x - y) ((a - b : ℤ) : ℝ) := by
  have e : ((a - b : ℤ) : ℝ) = (a : ℝ) - b := by push_cast; ring
  have := hx.sub hy (by rw [← e]; exact lt_max h)
  rwa [← e, (rep_int h).rnd_eq] at this

theorem is_int_add {x y : F64 L} {a b : ℤ} (hx : Is x (a : ℝ)) (hy : Is y (b : ℝ)) (h : |a + b| ≤ 2 ^ 53) :
    Is (x + y) ((a + b : ℤ) : ℝ) := by
  have e : ((a + b : ℤ) : ℝ) = (a : ℝ) + b := by push_cast; ring
  have := hx.add hy (by rw [← e]; exact lt_max h)
  rwa [← e, (rep_int h).rnd_eq] at this

theorem prefix_cast (entries : List (Int × Int)) (hpos : ∀ e ∈ entries, 0 ≤ e.2) (r g b : ℤ) :
    ((prefixSum (cellTotal squareSummand entries) r g b : Nat) : Int) =
      prefixSum (cellTotal (fun e => e.2 * squared e.1) entries) r g b := by
  unfold prefixSum sumTo
  push_cast
  refine Finset.sum_congr rfl fun r' _ => Finset.sum_congr rfl fun g' _ => Finset.sum_congr rfl fun b' _ => ?_
  unfold cellTotal
  induction entries with
  | nil => rfl
  | cons e rest ih =>
    rw [List.map_cons, List.sum_cons, List.map_cons, List.sum_cons, Nat.cast_add,
      ih fun x hx => hpos x (List.mem_cons_of_mem _ hx)]
    congr 1
    split_ifs
    · exact Int.toNat_of_nonneg (mul_nonneg (hpos e List.mem_cons_self) (squared_range e.1).1)
    · rfl

/-- C45 in binary64: for images of up to ten thousand million opaque pixels the volume computed from the table of squares is
the sum of the squared lengths of the opaque pixels in the box, without any rounding. -/
theorem c45_binary64_squares (pixels : List Int) (entries : List (Int × Int)) (h : CountsOf pixels entries)
    (hN : opaqueCount pixels ≤ 10 ^ 10) (c : Box) (hc : Proper c) :
    let t : Tables (F64 L) := computeMoments (constructHistogram entries)
    Is (volumeF c t.moments) (pixelTotal squared pixels c : ℝ) := by
  intro t
  have hcell : ∀ r g b, 0 ≤ r ∧ r ≤ 32 → 0 ≤ g ∧ g ≤ 32 → 0 ≤ b ∧ b ≤ 32 →
      Is (tget 0.0 t.moments (getIndex r g b))
        ((prefixSum (cellTotal (fun e => e.2 * squared e.1) entries) r g b : Int) : ℝ) ∧
      0 ≤ prefixSum (cellTotal (fun e => e.2 * squared e.1) entries) r g b ∧
      prefixSum (cellTotal (fun e => e.2 * squared e.1) entries) r g b ≤ 195075 * 10 ^ 10 := by
    intro r g b hr hg hb
    obtain ⟨e, hle⟩ := squares_table (L := L) h (by omega) hr hg hb
    rw [← prefix_cast entries (counts_pos h)]
    refine ⟨?_, by omega, by omega⟩
    show Is (tget 0.0 (tablesOf (F64 L) entries).moments (getIndex r g b)) _
    rw [e]
    refine is_ofInt ?_
    rw [abs_of_nonneg (by omega)]
    omega
  obtain ⟨⟨r0, r1, r2⟩, ⟨g0, g1, g2⟩, b0, b1, b2⟩ := id hc
  obtain ⟨a1, l1, u1⟩ := hcell c.r1 c.g1 c.b1 (by omega) (by omega) (by omega)
  obtain ⟨a2, l2, u2⟩ := hcell c.r1 c.g1 c.b0 (by omega) (by omega) (by omega)
  obtain ⟨a3, l3, u3⟩ := hcell c.r1 c.g0 c.b1 (by omega) (by omega) (by omega)
  obtain ⟨a4, l4, u4⟩ := hcell c.r1 c.g0 c.b0 (by omega) (by omega) (by omega)
  obtain ⟨a5, l5, u5⟩ := hcell c.r0 c.g1 c.b1 (by omega) (by omega) (by omega)
  obtain ⟨a6, l6, u6⟩ := hcell c.r0 c.g1 c.b0 (by omega) (by omega) (by omega)
  obtain ⟨a7, l7, u7⟩ := hcell c.r0 c.g0 c.b1 (by omega) (by omega) (by omega)
  obtain ⟨a8, l8, u8⟩ := hcell c.r0 c.g0 c.b0 (by omega) (by omega) (by omega)
  have e := prefixSum_box (cellTotal (fun e => e.2 * squared e.1) entries) ⟨r0, r1⟩ ⟨g0, g1⟩ ⟨b0, b1⟩
  rw [cellSum_cellTotal] at e
  have ht : pixelTotal squared pixels c =
      ((entries.filter fun e => decide (InBox c e.1)).map fun e => e.2 * squared e.1).sum := (boxTotal_pixels h _ _).symm
  rw [ht, ← e]
  unfold volumeF
  have bound {n : ℤ} (h1 : -(2 ^ 53) ≤ n) (h2 : n ≤ 2 ^ 53) : |n| ≤ 2 ^ 53 := abs_le.2 ⟨h1, h2⟩
  exact is_int_sub (is_int_add (is_int_add (is_int_sub (is_int_add (is_int_sub (is_int_sub a1 a2
    (bound (by omega) (by omega))) a3 (bound (by omega) (by omega))) a4 (bound (by omega) (by omega))) a5
    (bound (by omega) (by omega))) a6 (bound (by omega) (by omega))) a7 (bound (by omega) (by omega))) a8
    (bound (by omega) (by omega))

/-- Two tables with the same entries. -/
theorem table_ext_get {α : Type} {z : α} {t t' : Array α} (hs : t.size = 35937) (hs' : t'.size = 35937)
    (h : ∀ r g b : Int, 0 ≤ r ∧ r ≤ 32 → 0 ≤ g ∧ g ≤ 32 → 0 ≤ b ∧ b ≤ 32 →
      tget z t (getIndex r g b) = tget z t' (getIndex r g b)) : t = t' := by
  apply Array.ext (by rw [hs, hs'])
  intro i hi hi'
  obtain ⟨r, g, b, hr, hg, hb, he⟩ := (c44_in_bounds (i : Int)).1 ⟨by omega, by unfold totalSize; omega⟩
  have e := h r g b hr hg hb
  rw [he] at e
  unfold tget at e
  rw [if_pos (by omega), if_pos (by omega), Int.toNat_natCast, Array.getD_eq_getD_getElem?,
    Array.getD_eq_getD_getElem?, Array.getElem?_eq_getElem hi, Array.getElem?_eq_getElem hi'] at e
  exact e

theorem squares_size (entries : List (Int × Int)) (hpos : ∀ e ∈ entries, 0 ≤ e.2) :
    (tablesOf (F64 L) entries).moments.size = 35937 := by
  have hrel := cumulate_rel (same_zero (L := L) 0) (same_add (by norm_num)) (squares_fold 0 (by norm_num) entries hpos)
  have hm : (tablesOf (F64 L) entries).moments = cumulate 0.0 (entries.foldl addSquare (Array.replicate totalSize 0.0)) := by
    rw [tablesOf, cm_moments, congrArg Tables.moments (hist_split (F := F64 L) entries)]
  rw [hm, ← hrel.1]
  exact (cumulate_shows (addOne_fold (fun e => cap 0 (squareSummand e)) entries)
    (fun _ _ => cellTotal_zero _ entries (Or.inl rfl))
    (fun _ _ => cellTotal_zero _ entries (Or.inr (Or.inl rfl)))
    (fun _ _ => cellTotal_zero _ entries (Or.inr (Or.inr rfl)))).1

theorem tables_perm {pixels : List Int} {l l' : List (Int × Int)} (h : CountsOf pixels l) (h' : CountsOf pixels l')
    (hN : opaqueCount pixels ≤ 10 ^ 10) : tablesOf (F64 L) l = tablesOf (F64 L) l' := by
  have hp : l.Perm l' := h.trans h'.symm
  have e1 : (tablesOf (F64 L) l).weights = (tablesOf (F64 L) l').weights :=
    table_ext (tables_weights l) (cellTotal_perm (fun e => e.2) hp ▸ tables_weights l')
  have e2 : (tablesOf (F64 L) l).momentsR = (tablesOf (F64 L) l').momentsR :=
    table_ext (tables_red l) (cellTotal_perm (fun e => redFromArgb e.1 * e.2) hp ▸ tables_red l')
  have e3 : (tablesOf (F64 L) l).momentsG = (tablesOf (F64 L) l').momentsG :=
    table_ext (tables_green l) (cellTotal_perm (fun e => greenFromArgb e.1 * e.2) hp ▸ tables_green l')
  have e4 : (tablesOf (F64 L) l).momentsB = (tablesOf (F64 L) l').momentsB :=
    table_ext (tables_blue l) (cellTotal_perm (fun e => blueFromArgb e.1 * e.2) hp ▸ tables_blue l')
  have e5 : (tablesOf (F64 L) l).moments = (tablesOf (F64 L) l').moments := by
    refine table_ext_get (z := 0.0) (squares_size l (counts_pos h)) (squares_size l' (counts_pos h')) ?_
    intro r g b hr hg hb
    rw [(squares_table (L := L) h (by omega) hr hg hb).1, (squares_table (L := L) h' (by omega) hr hg hb).1,
      cellTotal_perm squareSummand hp]
  generalize tablesOf (F64 L) l = a at *
  generalize tablesOf (F64 L) l' = b at *
  cases a
  cases b
  simp only at e1 e2 e3 e4 e5
  rw [e1, e2, e3, e4, e5]

/-- C49 in binary64: for images of up to ten thousand million opaque pixels the result is the same for every order of the
pixels and every iteration order of the hash map. -/
theorem c49_binary64 (p q : List Int) (hp : p.Perm q) (entries entries' : List (Int × Int)) (h : CountsOf p entries)
    (h' : CountsOf q entries') (hN : opaqueCount p ≤ 10 ^ 10) (maxColors : Int) :
    quantizeEntries (F64 L) entries maxColors = quantizeEntries (F64 L) entries' maxColors := by
  have h'' : CountsOf p entries' := h'.trans (c43_order_independent p q hp).symm
  have e : (computeMoments (constructHistogram entries) : Tables (F64 L)) = computeMoments (constructHistogram entries') :=
    tables_perm h h'' hN
  unfold quantizeEntries
  rw [e]

example : opaqueCount [0xFF123456, 0x00FFFFFF, 0xFFABCDEF] ≤ 10 ^ 10 ∧
    CountsOf [0xFF123456, 0x00FFFFFF, 0xFFABCDEF] [(0xFFABCDEF, 1), (0xFF123456, 1)] := by
  constructor
  · decide
  · exact List.Perm.swap _ _ _

end Mcu.Props
