import Verif.Model.QuantizerWu
import Verif.Spec.Cells
import Mathlib.Tactic.Linarith
import Mathlib.Tactic.Ring
import Mathlib.Tactic.Abel
import Mathlib.Algebra.BigOperators.Ring.Finset

/-! Lemmas about the tables of the Wu quantizer: the cumulated tables hold three-dimensional prefix
sums. -/

namespace Mcu.QuantizerWu

open Finset Mcu.Spec

/-! ### Array access -/

theorem tset_size {α : Type} (t : Array α) (i : Int) (v : α) : (tset t i v).size = t.size := by
  unfold tset; split_ifs <;> simp

theorem tget_tset {α : Type} (z : α) (t : Array α) (i : Int) (v : α) (j : Int) (hi : 0 ≤ i)
    (hs : i < t.size) : tget z (tset t i v) j = if j = i then v else tget z t j := by
  unfold tget tset
  rw [if_pos hi]
  by_cases hj : 0 ≤ j
  · rw [if_pos hj, if_pos hj]
    rw [Array.getD_eq_getD_getElem?, Array.getD_eq_getD_getElem?, Array.getElem?_setIfInBounds]
    by_cases he : j = i
    · subst he
      have : j.toNat < t.size := by omega
      simp [this]
    · have : ¬ i.toNat = j.toNat := by omega
      simp [this, he]
  · rw [if_neg hj, if_neg hj, if_neg (by omega)]

theorem tget_replicate {α : Type} (z : α) (n : Nat) (i : Int) : tget z (Array.replicate n z) i = z := by
  unfold tget
  split_ifs
  · rw [Array.getD_eq_getD_getElem?, Array.getElem?_replicate]
    split_ifs <;> rfl
  · rfl

theorem getIndex_eq (r g b : Int) : getIndex r g b = 1089 * r + 33 * g + b := by
  unfold getIndex; omega

theorem getIndex_inj {r g b r' g' b' : Int} (hg : 0 ≤ g ∧ g ≤ 32) (hb : 0 ≤ b ∧ b ≤ 32)
    (hg' : 0 ≤ g' ∧ g' ≤ 32) (hb' : 0 ≤ b' ∧ b' ≤ 32)
    (h : getIndex r g b = getIndex r' g' b') : r = r' ∧ g = g' ∧ b = b' := by
  rw [getIndex_eq, getIndex_eq] at h; omega

theorem getIndex_range {r g b : Int} (hr : 0 ≤ r ∧ r ≤ 32) (hg : 0 ≤ g ∧ g ≤ 32)
    (hb : 0 ≤ b ∧ b ≤ 32) : 0 ≤ getIndex r g b ∧ getIndex r g b < 35937 := by
  rw [getIndex_eq]; omega

/-! ### Prefix sums -/

/-- `f 1 + ... + f n` -/
def sumTo {α : Type} [AddCommMonoid α] (f : ℤ → α) (n : ℤ) : α := ∑ i ∈ Ioc 0 n, f i

section
variable {α : Type} [AddCommMonoid α]

theorem sumTo_zero (f : ℤ → α) : sumTo f 0 = 0 := by simp [sumTo]

theorem sumTo_succ (f : ℤ → α) (k : ℕ) : sumTo f ((k : ℤ) + 1) = sumTo f k + f ((k : ℤ) + 1) := by
  unfold sumTo
  have : Ioc (0:ℤ) ((k:ℤ) + 1) = insert ((k:ℤ) + 1) (Ioc (0:ℤ) k) := by
    ext x; simp only [mem_Ioc, mem_insert]; omega
  rw [this, sum_insert (by simp), add_comm]

theorem sumTo_congr {f g : ℤ → α} {n : ℤ} (h : ∀ i, 0 < i → i ≤ n → f i = g i) : sumTo f n = sumTo g n := by
  unfold sumTo
  exact sum_congr rfl fun i hi => h i (mem_Ioc.1 hi).1 (mem_Ioc.1 hi).2

/-- A table shows the function `f` on the cells with coordinates 0 to 32. -/
def Shows (t : Array α) (f : ℤ → ℤ → ℤ → α) : Prop :=
  t.size = 35937 ∧ ∀ r g b, 0 ≤ r → r ≤ 32 → 0 ≤ g → g ≤ 32 → 0 ≤ b → b ≤ 32 →
    tget 0 t (getIndex r g b) = f r g b

/-- An area shows `a` at 0 to 32. -/
def ShowsArea (t : Array α) (a : ℤ → α) : Prop :=
  t.size = 33 ∧ ∀ b, 0 ≤ b → b ≤ 32 → tget 0 t b = a b

theorem shows_set {t : Array α} {f : ℤ → ℤ → ℤ → α} (h : Shows t f) {r g b : ℤ} (v : α)
    (hr : 0 ≤ r ∧ r ≤ 32) (hg : 0 ≤ g ∧ g ≤ 32) (hb : 0 ≤ b ∧ b ≤ 32) :
    Shows (tset t (getIndex r g b) v)
      (fun r' g' b' => if r' = r ∧ g' = g ∧ b' = b then v else f r' g' b') := by
  refine ⟨by rw [tset_size, h.1], fun r' g' b' h1 h2 h3 h4 h5 h6 => ?_⟩
  obtain ⟨i1, i2⟩ := getIndex_range hr hg hb
  rw [tget_tset 0 t _ v _ i1 (by rw [h.1]; exact i2)]
  beta_reduce
  by_cases he : getIndex r' g' b' = getIndex r g b
  · rw [if_pos he, if_pos (getIndex_inj ⟨h3, h4⟩ ⟨h5, h6⟩ hg hb he)]
  · rw [if_neg he, if_neg (by rintro ⟨rfl, rfl, rfl⟩; exact he rfl)]
    exact h.2 _ _ _ h1 h2 h3 h4 h5 h6

theorem showsArea_set {t : Array α} {a : ℤ → α} (h : ShowsArea t a) {b : ℤ} (v : α)
    (hb : 0 ≤ b ∧ b ≤ 32) : ShowsArea (tset t b v) (fun b' => if b' = b then v else a b') := by
  refine ⟨by rw [tset_size, h.1], fun b' h5 h6 => ?_⟩
  rw [tget_tset 0 t _ v _ hb.1 (by rw [h.1]; omega)]
  beta_reduce
  by_cases he : b' = b
  · rw [if_pos he, if_pos he]
  · rw [if_neg he, if_neg he]; exact h.2 _ h5 h6

theorem shows_congr {t : Array α} {f g : ℤ → ℤ → ℤ → α} (h : Shows t f)
    (he : ∀ r g' b, 0 ≤ r → r ≤ 32 → 0 ≤ g' → g' ≤ 32 → 0 ≤ b → b ≤ 32 → f r g' b = g r g' b) :
    Shows t g :=
  ⟨h.1, fun r g' b h1 h2 h3 h4 h5 h6 => by rw [h.2 r g' b h1 h2 h3 h4 h5 h6, he r g' b h1 h2 h3 h4 h5 h6]⟩

theorem showsArea_congr {t : Array α} {a a' : ℤ → α} (h : ShowsArea t a)
    (he : ∀ b, 0 ≤ b → b ≤ 32 → a b = a' b) : ShowsArea t a' :=
  ⟨h.1, fun b h1 h2 => by rw [h.2 b h1 h2, he b h1 h2]⟩

/-- The first `k` of 1, 2, ... -/
def upTo (k : ℕ) : List Int := (List.range k).map fun (n : Nat) => (n : Int) + 1

theorem side_eq : side = upTo 32 := rfl

theorem foldl_upTo_succ {β : Type} (f : β → ℤ → β) (x : β) (k : ℕ) :
    (upTo (k + 1)).foldl f x = f ((upTo k).foldl f x) ((k : ℤ) + 1) := by
  unfold upTo
  rw [List.range_succ, List.map_append, List.foldl_append]
  rfl

/-- The innermost loop. -/
theorem momentB_fold {s : MomentState α} {f : ℤ → ℤ → ℤ → α} {a : ℤ → α} (ht : Shows s.tab f)
    (ha : ShowsArea s.area a) (hl : s.line = 0) {r g : ℤ} (hr : 1 ≤ r ∧ r ≤ 32) (hg : 1 ≤ g ∧ g ≤ 32)
    (k : ℕ) (hk : k ≤ 32) :
    Shows ((upTo k).foldl (momentB 0 r g) s).tab
        (fun r' g' b' => if r' = r ∧ g' = g ∧ 1 ≤ b' ∧ b' ≤ k then
          f (r - 1) g b' + (a b' + sumTo (f r g) b') else f r' g' b') ∧
      ShowsArea ((upTo k).foldl (momentB 0 r g) s).area
        (fun b' => if 1 ≤ b' ∧ b' ≤ k then a b' + sumTo (f r g) b' else a b') ∧
      ((upTo k).foldl (momentB 0 r g) s).line = sumTo (f r g) k := by
  induction k with
  | zero =>
    refine ⟨shows_congr ht fun r' g' b' _ _ _ _ _ _ => ?_, showsArea_congr ha fun b' _ _ => ?_, ?_⟩
    · rw [if_neg (by rintro ⟨-, -, h1, h2⟩; push_cast at h2; omega)]
    · rw [if_neg (by rintro ⟨h1, h2⟩; push_cast at h2; omega)]
    · show s.line = _
      rw [hl]; exact (sumTo_zero _).symm
  | succ k ih =>
    obtain ⟨h1, h2, h3⟩ := ih (by omega)
    rw [foldl_upTo_succ]
    set s' := (upTo k).foldl (momentB 0 r g) s with hs'
    have hb : 0 ≤ (k:ℤ) + 1 ∧ (k:ℤ) + 1 ≤ 32 := by omega
    -- values read
    have hline : (momentB 0 r g s' ((k:ℤ) + 1)).line = sumTo (f r g) ((k:ℤ) + 1) := by
      show s'.line + tget 0 s'.tab (getIndex r g ((k:ℤ) + 1)) = _
      rw [h3, h1.2 r g _ (by omega) hr.2 (by omega) hg.2 hb.1 hb.2]
      beta_reduce
      rw [if_neg (by omega), sumTo_succ]
    have harea' : tget 0 s'.area ((k:ℤ) + 1) = a ((k:ℤ) + 1) := by
      rw [h2.2 _ hb.1 hb.2]
      beta_reduce
      rw [if_neg (by omega)]
    have harea : ShowsArea (momentB 0 r g s' ((k:ℤ) + 1)).area
        (fun b' => if b' = (k:ℤ) + 1 then a ((k:ℤ) + 1) + sumTo (f r g) ((k:ℤ) + 1) else
          (if 1 ≤ b' ∧ b' ≤ k then a b' + sumTo (f r g) b' else a b')) := by
      have e : (momentB 0 r g s' ((k:ℤ) + 1)).area =
          tset s'.area ((k:ℤ) + 1) (tget 0 s'.area ((k:ℤ) + 1) + (momentB 0 r g s' ((k:ℤ) + 1)).line) := rfl
      rw [e, hline, harea']
      exact showsArea_set h2 _ hb
    have htab : Shows (momentB 0 r g s' ((k:ℤ) + 1)).tab
        (fun r' g' b' => if r' = r ∧ g' = g ∧ b' = (k:ℤ) + 1 then
          f (r - 1) g ((k:ℤ) + 1) + (a ((k:ℤ) + 1) + sumTo (f r g) ((k:ℤ) + 1)) else
          (if r' = r ∧ g' = g ∧ 1 ≤ b' ∧ b' ≤ k then
          f (r - 1) g b' + (a b' + sumTo (f r g) b') else f r' g' b')) := by
      have e : (momentB 0 r g s' ((k:ℤ) + 1)).tab =
          tset s'.tab (getIndex r g ((k:ℤ) + 1)) (tget 0 s'.tab (getIndex (r - 1) g ((k:ℤ) + 1)) +
            tget 0 (momentB 0 r g s' ((k:ℤ) + 1)).area ((k:ℤ) + 1)) := rfl
      rw [e, harea.2 _ hb.1 hb.2, h1.2 (r - 1) g _ (by omega) (by omega) (by omega) hg.2 hb.1 hb.2]
      beta_reduce
      rw [if_pos rfl, if_neg (by omega)]
      exact shows_set h1 _ (by omega) (by omega) hb
    refine ⟨shows_congr htab fun r' g' b' _ _ _ _ _ _ => ?_, showsArea_congr harea fun b' _ _ => ?_, ?_⟩
    · by_cases e : r' = r ∧ g' = g ∧ b' = (k:ℤ) + 1
      · obtain ⟨rfl, rfl, rfl⟩ := e
        rw [if_pos ⟨rfl, rfl, rfl⟩, if_pos (by push_cast; omega)]
      · rw [if_neg e]
        by_cases e2 : r' = r ∧ g' = g ∧ 1 ≤ b' ∧ b' ≤ (k:ℤ)
        · rw [if_pos e2, if_pos (by push_cast; omega)]
        · rw [if_neg e2, if_neg (by push_cast; omega)]
    · by_cases e : b' = (k:ℤ) + 1
      · subst e
        rw [if_pos rfl, if_pos (by push_cast; omega)]
      · rw [if_neg e]
        by_cases e2 : 1 ≤ b' ∧ b' ≤ (k:ℤ)
        · rw [if_pos e2, if_pos (by push_cast; omega)]
        · rw [if_neg e2, if_neg (by push_cast; omega)]
    · rw [hline]; push_cast; rfl

/-- The middle loop. -/
theorem momentG_fold {s : MomentState α} {f : ℤ → ℤ → ℤ → α} (ht : Shows s.tab f)
    (ha : ShowsArea s.area (fun _ => 0)) {r : ℤ} (hr : 1 ≤ r ∧ r ≤ 32) (k : ℕ) (hk : k ≤ 32) :
    Shows ((upTo k).foldl (momentG 0 r) s).tab
        (fun r' g' b' => if r' = r ∧ 1 ≤ g' ∧ g' ≤ k ∧ 1 ≤ b' then
          f (r - 1) g' b' + sumTo (fun g => sumTo (f r g) b') g' else f r' g' b') ∧
      ShowsArea ((upTo k).foldl (momentG 0 r) s).area
        (fun b' => if 1 ≤ b' then sumTo (fun g => sumTo (f r g) b') k else 0) := by
  induction k with
  | zero =>
    refine ⟨shows_congr ht fun r' g' b' _ _ _ _ _ _ => ?_, showsArea_congr ha fun b' _ _ => ?_⟩
    · rw [if_neg (by rintro ⟨-, h1, h2, -⟩; push_cast at h2; omega)]
    · push_cast; rw [sumTo_zero, ite_self]
  | succ k ih =>
    obtain ⟨h1, h2⟩ := ih (by omega)
    rw [foldl_upTo_succ]
    set s' := (upTo k).foldl (momentG 0 r) s with hs'
    obtain ⟨i1, i2, -⟩ := momentB_fold (s := { s' with line := 0 }) h1 h2 rfl hr
      (g := (k:ℤ) + 1) (by omega) 32 (le_refl _)
    rw [← side_eq] at i1 i2
    have hrow : ∀ b', sumTo (fun b'' => if r = r ∧ 1 ≤ (k:ℤ) + 1 ∧ (k:ℤ) + 1 ≤ k ∧ 1 ≤ b'' then
          f (r - 1) ((k:ℤ) + 1) b'' + sumTo (fun g => sumTo (f r g) b'') ((k:ℤ) + 1)
          else f r ((k:ℤ) + 1) b'') b' = sumTo (f r ((k:ℤ) + 1)) b' := by
      intro b'
      refine sumTo_congr fun i _ _ => ?_
      rw [if_neg (by omega)]
    refine ⟨shows_congr i1 fun r' g' b' _ _ _ _ _ hb32 => ?_, showsArea_congr i2 fun b' _ hb32 => ?_⟩
    · by_cases e : r' = r ∧ g' = (k:ℤ) + 1 ∧ 1 ≤ b'
      · obtain ⟨rfl, rfl, hb'⟩ := e
        rw [if_pos ⟨rfl, rfl, hb', by push_cast; omega⟩, if_neg (by omega), if_pos hb', hrow b',
          if_pos (by push_cast; omega), sumTo_succ]
      · rw [if_neg (by push_cast; omega)]
        by_cases e2 : r' = r ∧ 1 ≤ g' ∧ g' ≤ (k:ℤ) ∧ 1 ≤ b'
        · rw [if_pos e2, if_pos (by push_cast; omega)]
        · rw [if_neg e2, if_neg (by push_cast; omega)]
    · by_cases e : 1 ≤ b'
      · rw [if_pos ⟨e, by push_cast; omega⟩, if_pos e, if_pos e, hrow b']
        push_cast
        rw [sumTo_succ]
      · rw [if_neg (by omega), if_neg e, if_neg e]

/-- Prefix sums of `f`. -/
def prefixSum (f : ℤ → ℤ → ℤ → α) (r g b : ℤ) : α :=
  sumTo (fun r => sumTo (fun g => sumTo (f r g) b) g) r

theorem sumTo_nonpos (f : ℤ → α) {n : ℤ} (h : n ≤ 0) : sumTo f n = 0 := by
  unfold sumTo; rw [Ioc_eq_empty (by omega)]; rfl

theorem sumTo_const_zero (n : ℤ) : sumTo (fun _ => (0:α)) n = 0 := by simp [sumTo]

theorem momentR_fold {t : Array α} {f : ℤ → ℤ → ℤ → α} (ht : Shows t f) (hz : ∀ g b, f 0 g b = 0)
    (k : ℕ) (hk : k ≤ 32) :
    Shows ((upTo k).foldl (momentR 0) t)
      (fun r' g' b' => if 1 ≤ r' ∧ r' ≤ k ∧ 1 ≤ g' ∧ 1 ≤ b' then prefixSum f r' g' b' else f r' g' b') := by
  induction k with
  | zero =>
    refine shows_congr ht fun r' g' b' _ _ _ _ _ _ => ?_
    rw [if_neg (by push_cast; omega)]
  | succ k ih =>
    have h1 := ih (by omega)
    rw [foldl_upTo_succ]
    set t' := (upTo k).foldl (momentR 0) t with ht'
    obtain ⟨i1, -⟩ := momentG_fold (s := { tab := t', area := Array.replicate sideLength 0, line := 0 }) h1
      ⟨by simp [sideLength], fun b _ _ => tget_replicate 0 _ b⟩ (r := (k:ℤ) + 1) (by omega) 32 (le_refl _)
    rw [← side_eq] at i1
    refine shows_congr i1 fun r' g' b' _ _ _ hg _ hb => ?_
    by_cases e : r' = (k:ℤ) + 1 ∧ 1 ≤ g' ∧ 1 ≤ b'
    · obtain ⟨rfl, hg', hb'⟩ := e
      rw [if_pos ⟨rfl, hg', by push_cast; omega, hb'⟩,
        if_pos (show 1 ≤ (k:ℤ) + 1 ∧ (k:ℤ) + 1 ≤ ((k + 1 : ℕ) : ℤ) ∧ 1 ≤ g' ∧ 1 ≤ b' by push_cast; omega)]
      have hplane : sumTo (fun g => sumTo (fun b'' => if 1 ≤ (k:ℤ) + 1 ∧ (k:ℤ) + 1 ≤ k ∧ 1 ≤ g ∧ 1 ≤ b'' then
          prefixSum f ((k:ℤ) + 1) g b'' else f ((k:ℤ) + 1) g b'') b') g' =
          sumTo (fun g => sumTo (f ((k:ℤ) + 1) g) b') g' := by
        refine sumTo_congr fun g _ _ => sumTo_congr fun b _ _ => ?_
        rw [if_neg (by omega)]
      rw [hplane]
      unfold prefixSum
      rw [sumTo_succ]
      congr 1
      have ek : (k:ℤ) + 1 - 1 = k := by omega
      rw [ek]
      by_cases hk0 : (k:ℤ) = 0
      · rw [hk0, if_neg (fun hh => absurd hh.1 (by norm_num)), sumTo_zero, hz]
      · rw [if_pos (by omega)]
    · rw [if_neg (by push_cast; omega)]
      by_cases e2 : 1 ≤ r' ∧ r' ≤ (k:ℤ) ∧ 1 ≤ g' ∧ 1 ≤ b'
      · rw [if_pos e2, if_pos (by push_cast; omega)]
      · rw [if_neg e2, if_neg (by push_cast; omega)]

/-- The cumulated table holds the prefix sums, if the cells with a zero coordinate are zero. -/
theorem cumulate_shows {t : Array α} {f : ℤ → ℤ → ℤ → α} (ht : Shows t f)
    (hr : ∀ g b, f 0 g b = 0) (hg : ∀ r b, f r 0 b = 0) (hb : ∀ r g, f r g 0 = 0) :
    Shows (cumulate 0 t) (prefixSum f) := by
  have h := momentR_fold ht hr 32 (le_refl _)
  rw [← side_eq] at h
  refine shows_congr h fun r g b h1 h2 h3 h4 h5 h6 => ?_
  by_cases e : 1 ≤ r ∧ r ≤ ((32:ℕ):ℤ) ∧ 1 ≤ g ∧ 1 ≤ b
  · rw [if_pos e]
  · rw [if_neg e]
    have : r = 0 ∨ g = 0 ∨ b = 0 := by push_cast at e; omega
    unfold prefixSum
    rcases this with rfl | rfl | rfl
    · rw [hr, sumTo_zero]
    · rw [hg]; simp only [sumTo_zero]; rw [sumTo_const_zero]
    · rw [hb]; simp only [sumTo_zero, sumTo_const_zero]

end

section
variable {α : Type} [AddCommGroup α]

theorem sumTo_diff (f : ℤ → α) {m n : ℤ} (hm : 0 ≤ m) (h : m ≤ n) :
    sumTo f n - sumTo f m = ∑ i ∈ Ioc m n, f i := by
  unfold sumTo
  have : Ioc (0:ℤ) n = Ioc 0 m ∪ Ioc m n := (Ioc_union_Ioc_eq_Ioc hm h).symm
  rw [this, sum_union (Ioc_disjoint_Ioc_of_le (le_refl m))]
  abel

/-- Inclusion–exclusion for prefix sums. -/
theorem prefixSum_box (f : ℤ → ℤ → ℤ → α) {r0 r1 g0 g1 b0 b1 : ℤ} (hr : 0 ≤ r0 ∧ r0 ≤ r1)
    (hg : 0 ≤ g0 ∧ g0 ≤ g1) (hb : 0 ≤ b0 ∧ b0 ≤ b1) :
    prefixSum f r1 g1 b1 - prefixSum f r1 g1 b0 - prefixSum f r1 g0 b1 + prefixSum f r1 g0 b0
      - prefixSum f r0 g1 b1 + prefixSum f r0 g1 b0 + prefixSum f r0 g0 b1 - prefixSum f r0 g0 b0 =
    cellSum f r0 r1 g0 g1 b0 b1 := by
  unfold cellSum
  have e1 : ∀ r g, ∑ b ∈ Ioc b0 b1, f r g b = sumTo (f r g) b1 - sumTo (f r g) b0 :=
    fun r g => (sumTo_diff _ hb.1 hb.2).symm
  simp only [e1]
  have e2 : ∀ r, ∑ g ∈ Ioc g0 g1, (sumTo (f r g) b1 - sumTo (f r g) b0) =
      (sumTo (fun g => sumTo (f r g) b1) g1 - sumTo (fun g => sumTo (f r g) b1) g0) -
      (sumTo (fun g => sumTo (f r g) b0) g1 - sumTo (fun g => sumTo (f r g) b0) g0) := by
    intro r
    rw [sumTo_diff _ hg.1 hg.2, sumTo_diff _ hg.1 hg.2, sum_sub_distrib]
  simp only [e2, sum_sub_distrib]
  unfold prefixSum
  rw [← sumTo_diff _ hr.1 hr.2, ← sumTo_diff _ hr.1 hr.2, ← sumTo_diff _ hr.1 hr.2, ← sumTo_diff _ hr.1 hr.2]
  abel

end

end Mcu.QuantizerWu
