import Verif.Lemmas.WuTables
import Verif.Lemmas.Real
import Verif.Spec.Pixels
import Mathlib.Algebra.BigOperators.Group.List.Basic

/-! The histogram of the Wu quantizer and the volumes computed from it. -/

namespace Mcu.QuantizerWu

open Finset Mcu.Spec ColorUtils

/-- Sum of `v` over the entries of one cell. -/
def cellTotal {α : Type} [AddCommMonoid α] (v : Int × Int → α) (entries : List (Int × Int)) (r g b : ℤ) : α :=
  (entries.map fun e => if r = bucket (redFromArgb e.1) ∧ g = bucket (greenFromArgb e.1) ∧
    b = bucket (blueFromArgb e.1) then v e else 0).sum

theorem bucket_range (p : Int) : (1 ≤ bucket (redFromArgb p) ∧ bucket (redFromArgb p) ≤ 32) ∧
    (1 ≤ bucket (greenFromArgb p) ∧ bucket (greenFromArgb p) ≤ 32) ∧
    (1 ≤ bucket (blueFromArgb p) ∧ bucket (blueFromArgb p) ≤ 32) := by
  unfold bucket redFromArgb greenFromArgb blueFromArgb; omega

section
variable {α : Type} [AddCommMonoid α]

theorem cellTotal_nil (v : Int × Int → α) (r g b : ℤ) : cellTotal v [] r g b = 0 := rfl

theorem cellTotal_zero (v : Int × Int → α) (entries : List (Int × Int)) {r g b : ℤ}
    (h : r = 0 ∨ g = 0 ∨ b = 0) : cellTotal v entries r g b = 0 := by
  induction entries with
  | nil => rfl
  | cons e rest ih =>
    unfold cellTotal at ih ⊢
    rw [List.map_cons, List.sum_cons, ih]
    have := bucket_range e.1
    rw [if_neg (by omega), add_zero]

theorem cellTotal_append (v : Int × Int → α) (l : List (Int × Int)) (e : Int × Int) (r g b : ℤ) :
    cellTotal v (l ++ [e]) r g b = cellTotal v l r g b +
      if r = bucket (redFromArgb e.1) ∧ g = bucket (greenFromArgb e.1) ∧ b = bucket (blueFromArgb e.1)
        then v e else 0 := by
  unfold cellTotal
  rw [List.map_append, List.sum_append]
  simp

/-- One table of `addEntry`. -/
def addOne (v : Int × Int → α) (t : Array α) (e : Int × Int) : Array α :=
  tset t (getIndex (bucket (redFromArgb e.1)) (bucket (greenFromArgb e.1)) (bucket (blueFromArgb e.1)))
    (tget 0 t (getIndex (bucket (redFromArgb e.1)) (bucket (greenFromArgb e.1)) (bucket (blueFromArgb e.1))) + v e)

theorem addOne_fold (v : Int × Int → α) (entries : List (Int × Int)) :
    Shows (entries.foldl (addOne v) (Array.replicate totalSize 0)) (cellTotal v entries) := by
  induction entries using List.reverseRecOn with
  | nil =>
    refine ⟨by simp [totalSize], fun r g b _ _ _ _ _ _ => ?_⟩
    rw [List.foldl_nil, tget_replicate, cellTotal_nil]
  | append_singleton l e ih =>
    rw [List.foldl_append]
    obtain ⟨⟨h1, h2⟩, ⟨h3, h4⟩, h5, h6⟩ := bucket_range e.1
    have hv := ih.2 _ _ _ (by omega) h2 (by omega) h4 (by omega) h6
    refine shows_congr (shows_set ih (_ : α) ⟨by omega, h2⟩ ⟨by omega, h4⟩ ⟨by omega, h6⟩) fun r g b _ _ _ _ _ _ => ?_
    rw [hv, cellTotal_append]
    by_cases h : r = bucket (redFromArgb e.1) ∧ g = bucket (greenFromArgb e.1) ∧ b = bucket (blueFromArgb e.1)
    · rw [if_pos h, if_pos h, h.1, h.2.1, h.2.2]
    · rw [if_neg h, if_neg h, add_zero]

end

section
variable {α : Type} [AddCommGroup α]

theorem cellSum_cellTotal (v : Int × Int → α) (entries : List (Int × Int)) (c : Box) :
    cellSum (cellTotal v entries) c.r0 c.r1 c.g0 c.g1 c.b0 c.b1 =
      ((entries.filter fun e => decide (InBox c e.1)).map v).sum := by
  induction entries with
  | nil => simp [cellSum, cellTotal]
  | cons e rest ih =>
    have hc : ∀ r g b, cellTotal v (e :: rest) r g b =
        (if r = bucket (redFromArgb e.1) then if g = bucket (greenFromArgb e.1) then
          if b = bucket (blueFromArgb e.1) then v e else 0 else 0 else 0) + cellTotal v rest r g b := by
      intro r g b
      unfold cellTotal
      rw [List.map_cons, List.sum_cons]
      simp only [ite_and]
    have hs : cellSum (cellTotal v (e :: rest)) c.r0 c.r1 c.g0 c.g1 c.b0 c.b1 =
        (if InBox c e.1 then v e else 0) + cellSum (cellTotal v rest) c.r0 c.r1 c.g0 c.g1 c.b0 c.b1 := by
      unfold cellSum
      simp only [hc, sum_add_distrib]
      congr 1
      have e1 : ∀ r g, ∑ b ∈ Ioc c.b0 c.b1, (if r = bucket (redFromArgb e.1) then
          if g = bucket (greenFromArgb e.1) then if b = bucket (blueFromArgb e.1) then v e else 0 else 0 else 0) =
          if r = bucket (redFromArgb e.1) then if g = bucket (greenFromArgb e.1) then
            if bucket (blueFromArgb e.1) ∈ Ioc c.b0 c.b1 then v e else 0 else 0 else 0 := by
        intro r g
        split_ifs <;> simp_all
      have e2 : ∀ r, ∑ g ∈ Ioc c.g0 c.g1, (if r = bucket (redFromArgb e.1) then
          if g = bucket (greenFromArgb e.1) then
            if bucket (blueFromArgb e.1) ∈ Ioc c.b0 c.b1 then v e else 0 else 0 else 0) =
          if r = bucket (redFromArgb e.1) then if bucket (greenFromArgb e.1) ∈ Ioc c.g0 c.g1 then
            if bucket (blueFromArgb e.1) ∈ Ioc c.b0 c.b1 then v e else 0 else 0 else 0 := by
        intro r
        split_ifs <;> simp_all
      simp only [e1, e2]
      rw [sum_ite_eq']
      simp only [mem_Ioc, ← ite_and]
      rfl
    rw [hs, ih]
    by_cases h : InBox c e.1
    · rw [if_pos h, List.filter_cons_of_pos (by simpa using h), List.map_cons, List.sum_cons]
    · rw [if_neg h, List.filter_cons_of_neg (by simpa using h), zero_add]

theorem table_shows (v : Int × Int → α) (entries : List (Int × Int)) :
    Shows (cumulate 0 (entries.foldl (addOne v) (Array.replicate totalSize 0)))
      (prefixSum (cellTotal v entries)) :=
  cumulate_shows (addOne_fold v entries) (fun _ _ => cellTotal_zero v entries (Or.inl rfl))
    (fun _ _ => cellTotal_zero v entries (Or.inr (Or.inl rfl)))
    (fun _ _ => cellTotal_zero v entries (Or.inr (Or.inr rfl)))

end

/-! ### The five tables -/

/-- One entry in the table of squares. -/
def addSquare {F : Type} [Fl F] (m : Array F) (e : Int × Int) : Array F :=
  let index := getIndex (bucket (redFromArgb e.1)) (bucket (greenFromArgb e.1)) (bucket (blueFromArgb e.1))
  tset m index (tget 0.0 m index + Fl.ofInt (e.2 * squared e.1))

theorem hist_split {F : Type} [Fl F] (entries : List (Int × Int)) :
    (constructHistogram entries : Tables F) =
      { weights := entries.foldl (addOne fun e => e.2) (Array.replicate totalSize 0)
        momentsR := entries.foldl (addOne fun e => redFromArgb e.1 * e.2) (Array.replicate totalSize 0)
        momentsG := entries.foldl (addOne fun e => greenFromArgb e.1 * e.2) (Array.replicate totalSize 0)
        momentsB := entries.foldl (addOne fun e => blueFromArgb e.1 * e.2) (Array.replicate totalSize 0)
        moments := entries.foldl addSquare (Array.replicate totalSize 0.0) } := by
  unfold constructHistogram
  have : ∀ (l : List (Int × Int)) (a b c d : Array Int) (m : Array F),
      l.foldl addEntry { weights := a, momentsR := b, momentsG := c, momentsB := d, moments := m } =
      ({ weights := l.foldl (addOne fun e => e.2) a
         momentsR := l.foldl (addOne fun e => redFromArgb e.1 * e.2) b
         momentsG := l.foldl (addOne fun e => greenFromArgb e.1 * e.2) c
         momentsB := l.foldl (addOne fun e => blueFromArgb e.1 * e.2) d
         moments := l.foldl addSquare m } : Tables F) := by
    intro l
    induction l with
    | nil => intros; rfl
    | cons e rest ih =>
      intro a b c d m
      rw [List.foldl_cons]
      have h : addEntry ({ weights := a, momentsR := b, momentsG := c, momentsB := d, moments := m } : Tables F) e =
          { weights := addOne (fun e => e.2) a e
            momentsR := addOne (fun e => redFromArgb e.1 * e.2) b e
            momentsG := addOne (fun e => greenFromArgb e.1 * e.2) c e
            momentsB := addOne (fun e => blueFromArgb e.1 * e.2) d e
            moments := addSquare m e } := by
        simp only [addEntry, addOne, squared, addSquare]
      rw [h, ih]
      rfl
  exact this _ _ _ _ _ _

theorem addSquare_real (entries : List (Int × Int)) (m : Array ℝ) :
    entries.foldl addSquare m = entries.foldl (addOne fun e => ((e.2 * squared e.1 : Int) : ℝ)) m := by
  have e0 : (0.0:ℝ) = 0 := by norm_num
  congr 1
  funext m e
  simp only [addSquare, addOne, fl_ofInt, e0]

end Mcu.QuantizerWu
