import Verif.Model.QuantizerMap
import Mathlib.Data.List.Perm.Basic
import Mathlib.Data.List.Lookmap
import Mathlib.Algebra.BigOperators.Group.List.Basic
import Mathlib.Tactic.Linarith
import Mathlib.Tactic.Ring

/-! Property C43 (the counting quantizer). -/

namespace Mcu.Props

open Mcu.QuantizerMap Mcu.ColorUtils

/-- Fully opaque: the alpha byte is 255. -/
def OpaquePixel (p : Int) : Prop := alphaFromArgb p = 255

instance (p : Int) : Decidable (OpaquePixel p) := inferInstanceAs (Decidable (_ = _))

theorem alpha_le (p : Int) : alphaFromArgb p ≤ 255 := by unfold alphaFromArgb; omega

theorem lookup_insert (m : List (Int × Int)) (k v q : Int) :
    (QuantizerMap.insert m k v).lookup q = if q = k then some v else m.lookup q := by
  induction m with
  | nil => by_cases h : q = k <;> simp [QuantizerMap.insert, List.lookup, h]
  | cons p rest ih =>
    obtain ⟨a, b⟩ := p
    unfold QuantizerMap.insert
    by_cases h : a = k
    · subst h
      simp only [if_true]
      by_cases h' : q = a
      · simp [h']
      · have hb : (q == a) = false := by simpa using h'
        simp [List.lookup_cons, hb, h']
    · simp only [h, if_false]
      by_cases h' : q = a
      · subst h'; simp [h]
      · have hb : (q == a) = false := by simpa using h'
        simp only [List.lookup_cons, hb, ih]

theorem insert_keys (m : List (Int × Int)) (k v : Int) :
    (QuantizerMap.insert m k v).map Prod.fst = if k ∈ m.map Prod.fst then m.map Prod.fst else m.map Prod.fst ++ [k] := by
  induction m with
  | nil => simp [QuantizerMap.insert]
  | cons p rest ih =>
    unfold QuantizerMap.insert
    by_cases h : p.1 = k
    · simp [h]
    · rw [if_neg h, List.map_cons, ih, List.map_cons]
      have hk : k ≠ p.1 := Ne.symm h
      by_cases h' : k ∈ rest.map Prod.fst
      · rw [if_pos h', if_pos (List.mem_cons_of_mem _ h')]
      · rw [if_neg h', if_neg (by simp only [List.mem_cons, not_or]; exact ⟨hk, h'⟩), List.cons_append]

theorem lookup_eq_none {m : List (Int × Int)} {k : Int} (h : k ∉ m.map Prod.fst) : m.lookup k = none := by
  induction m with
  | nil => rfl
  | cons p rest ih =>
    simp only [List.map_cons, List.mem_cons, not_or] at h
    have : (k == p.1) = false := by simpa using h.1
    rw [List.lookup_cons, this]
    exact ih h.2

/-- One pixel adds one to its own count and to no other. -/
theorem addPixel_lookup (m : List (Int × Int)) (p q : Int) :
    (addPixel m p).lookup q =
      if OpaquePixel p ∧ q = p then some ((m.lookup q).getD 0 + 1) else m.lookup q := by
  unfold addPixel OpaquePixel
  have := alpha_le p
  by_cases h : alphaFromArgb p < 255
  · simp only [h, if_true]
    rw [if_neg (fun hc => by omega)]
  · simp only [h, if_false, lookup_insert]
    have h' : alphaFromArgb p = 255 := by omega
    by_cases hq : q = p
    · subst hq; simp [h']
    · simp [hq]

theorem fold_lookup (pixels : List Int) (m : List (Int × Int)) (q : Int) :
    (pixels.foldl addPixel m).lookup q =
      if OpaquePixel q ∧ q ∈ pixels then some ((m.lookup q).getD 0 + pixels.count q) else m.lookup q := by
  induction pixels generalizing m with
  | nil => simp
  | cons p rest ih =>
    rw [List.foldl_cons, ih, addPixel_lookup]
    by_cases hq : q = p
    · subst hq
      by_cases ho : OpaquePixel q
      · by_cases hr : q ∈ rest
        · simp [ho, hr]; omega
        · simp [ho, hr, List.count_eq_zero_of_not_mem hr]
      · simp [ho]
    · have hne : ¬ p = q := fun h => hq h.symm
      simp [hq, hne]

/-- C43: the result has, for every colour, exactly the multiplicity of that colour among the pixels if
it is opaque and occurs, and no entry otherwise. -/
theorem c43_exact_counts (pixels : List Int) (q : Int) :
    (quantize pixels).lookup q =
      if OpaquePixel q ∧ q ∈ pixels then some (pixels.count q : Int) else none := by
  unfold quantize
  rw [fold_lookup]
  simp

theorem addPixel_nodup (m : List (Int × Int)) (p : Int) (h : (m.map Prod.fst).Nodup) :
    ((addPixel m p).map Prod.fst).Nodup := by
  unfold addPixel
  simp only
  split_ifs
  · exact h
  · rw [insert_keys]
    split_ifs with hk
    · exact h
    · exact List.nodup_append.2 ⟨h, by simp, by
        intro a ha b hb
        rw [List.mem_singleton] at hb
        subst hb
        intro he
        exact hk (he ▸ ha)⟩

/-- C43: no colour has two entries. -/
theorem c43_keys_nodup (pixels : List Int) : ((quantize pixels).map Prod.fst).Nodup := by
  have : ∀ (l : List Int) (m : List (Int × Int)), (m.map Prod.fst).Nodup →
      ((l.foldl addPixel m).map Prod.fst).Nodup := by
    intro l
    induction l with
    | nil => exact fun m h => h
    | cons p rest ih => exact fun m h => ih _ (addPixel_nodup m p h)
  exact this pixels [] List.nodup_nil

theorem lookup_of_mem {m : List (Int × Int)} (hn : (m.map Prod.fst).Nodup) {e : Int × Int} (h : e ∈ m) :
    m.lookup e.1 = some e.2 := by
  induction m with
  | nil => simp at h
  | cons p rest ih =>
    rw [List.map_cons, List.nodup_cons] at hn
    rcases List.mem_cons.1 h with rfl | h
    · obtain ⟨a, b⟩ := e
      exact List.lookup_cons_self
    · have hne : (e.1 == p.1) = false := by
        rw [beq_eq_false_iff_ne]
        intro he
        exact hn.1 (he ▸ List.mem_map_of_mem h)
      rw [List.lookup_cons, hne]
      exact ih hn.2 h

theorem mem_of_lookup {m : List (Int × Int)} {k v : Int} (h : m.lookup k = some v) : (k, v) ∈ m := by
  induction m with
  | nil => simp at h
  | cons p rest ih =>
    rw [List.lookup_cons] at h
    cases hk : (k == p.1) with
    | true =>
      rw [hk] at h
      have e1 : k = p.1 := by simpa using hk
      have e2 : p.2 = v := by simpa using h
      rw [e1, ← e2]; exact List.mem_cons_self
    | false => rw [hk] at h; exact List.mem_cons_of_mem _ (ih h)

/-- C43: the entries are exactly the pairs (opaque colour that occurs, its multiplicity). -/
theorem c43_entries (pixels : List Int) (k v : Int) :
    (k, v) ∈ quantize pixels ↔ OpaquePixel k ∧ k ∈ pixels ∧ v = pixels.count k := by
  constructor
  · intro h
    have hl := lookup_of_mem (c43_keys_nodup pixels) h
    rw [c43_exact_counts] at hl
    split_ifs at hl with hc
    · exact ⟨hc.1, hc.2, (Option.some.inj hl).symm⟩
  · rintro ⟨h1, h2, rfl⟩
    apply mem_of_lookup
    rw [c43_exact_counts, if_pos ⟨h1, h2⟩]

theorem insert_sum (m : List (Int × Int)) (k v : Int) (hn : (m.map Prod.fst).Nodup) :
    ((QuantizerMap.insert m k v).map Prod.snd).sum = (m.map Prod.snd).sum - (m.lookup k).getD 0 + v := by
  induction m with
  | nil => simp [QuantizerMap.insert]
  | cons p rest ih =>
    rw [List.map_cons, List.nodup_cons] at hn
    unfold QuantizerMap.insert
    by_cases h : p.1 = k
    · obtain ⟨a, b⟩ := p
      subst h; simp [List.lookup_cons_self]; ring
    · have hb : (k == p.1) = false := by simpa using Ne.symm h
      rw [if_neg h, List.map_cons, List.sum_cons, ih hn.2, List.map_cons, List.sum_cons, List.lookup_cons, hb]
      show _ = p.2 + (rest.map Prod.snd).sum - (rest.lookup k).getD 0 + v
      ring

/-- C43: the counts add up to the number of opaque pixels. -/
theorem c43_total (pixels : List Int) :
    ((quantize pixels).map Prod.snd).sum = (pixels.countP fun p => decide (OpaquePixel p) : Nat) := by
  have : ∀ (l : List Int) (m : List (Int × Int)), (m.map Prod.fst).Nodup →
      ((l.foldl addPixel m).map Prod.snd).sum =
        (m.map Prod.snd).sum + (l.countP fun p => decide (OpaquePixel p) : Nat) := by
    intro l
    induction l with
    | nil => intro m _; simp
    | cons p rest ih =>
      intro m h
      rw [List.foldl_cons, ih _ (addPixel_nodup m p h), List.countP_cons]
      have := alpha_le p
      unfold addPixel
      by_cases ha : alphaFromArgb p < 255
      · have ha' : ¬ OpaquePixel p := fun h => by unfold OpaquePixel at h; omega
        simp [ha, ha']
      · have ha' : OpaquePixel p := by unfold OpaquePixel; omega
        rw [if_pos (decide_eq_true ha')]
        simp only [ha, if_false]
        rw [insert_sum m p _ h]
        push_cast
        ring
  have h := this pixels [] List.nodup_nil
  simpa [quantize] using h

theorem nodup_of_keys {m : List (Int × Int)} (h : (m.map Prod.fst).Nodup) : m.Nodup := by
  unfold List.Nodup at h ⊢
  rw [List.pairwise_map] at h
  exact h.imp fun hne he => hne (by rw [he])

/-- C43: the order of the pixels does not matter: permuted pixels give the same entries (the order of
the entries of a hash map is unspecified). -/
theorem c43_order_independent (p q : List Int) (h : p.Perm q) : (quantize p).Perm (quantize q) := by
  rw [List.perm_ext_iff_of_nodup (nodup_of_keys (c43_keys_nodup p)) (nodup_of_keys (c43_keys_nodup q))]
  rintro ⟨k, v⟩
  rw [c43_entries, c43_entries, h.mem_iff, h.count_eq]

/-- Two opaque colours, one translucent, one repeated. -/
example : quantize [0xFFFF0000, 0xFF00FF00, 0x80FF0000, 0xFFFF0000] = [(0xFFFF0000, 2), (0xFF00FF00, 1)] := by
  decide

end Mcu.Props
