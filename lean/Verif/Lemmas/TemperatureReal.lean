import Verif.Lemmas.Temperature
import Verif.Lemmas.Real
import Verif.Lemmas.Cam
import Verif.Spec.Temperature
import Verif.Props.Angles

/-! The temperature cache over the reals. -/

namespace Mcu.TemperatureCache

open MathUtils ColorUtils TemperatureSpec Props

/-! ### The table of temperatures, for any arithmetic -/

section generic
variable {F : Type} [Fl F]

/-- Every entry is the temperature of its key, and the keys are those of `ks`. -/
def TableOf (m : List (Int × F)) (ks : List Int) : Prop :=
  (∀ p ∈ m, p.2 = rawTemperatureOfArgb p.1) ∧ ∀ k, (∃ v, (k, v) ∈ m) ↔ k ∈ ks

theorem mapInsert_table {m : List (Int × F)} {ks : List Int} (h : TableOf m ks) (k : Int) :
    TableOf (mapInsert m k (rawTemperatureOfArgb k)) (ks ++ [k]) := by
  obtain ⟨h1, h2⟩ := h
  unfold mapInsert
  split
  · next hany =>
    obtain ⟨p, hp, hk⟩ := List.any_eq_true.mp hany
    have hk : p.1 = k := by simpa using hk
    have hsame : m.map (fun p => if p.1 == k then (k, rawTemperatureOfArgb k) else p) = m := by
      conv_rhs => rw [← List.map_id m]
      apply List.map_congr_left
      intro q hq
      by_cases hqk : q.1 = k
      · have : (q.1 == k) = true := by simpa using hqk
        rw [if_pos this, ← hqk, ← h1 q hq]; rfl
      · have : (q.1 == k) = false := by simpa using hqk
        simp [this]
    rw [hsame]
    refine ⟨h1, fun k' => (h2 k').trans ?_⟩
    rw [List.mem_append, List.mem_singleton]
    refine ⟨Or.inl, ?_⟩
    rintro (h | rfl)
    · exact h
    · exact (h2 _).mp ⟨p.2, by rw [← hk]; exact hp⟩
  · refine ⟨?_, fun k' => ?_⟩
    · intro p hp
      rcases List.mem_append.mp hp with h | h
      · exact h1 p h
      · rw [List.mem_singleton.mp h]
    · simp only [List.mem_append, List.mem_singleton, ← h2 k', Prod.mk.injEq]
      constructor
      · rintro ⟨v, h | ⟨h, _⟩⟩
        · exact Or.inl ⟨v, h⟩
        · exact Or.inr h
      · rintro (⟨v, h⟩ | h)
        · exact ⟨v, Or.inl h⟩
        · exact ⟨_, Or.inr ⟨h, rfl⟩⟩

theorem computeTemps_table (l : List (Hct F)) : TableOf (computeTemps l) (l.map Hct.toInt) := by
  unfold computeTemps
  have : ∀ (l : List (Hct F)) (m : List (Int × F)) (ks : List Int), TableOf m ks →
      TableOf (l.foldl (fun m e => mapInsert m e.toInt (rawTemperature e)) m) (ks ++ l.map Hct.toInt) := by
    intro l
    induction l with
    | nil => intro m ks h; simpa using h
    | cons e rest ih =>
      intro m ks h
      have := ih _ _ (mapInsert_table h e.toInt)
      simpa [rawTemperature] using this
  have h := this l [] [] ⟨fun p hp => absurd hp List.not_mem_nil, fun k => by simp⟩
  simpa using h

theorem lookup_table {m : List (Int × F)} {ks : List Int} (h : TableOf m ks) (k : Int) :
    m.lookup k = if k ∈ ks then some (rawTemperatureOfArgb k) else none := by
  obtain ⟨h1, h2⟩ := h
  cases hl : m.lookup k with
  | none =>
    rw [if_neg]
    intro hk
    obtain ⟨v, hv⟩ := (h2 k).mpr hk
    have := List.lookup_eq_none_iff.mp hl (k, v) hv
    simp at this
  | some v =>
    obtain ⟨l1, l2, e, _⟩ := List.lookup_eq_some_iff.mp hl
    have hm : (k, v) ∈ m := by rw [e]; simp
    rw [if_pos ((h2 k).mp ⟨v, hm⟩)]
    exact congrArg some (h1 _ hm)

theorem temp_eq (input h : Hct F) : temp input h =
    if h.toInt ∈ (wheel input ++ [input]).map Hct.toInt then some (rawTemperatureOfArgb h.toInt) else none :=
  lookup_table (computeTemps_table _) _

theorem temp_mem {input h : Hct F} (hh : h ∈ wheel input ++ [input]) : temp input h = some (rawTemperature h) := by
  rw [temp_eq, if_pos (List.mem_map_of_mem hh)]
  rfl

end generic

/-! ### Sorting -/

theorem byTemp_eq (input : Hct ℝ) : byTemp input =
    (wheel input ++ [input]).mergeSort (fun a b => decide (rawTemperature a ≤ rawTemperature b)) := by
  have := List.map_mergeSort (r := tempLe (temps input))
    (s := fun a b => decide (rawTemperature a ≤ rawTemperature b)) (f := id) (l := wheel input ++ [input]) (by
    intro a ha b hb
    have h1 := temp_mem ha
    have h2 := temp_mem hb
    unfold temp at h1 h2
    simp only [tempLe, h1, h2, id]
    rw [← decide_not]
    apply decide_eq_decide.mpr
    exact not_lt)
  simpa [byTemp] using this

theorem byTemp_perm {F : Type} [Fl F] (input : Hct F) : (byTemp input).Perm (wheel input ++ [input]) := List.mergeSort_perm _ _

theorem byTemp_sorted (input : Hct ℝ) :
    (byTemp input).Pairwise fun a b => rawTemperature a ≤ rawTemperature b := by
  rw [byTemp_eq]
  have := List.pairwise_mergeSort (le := fun a b : Hct ℝ => decide (rawTemperature a ≤ rawTemperature b))
    (fun a b c h1 h2 => by
      rw [decide_eq_true_iff] at *
      exact le_trans h1 h2)
    (fun a b => by
      rw [Bool.or_eq_true, decide_eq_true_iff, decide_eq_true_iff]
      exact le_total _ _) (wheel input ++ [input])
  exact this.imp fun h => of_decide_eq_true h

theorem byTemp_ne' {F : Type} [Fl F] (input : Hct F) : byTemp input ≠ [] := by
  intro h
  have := (byTemp_perm input).length_eq
  rw [h] at this
  simp at this

theorem coldest_spec (input : Hct ℝ) : ∃ c, coldest input = some c ∧ c ∈ wheel input ++ [input] ∧
    ∀ h ∈ wheel input ++ [input], rawTemperature c ≤ rawTemperature h := by
  have hs := byTemp_sorted input
  have hp := byTemp_perm input
  unfold coldest
  cases hb : byTemp input with
  | nil => exact absurd hb (byTemp_ne' input)
  | cons c rest =>
    rw [hb] at hs hp
    refine ⟨c, rfl, hp.subset (List.mem_cons_self), fun h hh => ?_⟩
    rcases List.mem_cons.mp (hp.symm.subset hh) with rfl | hr
    · exact le_refl _
    · exact (List.pairwise_cons.mp hs).1 h hr

theorem warmest_spec (input : Hct ℝ) : ∃ w, warmest input = some w ∧ w ∈ wheel input ++ [input] ∧
    ∀ h ∈ wheel input ++ [input], rawTemperature h ≤ rawTemperature w := by
  have hs := byTemp_sorted input
  have hp := byTemp_perm input
  unfold warmest
  rcases List.eq_nil_or_concat (byTemp input) with hb | ⟨l, w, hb⟩
  · exact absurd hb (byTemp_ne' input)
  · rw [List.concat_eq_append] at hb
    rw [hb] at hs hp ⊢
    refine ⟨w, by simp, hp.subset (by simp), fun h hh => ?_⟩
    rcases List.mem_append.mp (hp.symm.subset hh) with hl | hr
    · exact (List.pairwise_append.mp hs).2.2 h hl w (by simp)
    · rw [List.mem_singleton.mp hr]

theorem wheel_mem (input h : Hct ℝ) : h ∈ wheel input ↔
    ∃ i : Nat, i < 360 ∧ h = Hct.fromHct (i : ℝ) input.getChroma input.getTone := by
  unfold wheel computeHctsByHue
  rw [List.mem_map]
  constructor
  · rintro ⟨i, hi, rfl⟩
    exact ⟨i, List.mem_range.mp hi, by rw [fl_ofInt]; norm_cast⟩
  · rintro ⟨i, hi, rfl⟩
    exact ⟨i, List.mem_range.mpr hi, by rw [fl_ofInt]; norm_cast⟩

theorem considered_iff (input h : Hct ℝ) : Considered input h ↔ h ∈ wheel input ++ [input] := by
  rw [List.mem_append, List.mem_singleton, wheel_mem, Considered, or_comm]

/-! ### The raw temperature -/

theorem rawTemperature_eq (argb : Int) : rawTemperatureOfArgb argb = temperature argb := by
  unfold rawTemperatureOfArgb temperature
  simp only
  generalize (labFromArgb argb : Vec3 ℝ) = lab
  obtain ⟨_, _, k, hk⟩ := c06_sanitize_real (Complex.arg ⟨lab.x1, lab.x2⟩ * 180 / Real.pi)
  obtain ⟨_, _, j, hj⟩ := c06_sanitize_real
    (sanitizeDegreesDouble (Complex.arg ⟨lab.x1, lab.x2⟩ * 180 / Real.pi) - 50)
  have e180 : (180.0 : ℝ) = 180 := by norm_num
  have e50 : (50.0 : ℝ) = 50 := by norm_num
  have ep : (1.07 : ℝ) = 107/100 := by norm_num
  have ec : (0.02 : ℝ) = 2/100 := by norm_num
  have eh : (-0.5 : ℝ) = -(1/2) := by norm_num
  have hatan : Fl.atan2 lab.x2 lab.x1 = Complex.arg ⟨lab.x1, lab.x2⟩ := rfl
  have hpi : (Fl.pi : ℝ) = Real.pi := rfl
  rw [e180, e50, ep, ec, eh, hatan, hpi, hj, hk]
  show -(1/2) + 2/100 * (Real.sqrt (lab.x1 * lab.x1 + lab.x2 * lab.x2)) ^ (107/100 : ℝ) * Real.cos _ = _
  have harg : (Complex.arg ⟨lab.x1, lab.x2⟩ * 180 / Real.pi + 360 * (k : ℝ) - 50 + 360 * (j : ℝ)) * Real.pi / 180
      = Complex.arg ⟨lab.x1, lab.x2⟩ - 50 * Real.pi / 180 + ((k + j : ℤ) : ℝ) * (2 * Real.pi) := by
    have := Real.pi_pos.ne'
    push_cast
    field_simp
    ring
  rw [harg, Real.cos_add_int_mul_two_pi, ← sq, ← sq]
  ring

/-! ### Relative temperatures -/

/-- The relative temperature with respect to given extremes. -/
noncomputable def relOf (c w : Hct ℝ) (argb : Int) : ℝ :=
  if rawTemperature w = rawTemperature c then 1/2
  else (rawTemperatureOfArgb argb - rawTemperature c) / (rawTemperature w - rawTemperature c)

theorem relative_eq {input c w : Hct ℝ} (hc : coldest input = some c) (hw : warmest input = some w)
    (hcm : c ∈ wheel input ++ [input]) (hwm : w ∈ wheel input ++ [input]) (h : Hct ℝ) :
    relative input h = if h.toInt ∈ (wheel input ++ [input]).map Hct.toInt then some (relOf c w h.toInt) else none := by
  unfold relative
  simp only [hc, hw, temp_mem hcm, temp_mem hwm, Option.bind_eq_bind, Option.bind_some]
  rw [temp_eq]
  split
  · simp only [Option.bind_some, relOf]
    have e0 : (0.0 : ℝ) = 0 := by norm_num
    have e5 : (0.5 : ℝ) = 1/2 := by norm_num
    rw [e0, e5]
    by_cases hr : rawTemperature w = rawTemperature c
    · rw [if_pos ((fl_beq _ _).mpr (by rw [hr, sub_self])), if_pos hr]; rfl
    · rw [if_neg (fun hh => hr (sub_eq_zero.mp ((fl_beq _ _).mp hh))), if_neg hr]; rfl
  · rfl

theorem inputRelative_eq {input c w : Hct ℝ} (hc : coldest input = some c) (hw : warmest input = some w)
    (hcm : c ∈ wheel input ++ [input]) (hwm : w ∈ wheel input ++ [input]) :
    inputRelative input = some (relOf c w input.toInt) := by
  unfold inputRelative
  have hi : input ∈ wheel input ++ [input] := by simp
  simp only [hc, hw, temp_mem hcm, temp_mem hwm, temp_mem hi, Option.bind_eq_bind, Option.bind_some]
  have e0 : (0.0 : ℝ) = 0 := by norm_num
  have e5 : (0.5 : ℝ) = 1/2 := by norm_num
  rw [e0, e5]
  unfold relOf
  by_cases hr : rawTemperature w = rawTemperature c
  · rw [if_pos ((fl_beq _ _).mpr (by rw [hr, sub_self])), if_pos hr]; rfl
  · rw [if_neg (fun hh => hr (sub_eq_zero.mp ((fl_beq _ _).mp hh))), if_neg hr]; rfl

theorem coldest_some {F : Type} [Fl F] (input : Hct F) : ∃ c, coldest input = some c ∧ c ∈ wheel input ++ [input] := by
  have hp := byTemp_perm input
  unfold coldest
  cases hb : byTemp input with
  | nil => exact absurd hb (byTemp_ne' input)
  | cons c rest =>
    rw [hb] at hp
    exact ⟨c, rfl, hp.subset (List.mem_cons_self)⟩

theorem warmest_some {F : Type} [Fl F] (input : Hct F) : ∃ w, warmest input = some w ∧ w ∈ wheel input ++ [input] := by
  have hp := byTemp_perm input
  unfold warmest
  rcases List.eq_nil_or_concat (byTemp input) with hb | ⟨l, w, hb⟩
  · exact absurd hb (byTemp_ne' input)
  · rw [List.concat_eq_append] at hb
    rw [hb] at hp ⊢
    exact ⟨w, by simp, hp.subset (by simp)⟩

/-- For any arithmetic, the relative temperature of a colour considered can be computed. -/
theorem relative_some {F : Type} [Fl F] (input h : Hct F) (hh : h ∈ wheel input ++ [input]) :
    ∃ x, relative input h = some x := by
  obtain ⟨c, hc, hcm⟩ := coldest_some input
  obtain ⟨w, hw, hwm⟩ := warmest_some input
  unfold relative
  simp only [hc, hw, temp_mem hcm, temp_mem hwm, temp_mem hh, Option.bind_eq_bind, Option.bind_some]
  split
  · exact ⟨_, rfl⟩
  · exact ⟨_, rfl⟩

/-! ### The wheel -/

/-- The colour of the wheel at a whole-degree angle. -/
def wheelAt {F : Type} [Fl F] (input : Hct F) (n : Int) : Hct F :=
  Hct.fromHct (Fl.ofInt (n % 360)) input.getChroma input.getTone

theorem wheel_length {F : Type} [Fl F] (input : Hct F) : (wheel input).length = 360 := by
  unfold wheel computeHctsByHue
  rw [List.length_map, List.length_range]

theorem wheel_get {F : Type} [Fl F] (input : Hct F) (n : Nat) : (wheel input)[n]? =
    if n < 360 then some (wheelAt input n) else none := by
  unfold wheel computeHctsByHue
  rw [List.getElem?_map]
  split
  · next h =>
    rw [List.getElem?_range h]
    show some (Hct.fromHct (Fl.ofInt (n : Int)) _ _) = some (wheelAt input n)
    unfold wheelAt
    rw [Int.emod_eq_of_lt (by omega) (by omega)]
  · next h =>
    rw [List.getElem?_eq_none (by rw [List.length_range]; omega)]
    rfl

theorem at_wheel {F : Type} [Fl F] (input : Hct F) (n : Int) : at? (wheel input) n =
    if 0 ≤ n ∧ n < 360 then some (wheelAt input n) else none := by
  unfold at?
  by_cases h : 0 ≤ n
  · rw [if_pos h, wheel_get]
    by_cases h' : n < 360
    · rw [if_pos (by omega), if_pos ⟨h, h'⟩, Int.toNat_of_nonneg h]
    · rw [if_neg (by omega), if_neg (by omega)]
  · rw [if_neg h, if_neg (by omega)]

theorem wheelAt_mem {F : Type} [Fl F] (input : Hct F) (n : Int) : wheelAt input n ∈ wheel input := by
  have h := wheel_get input (n % 360).toNat
  rw [if_pos (by omega)] at h
  have : wheelAt input ((n % 360).toNat : Int) = wheelAt input n := by
    unfold wheelAt
    rw [show ((n % 360).toNat : Int) = n % 360 from Int.toNat_of_nonneg (by omega), Int.emod_emod_of_dvd _ (dvd_refl _)]
  rw [this] at h
  exact List.mem_of_getElem? h

theorem sanitize_int (d : Int) : sanitizeDegreesInt d = d % 360 :=
  ((c05_sanitize_int d).2.2 (d % 360) (by omega) (by omega) ⟨-(d / 360), by omega⟩).symm

theorem at_sanitize {F : Type} [Fl F] (input : Hct F) (n : Int) : at? (wheel input) (sanitizeDegreesInt n) = some (wheelAt input n) := by
  rw [sanitize_int, at_wheel, if_pos (by omega)]
  unfold wheelAt
  rw [Int.emod_emod_of_dvd _ (dvd_refl _)]

theorem relative_wheelAt {F : Type} [Fl F] (input : Hct F) (n : Int) : ∃ x, relative input (wheelAt input n) = some x :=
  relative_some input _ (List.mem_append_left _ (wheelAt_mem input n))

/-! ### The loops of `analogous` -/

theorem totalDelta_some {F : Type} [Fl F] (input : Hct F) (start : Int) (l : List Nat) : ∀ lastTemp total,
    ∃ x, totalDelta input start l lastTemp total = some x := by
  induction l with
  | nil => exact fun _ t => ⟨t, rfl⟩
  | cons i rest ih =>
    intro lastTemp total
    unfold totalDelta
    rw [at_sanitize]
    obtain ⟨x, hx⟩ := relative_wheelAt input (start + i)
    simp only [Option.bind_eq_bind, Option.bind_some, hx]
    exact ih _ _

theorem satisfyLoop_eq {F : Type} [Fl F] (hct : Hct F) (total step : F) (n : Nat) : ∀ b k all,
    ∃ m, m ≤ n ∧ satisfyLoop hct total step n b k all = all ++ List.replicate m hct := by
  induction n with
  | zero => exact fun b k all => ⟨0, le_refl _, by simp [satisfyLoop]⟩
  | succ n ih =>
    intro b k all
    unfold satisfyLoop
    split
    · obtain ⟨m, hm, e⟩ := ih (decide (total ≥ Fl.ofInt ((all ++ [hct]).length + k : Nat) * step)) (k + 1) (all ++ [hct])
      refine ⟨m + 1, by omega, e.trans ?_⟩
      rw [List.append_assoc, List.replicate_succ]; rfl
    · exact ⟨0, by omega, by simp⟩

theorem divisionsOf_spec {F : Type} [Fl F] (input : Hct F) (start divisions : Int) (step : F) (fuel : Nat) :
    ∀ (addend : Int) (lastTemp total : F) (all : List (Hct F)),
      0 ≤ addend → addend ≤ 360 → (fuel : Int) = 361 - addend →
    ∃ offs : List Int, offs.Pairwise (· ≤ ·) ∧ (∀ o ∈ offs, addend ≤ o ∧ o ≤ 360) ∧
      ((all ++ offs.map fun o => wheelAt input (start + o)).length : Int) = max (all.length : Int) divisions ∧
      divisionsOf input start divisions step fuel addend lastTemp total all
        = some (all ++ offs.map fun o => wheelAt input (start + o)) := by
  induction fuel with
  | zero => intro addend _ _ _ _ _ h; omega
  | succ fuel ih =>
    intro addend lastTemp total all h0 h1 hf
    unfold divisionsOf
    by_cases hl : (all.length : Int) < divisions
    · rw [if_pos hl, at_sanitize]
      obtain ⟨x, hx⟩ := relative_wheelAt input (start + addend)
      simp only [Option.bind_eq_bind, Option.bind_some, hx]
      obtain ⟨m, hm, hs⟩ := satisfyLoop_eq (wheelAt input (start + addend)) (total + Fl.abs (x - lastTemp)) step
        (divisions - all.length).toNat
        (decide (total + Fl.abs (x - lastTemp) ≥ Fl.ofInt (all.length : Nat) * step)) 1 all
      rw [hs]
      have hlen : (all ++ List.replicate m (wheelAt input (start + addend))).length = all.length + m := by
        rw [List.length_append, List.length_replicate]
      split
      · have hk : (divisions - ((all ++ List.replicate m (wheelAt input (start + addend))).length : Int)).toNat
            = (divisions - all.length).toNat - m := by rw [hlen]; omega
        refine ⟨List.replicate (divisions - all.length).toNat addend, ?_, ?_, ?_, ?_⟩
        · exact List.pairwise_replicate_of_refl
        · intro o ho; rw [List.eq_of_mem_replicate ho]; omega
        · rw [List.length_append, List.length_map, List.length_replicate]; push_cast; omega
        · rw [hk, List.append_assoc, ← List.replicate_add, List.map_replicate, Nat.add_sub_cancel' hm]
      · obtain ⟨offs, p1, p2, p3, p4⟩ := ih (addend + 1) x (total + Fl.abs (x - lastTemp))
          (all ++ List.replicate m (wheelAt input (start + addend))) (by omega) (by omega) (by omega)
        refine ⟨List.replicate m addend ++ offs, ?_, ?_, ?_, ?_⟩
        · rw [List.pairwise_append]
          refine ⟨List.pairwise_replicate_of_refl, p1, fun a ha b hb => ?_⟩
          rw [List.eq_of_mem_replicate ha]
          have := (p2 b hb).1; omega
        · intro o ho
          rcases List.mem_append.mp ho with h | h
          · rw [List.eq_of_mem_replicate h]; omega
          · have := p2 o h; omega
        · rw [List.map_append, List.map_replicate, ← List.append_assoc, p3, hlen]
          push_cast; omega
        · rw [List.map_append, List.map_replicate, ← List.append_assoc]
          exact p4
    · rw [if_neg hl]
      exact ⟨[], List.Pairwise.nil, fun o ho => absurd ho List.not_mem_nil, by simp; omega, by simp⟩

/-! ### Picking the answers -/

theorem raiseIndex_spec (len : Int) (h : 1 ≤ len) (fuel : Nat) : ∀ i : Int, -i ≤ fuel →
    0 ≤ raiseIndex len fuel i ∧ raiseIndex len fuel i % len = i % len := by
  induction fuel with
  | zero => intro i hi; exact ⟨by unfold raiseIndex; omega, rfl⟩
  | succ fuel ih =>
    intro i hi
    unfold raiseIndex
    split
    · have := ih (len + i) (by omega)
      refine ⟨this.1, this.2.trans ?_⟩
      rw [Int.add_emod_left]
    · exact ⟨by omega, rfl⟩

theorem wrapIndex_eq (len : Int) (h : 1 ≤ len) (i : Int) : wrapIndex len i = i % len := by
  unfold wrapIndex
  obtain ⟨h0, h1⟩ := raiseIndex_spec len h (-i).toNat i (by omega)
  simp only
  split
  · rw [Int.tmod_eq_emod_of_nonneg h0, h1]
  · rw [← h1, Int.emod_eq_of_lt h0 (by omega)]

theorem at_mod {α : Type} (l : List α) (h : l ≠ []) (i : Int) :
    ∃ x, at? l (wrapIndex l.length i) = some x ∧ l[(i % l.length).toNat]? = some x := by
  have hl : 1 ≤ (l.length : Int) := by
    have := List.length_pos_iff.mpr h; omega
  rw [wrapIndex_eq _ hl]
  have h0 : 0 ≤ i % (l.length : Int) := Int.emod_nonneg _ (by omega)
  have h1 : i % (l.length : Int) < l.length := Int.emod_lt_of_pos _ (by omega)
  unfold at?
  rw [if_pos h0]
  have hlt : (i % (l.length : Int)).toNat < l.length := by omega
  exact ⟨l[(i % (l.length : Int)).toNat], by rw [List.getElem?_eq_getElem hlt], by rw [List.getElem?_eq_getElem hlt]⟩

theorem foldlM_cons {α : Type} (f : Nat → Option α) (g : Nat → α) (h : ∀ i, f i = some (g i)) (l : List Nat) : ∀ a : List α,
    l.foldlM (fun answers i => (do let c ← f i; return c :: answers : Option (List α))) a
      = some ((l.map g).reverse ++ a) := by
  induction l with
  | nil => exact fun a => rfl
  | cons i rest ih =>
    intro a
    rw [List.foldlM_cons, h i]
    show List.foldlM _ (g i :: a) rest = _
    rw [ih]; simp

theorem foldlM_snoc {α : Type} (f : Nat → Option α) (g : Nat → α) (h : ∀ i, f i = some (g i)) (l : List Nat) : ∀ a : List α,
    l.foldlM (fun answers i => (do let c ← f i; return answers ++ [c] : Option (List α))) a
      = some (a ++ l.map g) := by
  induction l with
  | nil => exact fun a => by simp
  | cons i rest ih =>
    intro a
    rw [List.foldlM_cons, h i]
    show List.foldlM _ (a ++ [g i]) rest = _
    rw [ih]; simp

theorem half_count (count : Int) (h1 : -9223372036854775808 ≤ count) (h2 : count ≤ 9223372036854775807) :
    Fl.toI64 (Fl.floor ((Fl.ofInt (count - 1) : ℝ) / 2.0)) = (count - 1) / 2 := by
  have e2 : (2.0 : ℝ) = ((2 : Nat) : ℝ) := by norm_num
  have : Fl.floor ((Fl.ofInt (count - 1) : ℝ) / 2.0) = (((count - 1) / 2 : Int) : ℝ) := by
    rw [fl_floor, fl_ofInt, e2, Int.floor_div_natCast, Int.floor_intCast]
    norm_num
  rw [this, fl_toI64, realTrunc_intCast, satI64_of_mem (by omega)]

theorem pickOf_spec {F : Type} [Fl F] (input : Hct F) (all : List (Hct F)) (hall : all ≠ []) (count : Int)
    (hhalf : Fl.toI64 (Fl.floor ((Fl.ofInt (count - 1) : F) / 2.0)) = (count - 1) / 2) :
    ∃ out, pickOf input all count = some out ∧ (out.length : Int) = max 1 count ∧
      out[((count - 1) / 2).toNat]? = some input ∧
      ∀ k : Nat, k < out.length → k ≠ ((count - 1) / 2).toNat →
        out[k]? = all[(((k : Int) - ((count - 1) / 2).toNat) % all.length).toNat]? := by
  unfold pickOf
  simp only [hhalf]
  choose g hg1 hg2 using fun i : Int => at_mod all hall i
  rw [foldlM_cons (g := fun i => g (0 - (i + 1))) _ (fun i => hg1 _)]
  refine ⟨_, foldlM_snoc (g := fun i => g (i + 1)) _ (fun i => hg1 _) _ _, ?_, ?_, ?_⟩
  · simp only [List.length_append, List.length_reverse, List.length_map, List.length_range, List.length_singleton]
    push_cast
    omega
  · rw [List.append_assoc, List.getElem?_append_right (by simp)]
    simp
  · intro k hk hne
    set inc := ((count - 1) / 2).toNat with hinc
    rw [hg2]
    rcases lt_or_gt_of_ne hne with hlt | hgt
    · rw [List.append_assoc, List.getElem?_append_left (by simpa using hlt),
        List.getElem?_reverse (by simpa using hlt), List.getElem?_map]
      simp only [List.length_map, List.length_range]
      rw [List.getElem?_range (by omega)]
      simp only [Option.map_some]
      congr 2
      omega
    · rw [List.getElem?_append_right (by simp; omega)]
      simp only [List.length_append, List.length_reverse, List.length_map, List.length_range, List.length_singleton]
      simp only [List.length_append, List.length_reverse, List.length_map, List.length_range, List.length_singleton] at hk
      rw [List.getElem?_map, List.getElem?_range (by omega)]
      simp only [Option.map_some]
      congr 2
      omega

/-! ### The loop of `get_complement` -/

theorem toUsize_round {x : ℝ} (h0 : 0 ≤ x) (h1 : x < 360) : toUsize (Fl.round x) = (⌊x + 1/2⌋).toNat := by
  unfold toUsize
  have : (Fl.round x : ℝ) = ((⌊x + 1/2⌋ : ℤ) : ℝ) := if_pos h0
  rw [this, fl_toI64, realTrunc_intCast, satI64_of_mem]
  have a0 : 0 ≤ ⌊x + 1/2⌋ := Int.floor_nonneg.mpr (by linarith)
  have a1 : ⌊x + 1/2⌋ < 361 := Int.floor_lt.mpr (by push_cast; linarith)
  omega

theorem round_lt_iff {x : ℝ} (h0 : 0 ≤ x) : (⌊x + 1/2⌋).toNat < 360 ↔ x < 359.5 := by
  have a0 : 0 ≤ ⌊x + 1/2⌋ := Int.floor_nonneg.mpr (by linarith)
  have : (⌊x + 1/2⌋).toNat < 360 ↔ ⌊x + 1/2⌋ < 360 := by omega
  rw [this, Int.floor_lt]
  push_cast
  constructor <;> intro h <;> norm_num at h ⊢ <;> linarith

section loop
variable (input : Hct ℝ) (start stop cold range target : ℝ)

/-- The angle of an addend. -/
noncomputable def angleOf (i : Nat) : ℝ := sanitizeDegreesDouble (start + i)

/-- The colour looked at. -/
noncomputable def candidate (i : Nat) : Hct ℝ := wheelAt input ⌊angleOf start i + 1/2⌋

/-- Its error. -/
noncomputable def errorOf (i : Nat) : ℝ :=
  |target - (rawTemperature (candidate input start i) - cold) / range|

theorem complementLoop_cons (i : Nat) (rest : List Nat) (e : ℝ) (a : Hct ℝ) :
    complementLoop (wheel input) (temps input) start stop cold range target (i :: rest) e a =
      if isBetween (angleOf start i) start stop = true then
        if angleOf start i < 359.5 then
          if errorOf input start cold range target i < e then
            complementLoop (wheel input) (temps input) start stop cold range target rest
              (errorOf input start cold range target i) (candidate input start i)
          else complementLoop (wheel input) (temps input) start stop cold range target rest e a
        else none
      else complementLoop (wheel input) (temps input) start stop cold range target rest e a := by
  have hang : sanitizeDegreesDouble (start + 1.0 * Fl.ofInt (i : Nat)) = angleOf start i := by
    unfold angleOf
    congr 2
    rw [fl_ofInt]; norm_num
  conv_lhs => unfold complementLoop
  simp only [hang]
  obtain ⟨a0, a1, _⟩ := c06_sanitize_real (start + i)
  have a0 : 0 ≤ angleOf start i := a0
  have a1 : angleOf start i < 360 := a1
  by_cases hb : isBetween (angleOf start i) start stop = true
  · rw [if_pos hb, hb]
    simp only [Bool.not_true, Bool.false_eq_true, if_false]
    rw [toUsize_round a0 a1, wheel_get]
    by_cases hlt : angleOf start i < 359.5
    · rw [if_pos hlt, if_pos ((round_lt_iff a0).mpr hlt)]
      have hc : wheelAt input ((⌊angleOf start i + 1/2⌋).toNat : Int) = candidate input start i := by
        unfold candidate
        rw [Int.toNat_of_nonneg (Int.floor_nonneg.mpr (by linarith))]
      simp only [hc]
      have ht : (temps input).lookup (candidate input start i).toInt = some (rawTemperature (candidate input start i)) := by
        have hm : candidate input start i ∈ wheel input ++ [input] := by
          unfold candidate
          exact List.mem_append_left _ (wheelAt_mem _ _)
        have := temp_mem hm
        unfold temp at this
        exact this
      simp only [ht]
      show (if errorOf input start cold range target i < e then _ else _) = _
      split_ifs <;> rfl
    · rw [if_neg hlt, if_neg (fun h => hlt ((round_lt_iff a0).mp h))]
  · rw [if_neg hb]
    simp only [Bool.not_eq_true] at hb
    rw [hb]; rfl

/-- The addends that are looked at. -/
def Visited (start stop : ℝ) (i : Nat) : Prop := isBetween (angleOf start i) start stop = true

theorem complementLoop_none (l : List Nat) : ∀ e a,
    complementLoop (wheel input) (temps input) start stop cold range target l e a = none ↔
      ∃ i ∈ l, Visited start stop i ∧ 359.5 ≤ angleOf start i := by
  induction l with
  | nil => intro e a; simp [complementLoop]
  | cons i rest ih =>
    intro e a
    rw [complementLoop_cons]
    by_cases hb : isBetween (angleOf start i) start stop = true
    · rw [if_pos hb]
      by_cases hlt : angleOf start i < 359.5
      · rw [if_pos hlt]
        have key : (∃ j ∈ i :: rest, Visited start stop j ∧ 359.5 ≤ angleOf start j) ↔
            ∃ j ∈ rest, Visited start stop j ∧ 359.5 ≤ angleOf start j := by
          constructor
          · rintro ⟨j, hj, hv⟩
            rcases List.mem_cons.mp hj with rfl | hj
            · exact absurd hv.2 (not_le.mpr hlt)
            · exact ⟨j, hj, hv⟩
          · rintro ⟨j, hj, hv⟩; exact ⟨j, List.mem_cons_of_mem _ hj, hv⟩
        rw [key]
        split_ifs
        · exact ih _ _
        · exact ih _ _
      · rw [if_neg hlt]
        exact ⟨fun _ => ⟨i, List.mem_cons_self, hb, not_lt.mp hlt⟩, fun _ => rfl⟩
    · rw [if_neg hb, ih]
      constructor
      · rintro ⟨j, hj, hv⟩; exact ⟨j, List.mem_cons_of_mem _ hj, hv⟩
      · rintro ⟨j, hj, hv⟩
        rcases List.mem_cons.mp hj with rfl | hj
        · exact absurd hv.1 hb
        · exact ⟨j, hj, hv⟩

theorem complementLoop_best (l : List Nat) : ∀ e a r,
    complementLoop (wheel input) (temps input) start stop cold range target l e a = some r →
      (r = a ∧ ∀ i ∈ l, Visited start stop i → e ≤ errorOf input start cold range target i) ∨
      ∃ l1 i l2, l = l1 ++ i :: l2 ∧ Visited start stop i ∧ r = candidate input start i ∧
        errorOf input start cold range target i < e ∧
        (∀ j ∈ l1, Visited start stop j →
          errorOf input start cold range target i < errorOf input start cold range target j) ∧
        (∀ j ∈ l2, Visited start stop j →
          errorOf input start cold range target i ≤ errorOf input start cold range target j) := by
  induction l with
  | nil =>
    intro e a r h
    exact Or.inl ⟨(Option.some.inj h).symm, fun i hi => absurd hi List.not_mem_nil⟩
  | cons i rest ih =>
    intro e a r h
    rw [complementLoop_cons] at h
    by_cases hb : isBetween (angleOf start i) start stop = true
    · rw [if_pos hb] at h
      by_cases hlt : angleOf start i < 359.5
      · rw [if_pos hlt] at h
        by_cases he : errorOf input start cold range target i < e
        · rw [if_pos he] at h
          rcases ih _ _ _ h with ⟨h1, h2⟩ | ⟨l1, k, l2, h1, h2, h3, h4, h5, h6⟩
          · exact Or.inr ⟨[], i, rest, rfl, hb, h1, he, fun j hj => absurd hj List.not_mem_nil, h2⟩
          · refine Or.inr ⟨i :: l1, k, l2, by rw [h1]; rfl, h2, h3, h4.trans he, ?_, h6⟩
            intro j hj hv
            rcases List.mem_cons.mp hj with rfl | hj
            · exact h4
            · exact h5 j hj hv
        · rw [if_neg he] at h
          rcases ih _ _ _ h with ⟨h1, h2⟩ | ⟨l1, k, l2, h1, h2, h3, h4, h5, h6⟩
          · refine Or.inl ⟨h1, fun j hj hv => ?_⟩
            rcases List.mem_cons.mp hj with rfl | hj
            · exact not_lt.mp he
            · exact h2 j hj hv
          · refine Or.inr ⟨i :: l1, k, l2, by rw [h1]; rfl, h2, h3, h4, ?_, h6⟩
            intro j hj hv
            rcases List.mem_cons.mp hj with rfl | hj
            · exact lt_of_lt_of_le h4 (not_lt.mp he)
            · exact h5 j hj hv
      · rw [if_neg hlt] at h; cases h
    · rw [if_neg hb] at h
      rcases ih _ _ _ h with ⟨h1, h2⟩ | ⟨l1, k, l2, h1, h2, h3, h4, h5, h6⟩
      · refine Or.inl ⟨h1, fun j hj hv => ?_⟩
        rcases List.mem_cons.mp hj with rfl | hj
        · exact absurd hv hb
        · exact h2 j hj hv
      · refine Or.inr ⟨i :: l1, k, l2, by rw [h1]; rfl, h2, h3, h4, ?_, h6⟩
        intro j hj hv
        rcases List.mem_cons.mp hj with rfl | hj
        · exact absurd hv hb
        · exact h5 j hj hv

end loop

end Mcu.TemperatureCache
