import Verif.Lemmas.TemperatureReal
import Verif.Lemmas.Numeric

/-! Colour temperature: C39 to C42, C66 and C67.  C39 holds for any arithmetic in which `-1.0 ≥ 0.0` is
false (the sentinel of a lazily filled field); the others are over the reals. -/

namespace Mcu.Props

open MathUtils ColorUtils TemperatureSpec TemperatureCache Lemmas

/-! ### C39 -/

section c39

variable {F : Type} [Fl F]

omit [Fl F] in
theorem run_map {α β : Type} {P Q : TemperatureCache F → Prop} {m : M F α} {v : Option α} (f : α → β)
    (h : Run P m v Q) : Run P (f <$> m) (v.map f) Q := by
  have : Run P (m >>= fun a => pure (f a)) (v.bind fun a => some (f a)) Q :=
    run_bind h fun a _ => run_pure Q (f a)
  cases v <;> exact this

theorem run_ask (hneg : ¬ ((-1.0 : F) ≥ 0.0)) (input : Hct F) (q : Query F) :
    ∃ v, Run (Inv input) (ask q) v (Inv input) := by
  cases q with
  | warmest => exact ⟨_, run_map _ (run_getWarmest.weaken (fun _ h => h) (fun _ h => h.inv))⟩
  | coldest => exact ⟨_, run_map _ (run_getColdest.weaken (fun _ h => h) (fun _ h => h.inv))⟩
  | complement => exact ⟨_, run_map _ (run_getComplement hneg)⟩
  | analogous c d => exact ⟨_, run_map _ (run_analogous c d)⟩
  | relativeTemperature h => exact ⟨_, run_map _ (run_relative' h)⟩
  | inputRelativeTemperature => exact ⟨_, run_map _ (run_getInputRelativeTemperature hneg).1⟩
  | hctsByTemp => exact ⟨_, run_map _ (run_getHctsByTemp.weaken (fun _ h => h) (fun _ h => h.inv))⟩
  | tempsByHct => exact ⟨_, run_map _ (run_getTempsByHct.weaken (fun _ h => h) (fun _ h => h.inv))⟩
  | hctsByHue => exact ⟨_, run_map _ ((run_getHctsByHue Kept.inv).weaken (fun _ h => h) (fun _ h => h.1))⟩

theorem fresh_value {α : Type} {input : Hct F} {m : M F α} {v : Option α} {Q : TemperatureCache F → Prop}
    (h : Run (Inv input) m v Q) : onFresh input m = v := (h (new input) (inv_new input)).1

/-- C39: after any sequence of queries, every query answers (or panics) as it would on a newly made
cache. -/
theorem c39_history (hneg : ¬ ((-1.0 : F) ≥ 0.0)) (input : Hct F) (qs : List (Query F))
    (cache : TemperatureCache F) (h : after qs (new input) = some cache) (q : Query F) :
    (ask q cache).map Prod.fst = onFresh input (ask q) := by
  have key : ∀ (qs : List (Query F)) (c : TemperatureCache F), Inv input c →
      ∀ c', after qs c = some c' → Inv input c' := by
    intro qs
    induction qs with
    | nil => intro c hc c' h; rw [← Option.some.inj h]; exact hc
    | cons q rest ih =>
      intro c hc c' h
      unfold after at h
      obtain ⟨v, hv⟩ := run_ask hneg input q
      cases hq : ask q c with
      | none => rw [hq] at h; cases h
      | some r =>
        rw [hq] at h
        exact ih r.2 ((hv c hc).2 r.1 r.2 hq) c' h
  obtain ⟨v, hv⟩ := run_ask hneg input q
  rw [fresh_value hv]
  exact (hv cache (key qs _ (inv_new input) _ h)).1

/-- C39: the answers of a whole sequence of queries put to one cache are those of the same queries each
put to its own new cache. -/
theorem c39_sequence (hneg : ¬ ((-1.0 : F) ≥ 0.0)) (input : Hct F) (qs : List (Query F)) :
    onFresh input (qs.mapM ask) = qs.mapM fun q => onFresh input (ask q) := by
  have key : ∀ qs : List (Query F),
      Run (Inv input) (qs.mapM ask) (qs.mapM fun q => onFresh input (ask q)) (Inv input) := by
    intro qs
    induction qs with
    | nil => exact run_pure _ _
    | cons q rest ih =>
      rw [List.mapM_cons, List.mapM_cons]
      obtain ⟨v, hv⟩ := run_ask hneg input q
      rw [fresh_value hv]
      exact run_bind hv fun a _ => run_bind ih fun l _ => run_pure _ _
  exact fresh_value (key qs)

/-- The condition of C39 on the arithmetic holds for the reals. -/
example : ¬ ((-1.0 : ℝ) ≥ 0.0) := by norm_num

end c39

/-! ### C40 -/

/-- C40: the raw temperature of a colour is the documented formula. -/
theorem c40_formula (h : Hct ℝ) : rawTemperature h = temperature h.toInt := rawTemperature_eq _

/-- C40: the coldest colour is one of those considered, and none of them is colder; the warmest
likewise. -/
theorem c40_extremes (input : Hct ℝ) :
    ∃ c w, onFresh input getColdest = some c ∧ onFresh input getWarmest = some w ∧
      Considered input c ∧ Considered input w ∧
      ∀ h, Considered input h → temperature c.toInt ≤ temperature h.toInt ∧
        temperature h.toInt ≤ temperature w.toInt := by
  obtain ⟨c, hc, hcm, hcl⟩ := coldest_spec input
  obtain ⟨w, hw, hwm, hwl⟩ := warmest_spec input
  refine ⟨c, w, (fresh_value run_getColdest).trans hc, (fresh_value run_getWarmest).trans hw,
    (considered_iff _ _).mpr hcm, (considered_iff _ _).mpr hwm, fun h hh => ?_⟩
  rw [considered_iff] at hh
  simp only [← rawTemperature_eq]
  exact ⟨hcl h hh, hwl h hh⟩

/-- C40: the colours in order of temperature are the colours considered, coldest first. -/
theorem c40_sorted (input : Hct ℝ) : ∃ l, onFresh input getHctsByTemp = some l ∧ l.length = 361 ∧
    (∀ h, h ∈ l ↔ Considered input h) ∧
    l.Pairwise fun a b => temperature a.toInt ≤ temperature b.toInt := by
  refine ⟨byTemp input, fresh_value run_getHctsByTemp, ?_, fun h => ?_, ?_⟩
  · rw [(byTemp_perm input).length_eq, List.length_append, wheel_length, List.length_singleton]
  · rw [(byTemp_perm input).mem_iff, considered_iff]
  · have := byTemp_sorted input
    simpa only [c40_formula] using this

/-- C40: the relative temperature of a colour with the ARGB value of one of those considered: linear
between the coldest (0) and the warmest (1), and 1/2 if they are equally warm.  Any other colour
panics. -/
theorem c40_relative (input h : Hct ℝ) : ∃ c w, onFresh input getColdest = some c ∧ onFresh input getWarmest = some w ∧
    ((∃ k, Considered input k ∧ k.toInt = h.toInt) → onFresh input (relativeTemperature h) = some (
      if temperature w.toInt = temperature c.toInt then 1/2
      else (temperature h.toInt - temperature c.toInt) / (temperature w.toInt - temperature c.toInt))) ∧
    (¬ (∃ k, Considered input k ∧ k.toInt = h.toInt) → onFresh input (relativeTemperature h) = none) := by
  obtain ⟨c, hc, hcm, hcl⟩ := coldest_spec input
  obtain ⟨w, hw, hwm, hwl⟩ := warmest_spec input
  have hex : (∃ k, Considered input k ∧ k.toInt = h.toInt) ↔ h.toInt ∈ (wheel input ++ [input]).map Hct.toInt := by
    rw [List.mem_map]
    simp only [considered_iff]
  refine ⟨c, w, (fresh_value run_getColdest).trans hc, (fresh_value run_getWarmest).trans hw, fun hh => ?_, fun hh => ?_⟩
  · rw [fresh_value (run_relative' h), relative_eq hc hw hcm hwm, if_pos (hex.mp hh)]
    simp only [relOf, rawTemperature, rawTemperature_eq]
  · rw [fresh_value (run_relative' h), relative_eq hc hw hcm hwm, if_neg (fun h' => hh (hex.mpr h'))]

/-- C40: relative temperatures of the colours considered exist and lie in [0, 1]. -/
theorem c40_range (input h : Hct ℝ) (hh : Considered input h) :
    ∃ x, onFresh input (relativeTemperature h) = some x ∧ 0 ≤ x ∧ x ≤ 1 := by
  obtain ⟨c, hc, hcm, hcl⟩ := coldest_spec input
  obtain ⟨w, hw, hwm, hwl⟩ := warmest_spec input
  rw [considered_iff] at hh
  refine ⟨relOf c w h.toInt, ?_, ?_⟩
  · rw [fresh_value (run_relative' h), relative_eq hc hw hcm hwm, if_pos (List.mem_map_of_mem hh)]
  · have h1 := hcl h hh
    have h2 := hwl h hh
    unfold rawTemperature at h1 h2
    unfold relOf rawTemperature
    split
    · norm_num
    · next hne =>
      have hlt : 0 < rawTemperatureOfArgb w.toInt - rawTemperatureOfArgb c.toInt (F := ℝ) := by
        rw [sub_pos]
        exact lt_of_le_of_ne (h1.trans h2) (fun e => hne e.symm)
      constructor
      · exact div_nonneg (by linarith) hlt.le
      · rw [div_le_one hlt]; linarith

/-- C40: the coldest colour has relative temperature 0 and the warmest 1, unless they are equally
warm. -/
theorem c40_ends (input c w : Hct ℝ) (hc : onFresh input getColdest = some c) (hw : onFresh input getWarmest = some w)
    (hne : temperature w.toInt ≠ temperature c.toInt) :
    onFresh input (relativeTemperature c) = some 0 ∧ onFresh input (relativeTemperature w) = some 1 := by
  obtain ⟨c', w', hc', hw', hcc, hww, _⟩ := c40_extremes input
  obtain rfl := Option.some.inj (hc.symm.trans hc')
  obtain rfl := Option.some.inj (hw.symm.trans hw')
  obtain ⟨c1, w1, e1, e2, r1, _⟩ := c40_relative input c
  obtain ⟨c2, w2, e3, e4, r2, _⟩ := c40_relative input w
  obtain rfl := Option.some.inj (hc.symm.trans e1)
  obtain rfl := Option.some.inj (hw.symm.trans e2)
  obtain rfl := Option.some.inj (hc.symm.trans e3)
  obtain rfl := Option.some.inj (hw.symm.trans e4)
  rw [r1 ⟨c, hcc, rfl⟩, r2 ⟨w, hww, rfl⟩, if_neg hne, if_neg hne, sub_self, zero_div,
    div_self (sub_ne_zero.mpr hne)]
  exact ⟨rfl, rfl⟩

/-- C40: the input's relative temperature is the relative temperature of the input. -/
theorem c40_input (input : Hct ℝ) :
    onFresh input getInputRelativeTemperature = onFresh input (relativeTemperature input) := by
  obtain ⟨c, hc, hcm, hcl⟩ := coldest_spec input
  obtain ⟨w, hw, hwm, hwl⟩ := warmest_spec input
  have hneg : ¬ ((-1.0 : ℝ) ≥ 0.0) := by norm_num
  rw [fresh_value (run_getInputRelativeTemperature hneg).1, fresh_value (run_relative' input),
    inputRelative_eq hc hw hcm hwm, relative_eq hc hw hcm hwm, if_pos (List.mem_map_of_mem (by simp))]

/-- The colour considered at hue 17 for pure red. -/
example : Considered (Hct.fromInt 0xFFFF0000) (Hct.fromHct 17 (Hct.fromInt 0xFFFF0000 : Hct ℝ).getChroma
    (Hct.fromInt 0xFFFF0000 : Hct ℝ).getTone) := Or.inr ⟨17, by norm_num, by norm_num⟩

/-! ### C41, C42 -/

/-- For any arithmetic: the analogous colours in terms of the input's rounded hue. -/
theorem analogous_any {F : Type} [Fl F] (input : Hct F) (start : Int)
    (hstart : Fl.toI64 (Fl.round input.getHue) = start) (a0 : 0 ≤ start) (count divisions : Option Int)
    (hhalf : Fl.toI64 (Fl.floor ((Fl.ofInt (count.getD 5 - 1) : F) / 2.0)) = (count.getD 5 - 1) / 2) :
    (360 ≤ start ∧ analogousOf input count divisions = none) ∨
    (start < 360 ∧ ∃ (offs : List Int) (out : List (Hct F)), analogousOf input count divisions = some out ∧
      offs.head? = some 0 ∧ offs.Pairwise (· ≤ ·) ∧ (∀ o ∈ offs, 0 ≤ o ∧ o ≤ 360) ∧
      (offs.length : Int) = max 1 (divisions.getD 12) ∧
      (out.length : Int) = max 1 (count.getD 5) ∧
      out[((count.getD 5 - 1) / 2).toNat]? = some input ∧
      ∀ k : Nat, k < out.length → k ≠ ((count.getD 5 - 1) / 2).toNat →
        out[k]? = (offs[(((k : Int) - ((count.getD 5 - 1) / 2).toNat) % offs.length).toNat]?).map
          fun o => wheelAt input (start + o)) := by
  unfold analogousOf
  simp only [hstart, at_wheel]
  by_cases hlt : start < 360
  · right
    refine ⟨hlt, ?_⟩
    rw [if_pos ⟨a0, by omega⟩]
    obtain ⟨x, hx⟩ := relative_wheelAt input start
    simp only [Option.bind_eq_bind, Option.bind_some, hx]
    obtain ⟨total, htot⟩ := totalDelta_some input start (List.range 360) x 0.0
    rw [htot]
    simp only [Option.bind_some]
    obtain ⟨offs, p1, p2, p3, p4⟩ := divisionsOf_spec input start (divisions.getD 12)
      (total / Fl.ofInt (divisions.getD 12)) 360 1 x 0.0 [wheelAt input start] (by norm_num) (by norm_num) (by norm_num)
    rw [p4]
    simp only [Option.bind_some]
    obtain ⟨out, q1, q2, q3, q4⟩ := pickOf_spec input ([wheelAt input start] ++
      offs.map fun o => wheelAt input (start + o)) (by simp) (count.getD 5) hhalf
    have hall : [wheelAt input start] ++ offs.map (fun o => wheelAt input (start + o))
        = (0 :: offs).map fun o => wheelAt input (start + o) := by simp
    rw [hall] at q1 q4 p3 ⊢
    refine ⟨0 :: offs, out, q1, rfl, ?_, ?_, ?_, q2, q3, ?_⟩
    · exact List.pairwise_cons.mpr ⟨fun o ho => by have := p2 o ho; omega, p1⟩
    · intro o ho
      rcases List.mem_cons.mp ho with rfl | ho
      · omega
      · have := p2 o ho; omega
    · rw [List.length_map] at p3
      exact p3
    · intro k hk hne
      rw [q4 k hk hne, List.length_map, List.getElem?_map]
  · left
    rw [if_neg (by omega)]
    exact ⟨by omega, rfl⟩

theorem analogous_value (input : Hct ℝ) (hhue : 0 ≤ input.getHue ∧ input.getHue < 360) (count divisions : Option Int)
    (h1 : -9223372036854775808 ≤ count.getD 5) (h2 : count.getD 5 ≤ 9223372036854775807) :
    (359.5 ≤ input.getHue ∧ analogousOf input count divisions = none) ∨
    (input.getHue < 359.5 ∧ ∃ (offs : List Int) (out : List (Hct ℝ)), analogousOf input count divisions = some out ∧
      offs.head? = some 0 ∧ offs.Pairwise (· ≤ ·) ∧ (∀ o ∈ offs, 0 ≤ o ∧ o ≤ 360) ∧
      (offs.length : Int) = max 1 (divisions.getD 12) ∧
      (out.length : Int) = max 1 (count.getD 5) ∧
      out[((count.getD 5 - 1) / 2).toNat]? = some input ∧
      ∀ k : Nat, k < out.length → k ≠ ((count.getD 5 - 1) / 2).toNat →
        out[k]? = (offs[(((k : Int) - ((count.getD 5 - 1) / 2).toNat) % offs.length).toNat]?).map
          fun o => wheelAt input (⌊input.getHue + 1/2⌋ + o)) := by
  have hstart : (Fl.toI64 (Fl.round input.getHue) : Int) = ⌊input.getHue + 1/2⌋ := by
    have : (Fl.round input.getHue : ℝ) = ((⌊input.getHue + 1/2⌋ : ℤ) : ℝ) := if_pos hhue.1
    rw [this, fl_toI64, realTrunc_intCast, satI64_of_mem]
    have a0 : 0 ≤ ⌊input.getHue + 1/2⌋ := Int.floor_nonneg.mpr (by linarith [hhue.1])
    have a1 : ⌊input.getHue + 1/2⌋ < 361 := Int.floor_lt.mpr (by push_cast; linarith [hhue.2])
    omega
  have a0 : 0 ≤ ⌊input.getHue + 1/2⌋ := Int.floor_nonneg.mpr (by linarith [hhue.1])
  have hr := round_lt_iff hhue.1
  rcases analogous_any input _ hstart a0 count divisions (half_count _ h1 h2) with ⟨h, e⟩ | ⟨h, e⟩
  · refine Or.inl ⟨?_, e⟩
    by_contra hlt
    have := hr.mpr (not_le.mp hlt)
    omega
  · exact Or.inr ⟨hr.mp (by omega), e⟩

/-- C41: with `n = count`, the analogous colours (when they can be computed: hue below 359.5) are
`max 1 n` many; the input itself is in the middle, at position `(n - 1) / 2`; every other one is a colour
of the wheel.  Going up from the input they are the colours at non-decreasing offsets from the input's
(rounded) hue, repeating cyclically after `divisions` colours, and going down from the input in reverse.
For every count and every number of divisions in the range of 64-bit integers, positive or not. -/
theorem c41_analogous (argb : Int) (hhue : (Hct.fromInt argb : Hct ℝ).getHue < 359.5) (count divisions : Option Int)
    (h1 : -9223372036854775808 ≤ count.getD 5) (h2 : count.getD 5 ≤ 9223372036854775807) :
    let input : Hct ℝ := Hct.fromInt argb
    ∃ (offs : List Int) (out : List (Hct ℝ)), onFresh input (analogous count divisions) = some out ∧
      offs.head? = some 0 ∧ offs.Pairwise (· ≤ ·) ∧ (∀ o ∈ offs, 0 ≤ o ∧ o ≤ 360) ∧
      (offs.length : Int) = max 1 (divisions.getD 12) ∧
      (out.length : Int) = max 1 (count.getD 5) ∧
      out[((count.getD 5 - 1) / 2).toNat]? = some input ∧
      ∀ k : Nat, k < out.length → k ≠ ((count.getD 5 - 1) / 2).toNat →
        out[k]? = (offs[(((k : Int) - ((count.getD 5 - 1) / 2).toNat) % offs.length).toNat]?).map
          fun o => Hct.fromHct (((⌊input.getHue + 1/2⌋ + o) % 360 : Int) : ℝ) input.getChroma input.getTone := by
  intro input
  have hr := hue_range argb
  rcases analogous_value input hr count divisions h1 h2 with ⟨h, _⟩ | ⟨_, offs, out, e, h⟩
  · exact absurd h (not_le.mpr hhue)
  · exact ⟨offs, out, (fresh_value (run_analogous count divisions)).trans e, h⟩

/-- C41: in particular every answer is one of the colours considered. -/
theorem c41_members (argb : Int) (count divisions : Option Int)
    (h1 : -9223372036854775808 ≤ count.getD 5) (h2 : count.getD 5 ≤ 9223372036854775807)
    (out : List (Hct ℝ)) (hout : onFresh (Hct.fromInt argb) (analogous count divisions) = some out) :
    (out.length : Int) = max 1 (count.getD 5) ∧ Hct.fromInt argb ∈ out ∧
      ∀ h ∈ out, Considered (Hct.fromInt argb) h := by
  have hr := hue_range argb
  rw [fresh_value (run_analogous count divisions)] at hout
  rcases analogous_value (Hct.fromInt argb) hr count divisions h1 h2 with ⟨_, h⟩ | ⟨_, offs, out', e, h⟩
  · rw [h] at hout; cases hout
  · obtain rfl := Option.some.inj (e.symm.trans hout)
    obtain ⟨_, _, _, _, hl, hi, hk⟩ := h
    refine ⟨hl, List.mem_of_getElem? hi, fun x hx => ?_⟩
    obtain ⟨k, hkl, rfl⟩ := List.mem_iff_getElem.mp hx
    by_cases hne : k = ((count.getD 5 - 1) / 2).toNat
    · left
      rw [← hne, List.getElem?_eq_getElem hkl] at hi
      exact Option.some.inj hi
    · have := hk k hkl hne
      rw [List.getElem?_eq_getElem hkl] at this
      obtain ⟨o, _, ho⟩ := Option.map_eq_some_iff.mp this.symm
      rw [considered_iff, ← ho]
      exact List.mem_append_left _ (wheelAt_mem _ _)

/-- C42 is false: analogous colours of a colour panic exactly when its hue rounds to 360. -/
theorem c42_analogous_panics_iff (argb : Int) (count divisions : Option Int)
    (h1 : -9223372036854775808 ≤ count.getD 5) (h2 : count.getD 5 ≤ 9223372036854775807) :
    onFresh (Hct.fromInt argb : Hct ℝ) (analogous count divisions) = none ↔
      359.5 ≤ (Hct.fromInt argb : Hct ℝ).getHue := by
  have hr := hue_range argb
  rw [fresh_value (run_analogous count divisions)]
  rcases analogous_value (Hct.fromInt argb) hr count divisions h1 h2 with ⟨h, e⟩ | ⟨h, offs, out', e, _⟩
  · exact ⟨fun _ => h, fun _ => e⟩
  · rw [e]
    exact ⟨fun h => (by cases h), fun h' => absurd h' (not_le.mpr h)⟩

/-! ### The arc -/

/-- C66: an angle is between `a` and `b` when, turning upwards from `a`, it is met no later than `b`;
if `a = b` every angle is. -/
theorem c66_between (x a b : ℝ) (hx : 0 ≤ x ∧ x < 360) (ha : 0 ≤ a ∧ a < 360) (hb : 0 ≤ b ∧ b < 360) :
    isBetween x a b = true ↔ a = b ∨ sanitizeDegreesDouble (x - a) ≤ sanitizeDegreesDouble (b - a) := by
  have key : ∀ y : ℝ, 0 ≤ y ∧ y < 360 → sanitizeDegreesDouble (y - a) = if a ≤ y then y - a else y - a + 360 := by
    intro y hy
    split
    · next h => exact (c06_unique (y - a) (y - a) (by linarith) (by linarith) ⟨0, by simp⟩).symm
    · next h => exact (c06_unique (y - a) (y - a + 360) (by linarith) (by linarith) ⟨1, by simp⟩).symm
  rw [key x hx, key b hb]
  unfold isBetween
  by_cases hab : a < b
  · rw [if_pos hab, Bool.and_eq_true, decide_eq_true_iff, decide_eq_true_iff, if_pos hab.le]
    constructor
    · rintro ⟨h1, h2⟩
      right; rw [if_pos h1]; linarith
    · rintro (h | h)
      · exact absurd h hab.ne
      · split_ifs at h with h1
        · exact ⟨h1, by linarith⟩
        · exfalso; linarith
  · rw [if_neg hab, Bool.or_eq_true, decide_eq_true_iff, decide_eq_true_iff]
    rcases eq_or_lt_of_le (not_lt.mp hab) with heq | hlt
    · constructor
      · exact fun _ => Or.inl heq.symm
      · intro _
        rw [heq]
        exact le_total _ _
    · rw [if_neg (not_le.mpr hlt)]
      constructor
      · rintro (h | h)
        · right; rw [if_pos h]; linarith
        · right; rw [if_neg (by linarith)]; linarith
      · rintro (h | h)
        · exact absurd h.symm hlt.ne
        · split_ifs at h with h1
          · exact Or.inl h1
          · right; linarith

example : isBetween (10 : ℝ) 350 20 = true ∧ isBetween (30 : ℝ) 350 20 = false := by
  unfold isBetween
  norm_num

/-- Where the search for the complement starts: at the end of the coldest-to-warmest arc on which the input
does not lie. -/
noncomputable def arcStart (input c w : Hct ℝ) : ℝ :=
  if isBetween input.getHue c.getHue w.getHue = true then w.getHue else c.getHue

/-- Where it ends. -/
noncomputable def arcEnd (input c w : Hct ℝ) : ℝ :=
  if isBetween input.getHue c.getHue w.getHue = true then c.getHue else w.getHue

theorem complement_value {input c w : Hct ℝ} (hhue : 0 ≤ input.getHue ∧ input.getHue < 360)
    (hc : coldest input = some c) (hw : warmest input = some w)
    (hcm : c ∈ wheel input ++ [input]) (hwm : w ∈ wheel input ++ [input]) :
    theComplement input = if input.getHue < 359.5 then
      complementLoop (wheel input) (temps input) (arcStart input c w) (arcEnd input c w) (rawTemperature c)
        (rawTemperature w - rawTemperature c) (1.0 - relOf c w input.toInt) (List.range 360) 1000.0
        (wheelAt input ⌊input.getHue + 1/2⌋)
    else none := by
  unfold theComplement
  simp only [hc, hw, temp_mem hcm, temp_mem hwm, Option.bind_eq_bind, Option.bind_some,
    inputRelative_eq hc hw hcm hwm, toUsize_round hhue.1 hhue.2, wheel_get, round_lt_iff hhue.1]
  split
  · rw [Int.toNat_of_nonneg (Int.floor_nonneg.mpr (by linarith [hhue.1]))]
    simp only [Option.bind_some, arcStart, arcEnd]
  · rfl

theorem considered_hue {argb : Int} {h : Hct ℝ} (hh : Considered (Hct.fromInt argb) h) :
    0 ≤ h.getHue ∧ h.getHue < 360 := by
  rcases hh with rfl | ⟨i, _, rfl⟩
  · exact hue_range _
  · exact hue_range _

/-- C42 is false: the complement panics exactly when the input's hue rounds to 360, or one of the
angles on the searched arc, a whole number of degrees from its start, does. -/
theorem c42_complement_panics_iff (argb : Int) (c w : Hct ℝ)
    (hc : onFresh (Hct.fromInt argb) getColdest = some c) (hw : onFresh (Hct.fromInt argb) getWarmest = some w) :
    onFresh (Hct.fromInt argb : Hct ℝ) getComplement = none ↔
      359.5 ≤ (Hct.fromInt argb : Hct ℝ).getHue ∨
      ∃ i : Nat, i < 360 ∧
        isBetween (sanitizeDegreesDouble (arcStart (Hct.fromInt argb) c w + i)) (arcStart (Hct.fromInt argb) c w)
          (arcEnd (Hct.fromInt argb) c w) = true ∧
        359.5 ≤ sanitizeDegreesDouble (arcStart (Hct.fromInt argb) c w + i) := by
  have hneg : ¬ ((-1.0 : ℝ) ≥ 0.0) := by norm_num
  obtain ⟨c', hc', hcm, _⟩ := coldest_spec (Hct.fromInt argb)
  obtain ⟨w', hw', hwm, _⟩ := warmest_spec (Hct.fromInt argb)
  rw [fresh_value run_getColdest] at hc
  rw [fresh_value run_getWarmest] at hw
  obtain rfl := Option.some.inj (hc.symm.trans hc')
  obtain rfl := Option.some.inj (hw.symm.trans hw')
  have hr : 0 ≤ (Hct.fromInt argb : Hct ℝ).getHue ∧ (Hct.fromInt argb : Hct ℝ).getHue < 360 := hue_range argb
  rw [fresh_value (run_getComplement hneg), complement_value hr hc hw hcm hwm]
  split
  · next hlt =>
    rw [complementLoop_none]
    constructor
    · rintro ⟨i, hi, hv, h⟩
      exact Or.inr ⟨i, List.mem_range.mp hi, hv, h⟩
    · rintro (h | ⟨i, hi, hv, h⟩)
      · exact absurd h (not_le.mpr hlt)
      · exact ⟨i, List.mem_range.mpr hi, hv, h⟩
  · next hge => exact ⟨fun _ => Or.inl (not_lt.mp hge), fun _ => rfl⟩

/-- C42 is false: both panic for the colour #FF008B. -/
theorem c42_violated : onFresh (Hct.fromInt 0xFFFF008B : Hct ℝ) (analogous none none) = none ∧
    onFresh (Hct.fromInt 0xFFFF008B : Hct ℝ) getComplement = none := by
  have hw : 359.5 ≤ (Hct.fromInt 0xFFFF008B : Hct ℝ).getHue := witness_hue.1.le
  refine ⟨(c42_analogous_panics_iff _ _ _ (by simp) (by simp)).mpr hw, ?_⟩
  obtain ⟨c, w, hc, hw', _⟩ := c40_extremes (Hct.fromInt 0xFFFF008B)
  exact (c42_complement_panics_iff _ c w hc hw').mpr (Or.inl hw)

/-- C42, the part that holds: queries other than the complement never panic for colours of hue below 359.5,
nor do temperatures of the colours considered and the extremes for any colour.  Missing: colours of hue 359.5 and
more, where the claim is false (`c42_violated`), and the complement, which panics for some others as well
(`c42_complement_panics_iff`). -/
theorem c42_no_panic_partial (argb : Int) :
    (onFresh (Hct.fromInt argb : Hct ℝ) getColdest).isSome ∧ (onFresh (Hct.fromInt argb : Hct ℝ) getWarmest).isSome ∧
    (onFresh (Hct.fromInt argb : Hct ℝ) getInputRelativeTemperature).isSome ∧
    (∀ h, Considered (Hct.fromInt argb) h → (onFresh (Hct.fromInt argb) (relativeTemperature h)).isSome) ∧
    ((Hct.fromInt argb : Hct ℝ).getHue < 359.5 → ∀ count divisions : Option Int,
      -9223372036854775808 ≤ count.getD 5 → count.getD 5 ≤ 9223372036854775807 →
      (onFresh (Hct.fromInt argb : Hct ℝ) (analogous count divisions)).isSome) := by
  obtain ⟨c, w, hc, hw, _⟩ := c40_extremes (Hct.fromInt argb)
  refine ⟨by rw [hc]; rfl, by rw [hw]; rfl, ?_, fun h hh => ?_, fun hlt count divisions h1 h2 => ?_⟩
  · rw [c40_input]
    obtain ⟨x, hx, _⟩ := c40_range (Hct.fromInt argb) _ (Or.inl rfl)
    rw [hx]; rfl
  · obtain ⟨x, hx, _⟩ := c40_range (Hct.fromInt argb) _ hh
    rw [hx]; rfl
  · obtain ⟨_, out, h, _⟩ := c41_analogous argb hlt count divisions h1 h2
    rw [h]; rfl

/-! ### C67 -/

/-- C67: let the coldest and warmest colours differ in temperature.  The complement (when it can be
computed) is a colour of the wheel on the arc between them that does not contain the input, at a whole number
of degrees from its start (rounded), and no other such colour has a relative temperature nearer to 1 minus
the input's; of several equally near, the first is taken. -/
theorem c67_complement (argb : Int) (c w r : Hct ℝ)
    (hc : onFresh (Hct.fromInt argb) getColdest = some c) (hw : onFresh (Hct.fromInt argb) getWarmest = some w)
    (hne : temperature w.toInt ≠ temperature c.toInt)
    (hr : onFresh (Hct.fromInt argb : Hct ℝ) getComplement = some r) :
    let input : Hct ℝ := Hct.fromInt argb
    let rel (h : Hct ℝ) : ℝ := (temperature h.toInt - temperature c.toInt) / (temperature w.toInt - temperature c.toInt)
    let angle (i : Nat) : ℝ := sanitizeDegreesDouble (arcStart input c w + i)
    let color (i : Nat) : Hct ℝ :=
      Hct.fromHct ((⌊angle i + 1/2⌋ : Int) : ℝ) input.getChroma input.getTone
    let onArc (i : Nat) : Prop := i < 360 ∧ isBetween (angle i) (arcStart input c w) (arcEnd input c w) = true
    ∃ i, onArc i ∧ r = color i ∧
      (∀ j, onArc j → |(1 - rel input) - rel r| ≤ |(1 - rel input) - rel (color j)|) ∧
      (∀ j, j < i → onArc j → |(1 - rel input) - rel r| < |(1 - rel input) - rel (color j)|) := by
  intro input rel angle color onArc
  have hneg : ¬ ((-1.0 : ℝ) ≥ 0.0) := by norm_num
  obtain ⟨c', hc', hcm, hcl⟩ := coldest_spec input
  obtain ⟨w', hw', hwm, hwl⟩ := warmest_spec input
  rw [fresh_value run_getColdest] at hc
  rw [fresh_value run_getWarmest] at hw
  obtain rfl := Option.some.inj (hc.symm.trans hc')
  obtain rfl := Option.some.inj (hw.symm.trans hw')
  have hrange := hue_range argb
  have hval := fresh_value (run_getComplement (input := input) hneg)
  rw [complement_value (input := input) hrange hc hw hcm hwm] at hval
  rw [hval] at hr
  have hrel : relOf c w input.toInt = rel input := by
    unfold relOf rawTemperature
    simp only [rawTemperature_eq]
    rw [if_neg hne]
  by_cases hlt : input.getHue < 359.5
  swap
  · rw [if_neg hlt] at hr; cases hr
  rw [if_pos hlt, hrel] at hr
  have e1 : (1.0 : ℝ) = 1 := by norm_num
  rw [e1] at hr
  -- the colours looked at
  have hsmall : ∀ j, onArc j → angle j < 359.5 := by
    intro j hj
    by_contra hge
    have := (complementLoop_none input (arcStart input c w) (arcEnd input c w) (rawTemperature c)
      (rawTemperature w - rawTemperature c) (1 - rel input) (List.range 360) 1000.0
        (wheelAt input ⌊input.getHue + 1/2⌋)).mpr ⟨j, List.mem_range.mpr hj.1, hj.2, not_lt.mp hge⟩
    rw [this] at hr; cases hr
  have hcol : ∀ j, onArc j → candidate input (arcStart input c w) j = color j := by
    intro j hj
    have h0 : 0 ≤ angle j := (c06_sanitize_real _).1
    have h1 := (round_lt_iff h0).mpr (hsmall j hj)
    have h2 : 0 ≤ ⌊angle j + 1/2⌋ := Int.floor_nonneg.mpr (by linarith)
    unfold candidate wheelAt
    show Hct.fromHct ((⌊angle j + 1/2⌋ % 360 : Int) : ℝ) _ _ = _
    rw [Int.emod_eq_of_lt h2 (by omega)]
  have herr : ∀ j, onArc j → errorOf input (arcStart input c w) (rawTemperature c)
      (rawTemperature w - rawTemperature c) (1 - rel input) j = |(1 - rel input) - rel (color j)| := by
    intro j hj
    unfold errorOf
    rw [hcol j hj]
    simp only [c40_formula]
    rfl
  rcases complementLoop_best input _ _ _ _ _ _ _ _ _ hr with ⟨_, hbig⟩ | ⟨l1, i, l2, hl, hv, hri, _, hb, ha⟩
  · exfalso
    have h0 : onArc 0 := by
      refine ⟨by norm_num, ?_⟩
      have hs : 0 ≤ arcStart input c w ∧ arcStart input c w < 360 := by
        unfold arcStart
        split
        · exact considered_hue ((considered_iff _ _).mpr hwm)
        · exact considered_hue ((considered_iff _ _).mpr hcm)
      have : angle 0 = arcStart input c w := by
        show sanitizeDegreesDouble (arcStart input c w + (0 : Nat)) = _
        rw [Nat.cast_zero, add_zero, c06_fixed _ hs.1 hs.2]
      rw [this]
      unfold isBetween
      split
      · next h => simp [h.le]
      · simp
    have := hbig 0 (List.mem_range.mpr h0.1) h0.2
    rw [herr 0 h0] at this
    have hb : ∀ h, h ∈ wheel input ++ [input] → 0 ≤ rel h ∧ rel h ≤ 1 := by
      intro h hh
      have h1 := hcl h hh
      have h2 := hwl h hh
      simp only [c40_formula] at h1 h2
      have hpos : 0 < temperature w.toInt - temperature c.toInt := by
        rw [sub_pos]; exact lt_of_le_of_ne (h1.trans h2) hne.symm
      exact ⟨div_nonneg (by linarith) hpos.le, (div_le_one hpos).mpr (by linarith)⟩
    have b1 := hb input (by simp)
    have b2 := hb (color 0) (by
      rw [← hcol 0 h0]
      unfold candidate
      exact List.mem_append_left _ (wheelAt_mem _ _))
    have b3 : |(1 - rel input) - rel (color 0)| ≤ 1 := abs_le.mpr ⟨by linarith, by linarith⟩
    norm_num at this
    linarith
  · have hi : i < 360 := List.mem_range.mp (by rw [hl]; simp)
    have hoi : onArc i := ⟨hi, hv⟩
    rw [hcol i hoi] at hri
    have hpos : ∀ j, j < i → j ∈ l1 := by
      intro j hj
      have hlen : l1.length = i := by
        have := congrArg (fun l : List Nat => l[l1.length]?) hl
        simp only [List.getElem?_append_right (le_refl _), Nat.sub_self, List.getElem?_cons_zero] at this
        have hlt' : l1.length < 360 := by
          have := congrArg List.length hl
          rw [List.length_range, List.length_append, List.length_cons] at this
          omega
        rw [List.getElem?_range hlt'] at this
        exact Option.some.inj this
      have := congrArg (fun l : List Nat => l[j]?) hl
      beta_reduce at this
      rw [List.getElem?_range (by omega), List.getElem?_append_left (by omega)] at this
      exact List.mem_of_getElem? this.symm
    refine ⟨i, hoi, hri, fun j hj => ?_, fun j hji hj => ?_⟩
    · rw [hri, ← herr i hoi, ← herr j hj]
      have hjl : j ∈ l1 ++ i :: l2 := by rw [← hl]; exact List.mem_range.mpr hj.1
      rcases List.mem_append.mp hjl with h | h
      · exact (hb j h hj.2).le
      · rcases List.mem_cons.mp h with rfl | h
        · exact le_refl _
        · exact ha j h hj.2
    · rw [hri, ← herr i hoi, ← herr j hj]
      exact hb j (hpos j hji) hj.2

end Mcu.Props
