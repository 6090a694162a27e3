import Verif.Lemmas.F64Wheel
import Verif.Props.Temperature

/-! Properties C39 to C42 and C67 in IEEE-754 binary64: colour temperatures. -/

namespace Mcu.Props.Binary64

open Mcu.Ieee MathUtils ColorUtils Lemmas TemperatureSpec TemperatureCache

variable {L : Libm}

local notation "𝔻" => F64 L

/-- The colours the cache compares: the input and the colours with the input's chroma and tone at the 360 whole-degree hues. -/
def Considered64 (input h : Hct 𝔻) : Prop :=
  h = input ∨ ∃ i : Nat, i < 360 ∧ h = Hct.fromHct (Fl.ofInt i) input.getChroma input.getTone

theorem considered64_iff (input h : Hct 𝔻) : Considered64 input h ↔ h ∈ wheel input ++ [input] := by
  rw [List.mem_append, List.mem_singleton, Considered64, or_comm]
  refine or_congr_left ?_
  unfold wheel computeHctsByHue
  rw [List.mem_map]
  constructor
  · rintro ⟨i, hi, rfl⟩; exact ⟨i, List.mem_range.mpr hi, rfl⟩
  · rintro ⟨i, hi, rfl⟩; exact ⟨i, List.mem_range.mp hi, rfl⟩

/-- The assumptions on the math library hold for one that rounds correctly. -/
theorem temp_sound_rounding : ∃ L : Libm, L.Sound ∧ L.TempOk ∧
    (∀ x y : Dbl, x.Fin → L.powf x y = Dbl.ofReal false (x.val ^ y.val)) ∧
    ∀ y x : Dbl, L.atan2 y x = Dbl.ofReal false (Complex.arg ⟨x.val, y.val⟩) := by
  obtain ⟨L, hS, hp, ha⟩ := sound_rounding
  refine ⟨L, hS, ⟨fun y x _ _ _ => ⟨0, ?_⟩, fun x y hx hy x0 x1 y0 y1 => ?_⟩, hp, ha⟩
  · rw [ha]
    have h := Complex.abs_arg_le_pi ⟨x.val, y.val⟩
    generalize Complex.arg ⟨x.val, y.val⟩ = a at h
    have hπ := Real.pi_lt_d6
    obtain ⟨r1, r2⟩ := rnd_ok (v := a) (by norm_num at hπ ⊢; linarith)
    have hi := is_ofReal (L := L) false r1
    rw [show (Dbl.ofReal false a).val = rnd a from hi.2, Int.cast_zero, zero_mul, add_zero]
    exact r2
  · rw [hp x y hx]
    have p0 : 0 ≤ x.val ^ y.val := Real.rpow_nonneg x0 _
    have p1 : x.val ^ y.val ≤ 1 / 10 ^ 6 := by
      rcases x0.eq_or_lt with e | e
      · rw [← e, Real.zero_rpow (by linarith)]; norm_num
      · calc x.val ^ y.val ≤ x.val ^ (1 : ℝ) := Real.rpow_le_rpow_of_exponent_ge e (x1.trans (by norm_num)) y0
          _ = x.val := Real.rpow_one _
          _ ≤ _ := x1
    obtain ⟨r1, r2⟩ := rnd_ok (v := x.val ^ y.val) (by rw [abs_of_nonneg p0]; exact p1.trans (by norm_num))
    have hi := is_ofReal (L := L) false r1
    rw [show (Dbl.ofReal false (x.val ^ y.val)).val = rnd (x.val ^ y.val) from hi.2]
    refine ⟨rnd_nonneg p0, ?_⟩
    have r2 := abs_le.1 r2
    rw [show ρ = 1 / 10 ^ 12 from rfl] at r2
    generalize rnd (x.val ^ y.val) = r at *
    generalize x.val ^ y.val = u at *
    norm_num at *
    linarith

theorem temp_sound_exists : ∃ L : Libm, L.Sound ∧ L.TempOk := by
  obtain ⟨L, hS, hT, -⟩ := temp_sound_rounding
  exact ⟨L, hS, hT⟩

/-! ## C39 -/

/-- C39 (binary64): the condition on the arithmetic holds, so after any sequence of queries every query answers (or panics) as it
would on a newly made cache. -/
theorem sentinel64 : ¬ ((-1.0 : 𝔻) ≥ 0.0) := by
  show ¬ ((0.0 : 𝔻) ≤ -1.0)
  rw [l0.le_iff l1.neg]; norm_num

theorem c39_binary64 (input : Hct 𝔻) (qs : List (Query 𝔻)) (q : Query 𝔻) (cache : TemperatureCache 𝔻)
    (h : after qs (new input) = some cache) : (ask q cache).map Prod.fst = onFresh input (ask q) :=
  c39_history sentinel64 input qs cache h q

/-! ## C40 -/

/-- C40 (binary64): the temperature of a colour is finite and within 10⁻⁴ of the documented formula. -/
theorem c40_binary64_formula (hS : L.Sound) (hT : L.TempOk) (h : Hct 𝔻) :
    Fin (rawTemperature h) ∧ |val (rawTemperature h) - temperature h.toInt| ≤ 1 / 10 ^ 4 := by
  obtain ⟨v, iv, hv⟩ := temp_near hS hT h.toInt
  refine ⟨iv.1, ?_⟩
  rw [show val (rawTemperature h) = v from iv.2]; exact hv

/-- C40 (binary64): the table of temperatures has an entry for exactly the ARGB values of the colours considered, which is the
temperature of that colour. -/
theorem c40_binary64_table (input : Hct 𝔻) : ∃ m, onFresh input getTempsByHct = some m ∧
    (∀ h, Considered64 input h → m.lookup h.toInt = some (rawTemperature h)) ∧
    ∀ p ∈ m, ∃ h, Considered64 input h ∧ p = (h.toInt, rawTemperature h) := by
  refine ⟨temps input, fresh_value run_getTempsByHct, fun h hh => ?_, fun p hp => ?_⟩
  · have := temp_mem ((considered64_iff _ _).1 hh)
    unfold temp at this
    exact this
  · obtain ⟨h1, h2⟩ := computeTemps_table (wheel input ++ [input])
    have e := h1 p hp
    obtain ⟨h, hh, e'⟩ := List.mem_map.mp ((h2 p.1).1 ⟨p.2, hp⟩)
    refine ⟨h, (considered64_iff _ _).2 hh, ?_⟩
    rw [e', show rawTemperature h = rawTemperatureOfArgb h.toInt from rfl, e', ← e]

/-- C40 (binary64): the coldest colour is one of those considered, and none of them is colder; the warmest likewise: exactly so for the
computed temperatures. -/
theorem c40_binary64_extremes (hS : L.Sound) (input : Hct 𝔻) :
    ∃ c w, onFresh input getColdest = some c ∧ onFresh input getWarmest = some w ∧
      Considered64 input c ∧ Considered64 input w ∧
      ∀ h, Considered64 input h → val (rawTemperature c) ≤ val (rawTemperature h) ∧
        val (rawTemperature h) ≤ val (rawTemperature w) := by
  obtain ⟨c, hc, hcm, hcl⟩ := coldest64 hS input
  obtain ⟨w, hw, hwm, hwl⟩ := warmest64 hS input
  exact ⟨c, w, (fresh_value run_getColdest).trans hc, (fresh_value run_getWarmest).trans hw,
    (considered64_iff _ _).mpr hcm, (considered64_iff _ _).mpr hwm,
    fun h hh => ⟨hcl h ((considered64_iff _ _).1 hh), hwl h ((considered64_iff _ _).1 hh)⟩⟩

/-- C40 (binary64): the colours in order of temperature are the 361 colours considered, coldest first by computed temperature. -/
theorem c40_binary64_sorted (hS : L.Sound) (input : Hct 𝔻) : ∃ l, onFresh input getHctsByTemp = some l ∧ l.length = 361 ∧
    (∀ h, h ∈ l ↔ Considered64 input h) ∧
    l.Pairwise fun a b => val (rawTemperature a) ≤ val (rawTemperature b) := by
  refine ⟨byTemp input, fresh_value run_getHctsByTemp, ?_, fun h => ?_, byTemp_sorted64 hS input⟩
  · rw [(byTemp_perm input).length_eq, List.length_append, wheel_length, List.length_singleton]
  · rw [(byTemp_perm input).mem_iff, considered64_iff]

/-- C40 (binary64): by the documented formula nothing is colder than the coldest or warmer than the warmest by more than 2·10⁻⁴,
and no colour comes after a colour that is warmer by more. -/
theorem c40_binary64_order (hS : L.Sound) (hT : L.TempOk) (input : Hct 𝔻) :
    ∃ c w l, onFresh input getColdest = some c ∧ onFresh input getWarmest = some w ∧ onFresh input getHctsByTemp = some l ∧
      (∀ h, Considered64 input h → temperature c.toInt ≤ temperature h.toInt + 2 / 10 ^ 4 ∧
        temperature h.toInt ≤ temperature w.toInt + 2 / 10 ^ 4) ∧
      l.Pairwise fun a b => temperature a.toInt ≤ temperature b.toInt + 2 / 10 ^ 4 := by
  have key {a b : Hct 𝔻} (h : val (rawTemperature a) ≤ val (rawTemperature b)) :
      temperature a.toInt ≤ temperature b.toInt + 2 / 10 ^ 4 := by
    have h1 := abs_le.1 (c40_binary64_formula hS hT a).2
    have h2 := abs_le.1 (c40_binary64_formula hS hT b).2
    linarith
  obtain ⟨c, w, hc, hw, -, -, hcw⟩ := c40_binary64_extremes hS input
  obtain ⟨l, hl, -, -, hs⟩ := c40_binary64_sorted hS input
  exact ⟨c, w, l, hc, hw, hl, fun h hh => ⟨key (hcw h hh).1, key (hcw h hh).2⟩, hs.imp key⟩

/-- C40 (binary64): the relative temperature of a colour considered is finite and between 0 and 1: 1/2 if the extremes have the same
temperature, and otherwise within 2·10⁻¹² of where the temperature lies between those of the extremes. -/
theorem c40_binary64_relative (hS : L.Sound) (input c w h : Hct 𝔻) (hc : onFresh input getColdest = some c)
    (hw : onFresh input getWarmest = some w) (hh : Considered64 input h) :
    ∃ x, onFresh input (relativeTemperature h) = some x ∧ Fin x ∧ 0 ≤ val x ∧ val x ≤ 1 ∧
      let T (h : Hct 𝔻) : ℝ := val (rawTemperature h)
      if T w = T c then val x = 1 / 2 else |val x - (T h - T c) / (T w - T c)| ≤ 2 / 10 ^ 12 := by
  obtain ⟨c', hc', hcm, hcl⟩ := coldest64 hS input
  obtain ⟨w', hw', hwm, hwl⟩ := warmest64 hS input
  rw [fresh_value run_getColdest] at hc
  rw [fresh_value run_getWarmest] at hw
  obtain rfl := Option.some.inj (hc.symm.trans hc')
  obtain rfl := Option.some.inj (hw.symm.trans hw')
  rw [considered64_iff] at hh
  have ir := is_rel64 hS c w h (hcl h hh) (hwl h hh)
  obtain ⟨r0, r1⟩ := rel64_range c w h (hcl h hh) (hwl h hh)
  refine ⟨_, (fresh_value (run_relative' h)).trans (relative_any hc hw hcm hwm hh), ir.1, ?_⟩
  rw [show val _ = _ from ir.2]
  refine ⟨r0, r1, ?_⟩
  show if tv w = tv c then _ else _
  split
  · next e => unfold rel64; rw [if_pos e]
  · next e => exact rel64_near hS c w h (hcl h hh) (hwl h hh) e

/-- C40 (binary64): the coldest colour has relative temperature 0 and the warmest 1, unless they are equally warm; and of two
colours considered the one that is not colder has no smaller relative temperature. -/
theorem c40_binary64_ends (hS : L.Sound) (input c w : Hct 𝔻) (hc : onFresh input getColdest = some c)
    (hw : onFresh input getWarmest = some w) :
    (val (rawTemperature w) ≠ val (rawTemperature c) → ∃ x y, onFresh input (relativeTemperature c) = some x ∧
      onFresh input (relativeTemperature w) = some y ∧ val x = 0 ∧ val y = 1) ∧
    ∀ a b, Considered64 input a → Considered64 input b → val (rawTemperature a) ≤ val (rawTemperature b) →
      ∃ x y, onFresh input (relativeTemperature a) = some x ∧ onFresh input (relativeTemperature b) = some y ∧ val x ≤ val y := by
  obtain ⟨c', hc', hcm, hcl⟩ := coldest64 hS input
  obtain ⟨w', hw', hwm, hwl⟩ := warmest64 hS input
  rw [fresh_value run_getColdest] at hc
  rw [fresh_value run_getWarmest] at hw
  obtain rfl := Option.some.inj (hc.symm.trans hc')
  obtain rfl := Option.some.inj (hw.symm.trans hw')
  have key (h : Hct 𝔻) (hh : h ∈ wheel input ++ [input]) : ∃ x, onFresh input (relativeTemperature h) = some x ∧ val x = rel64 c w h :=
    ⟨_, (fresh_value (run_relative' h)).trans (relative_any hc hw hcm hwm hh), (is_rel64 hS c w h (hcl h hh) (hwl h hh)).2⟩
  constructor
  · intro hne
    change tv w ≠ tv c at hne
    obtain ⟨x, hx, ex⟩ := key c hcm
    obtain ⟨y, hy, ey⟩ := key w hwm
    refine ⟨x, y, hx, hy, ?_, ?_⟩
    · rw [ex]; unfold rel64
      rw [if_neg hne, sub_self, rnd_zero, zero_div, rnd_zero]
    · have hpos := rnd_sub_pos (is_tv hS c).1.rep (is_tv hS w).1.rep (lt_of_le_of_ne (hcl w hwm) (Ne.symm hne))
      rw [ey]; unfold rel64
      rw [if_neg hne, div_self hpos.ne', rep1.rnd_eq]
  · intro a b ha hb hab
    obtain ⟨x, hx, ex⟩ := key a ((considered64_iff _ _).1 ha)
    obtain ⟨y, hy, ey⟩ := key b ((considered64_iff _ _).1 hb)
    refine ⟨x, y, hx, hy, ?_⟩
    rw [ex, ey]
    exact rel64_mono c w a b (hcl w hwm) hab

/-- C40 (binary64): the input's relative temperature is the relative temperature of the input. -/
theorem c40_binary64_input (hS : L.Sound) (input : Hct 𝔻) :
    onFresh input getInputRelativeTemperature = onFresh input (relativeTemperature input) := by
  obtain ⟨c, hc, hcm, -⟩ := coldest64 hS input
  obtain ⟨w, hw, hwm, -⟩ := warmest64 hS input
  rw [fresh_value (run_getInputRelativeTemperature sentinel64).1, fresh_value (run_relative' input),
    inputRelative_any hc hw hcm hwm, relative_any hc hw hcm hwm (by simp)]

/-- The colour considered at hue 17 for pure red. -/
example : Considered64 (Hct.fromInt 0xFFFF0000) (Hct.fromHct (Fl.ofInt 17) (Hct.fromInt 0xFFFF0000 : Hct 𝔻).getChroma
    (Hct.fromInt 0xFFFF0000 : Hct 𝔻).getTone) := Or.inr ⟨17, by norm_num, rfl⟩

/-! ## C41, C42 -/

theorem place_lt_iff {v : ℝ} : ⌊v + 1 / 2⌋ < 360 ↔ v < 359.5 := by
  rw [Int.floor_lt]; push_cast; norm_num
  constructor <;> intro h <;> linarith

theorem analogous64 (hS : L.Sound) (argb : Int) (count divisions : Option Int) (hn : |count.getD 5 - 1| < 2 ^ 53) :
    let input : Hct 𝔻 := Hct.fromInt argb
    (359.5 ≤ val input.getHue ∧ onFresh input (analogous count divisions) = none) ∨
    (val input.getHue < 359.5 ∧ ∃ (offs : List Int) (out : List (Hct 𝔻)), onFresh input (analogous count divisions) = some out ∧
      offs.head? = some 0 ∧ offs.Pairwise (· ≤ ·) ∧ (∀ o ∈ offs, 0 ≤ o ∧ o ≤ 360) ∧
      (offs.length : Int) = max 1 (divisions.getD 12) ∧
      (out.length : Int) = max 1 (count.getD 5) ∧
      out[((count.getD 5 - 1) / 2).toNat]? = some input ∧
      ∀ k : Nat, k < out.length → k ≠ ((count.getD 5 - 1) / 2).toNat →
        out[k]? = (offs[(((k : Int) - ((count.getD 5 - 1) / 2).toNat) % offs.length).toNat]?).map
          fun o => wheelAt input (⌊val input.getHue + 1 / 2⌋ + o)) := by
  intro input
  have hh := hue64 hS argb
  have a0 : 0 ≤ ⌊val input.getHue + 1 / 2⌋ := Int.floor_nonneg.mpr (by linarith [hh.2.1])
  rw [fresh_value (run_analogous count divisions)]
  rcases analogous_any input _ (place64 hh) a0 count divisions (half64 _ hn) with ⟨h, e⟩ | ⟨h, e⟩
  · exact Or.inl ⟨not_lt.1 fun h' => absurd (place_lt_iff.2 h') (not_lt.2 h), e⟩
  · exact Or.inr ⟨place_lt_iff.1 h, e⟩

/-- C41 (binary64): with `n = count`, the analogous colours (when they can be computed: hue below 359.5) are `max 1 n` many; the input
itself is in the middle, at position `(n - 1) / 2`; every other one is a colour of the wheel.  Going up from the input they are the colours
at non-decreasing offsets from the input's (rounded) hue, repeating cyclically after `divisions` colours, and going down from the input in
reverse. -/
theorem c41_binary64 (hS : L.Sound) (argb : Int) (hhue : val (Hct.fromInt argb : Hct 𝔻).getHue < 359.5) (count divisions : Option Int)
    (hn : |count.getD 5 - 1| < 2 ^ 53) :
    let input : Hct 𝔻 := Hct.fromInt argb
    ∃ (offs : List Int) (out : List (Hct 𝔻)), onFresh input (analogous count divisions) = some out ∧
      offs.head? = some 0 ∧ offs.Pairwise (· ≤ ·) ∧ (∀ o ∈ offs, 0 ≤ o ∧ o ≤ 360) ∧
      (offs.length : Int) = max 1 (divisions.getD 12) ∧
      (out.length : Int) = max 1 (count.getD 5) ∧
      out[((count.getD 5 - 1) / 2).toNat]? = some input ∧
      ∀ k : Nat, k < out.length → k ≠ ((count.getD 5 - 1) / 2).toNat →
        out[k]? = (offs[(((k : Int) - ((count.getD 5 - 1) / 2).toNat) % offs.length).toNat]?).map
          fun o => Hct.fromHct (Fl.ofInt ((⌊val input.getHue + 1 / 2⌋ + o) % 360)) input.getChroma input.getTone := by
  intro input
  rcases analogous64 hS argb count divisions hn with ⟨h, -⟩ | ⟨-, h⟩
  · exact absurd h (not_le.2 hhue)
  · exact h

/-- C41 (binary64): in particular every answer is one of the colours considered. -/
theorem c41_binary64_members (hS : L.Sound) (argb : Int) (count divisions : Option Int) (hn : |count.getD 5 - 1| < 2 ^ 53)
    (out : List (Hct 𝔻)) (hout : onFresh (Hct.fromInt argb) (analogous count divisions) = some out) :
    (out.length : Int) = max 1 (count.getD 5) ∧ Hct.fromInt argb ∈ out ∧ ∀ h ∈ out, Considered64 (Hct.fromInt argb) h := by
  rcases analogous64 hS argb count divisions hn with ⟨-, h⟩ | ⟨-, offs, out', e, -, -, -, -, hl, hi, hk⟩
  · rw [h] at hout; cases hout
  · obtain rfl := Option.some.inj (e.symm.trans hout)
    refine ⟨hl, List.mem_of_getElem? hi, fun x hx => ?_⟩
    obtain ⟨k, hkl, rfl⟩ := List.mem_iff_getElem.mp hx
    by_cases hne : k = ((count.getD 5 - 1) / 2).toNat
    · left
      rw [← hne, List.getElem?_eq_getElem hkl] at hi
      exact Option.some.inj hi
    · have := hk k hkl hne
      rw [List.getElem?_eq_getElem hkl] at this
      obtain ⟨o, _, ho⟩ := Option.map_eq_some_iff.mp this.symm
      rw [considered64_iff, ← ho]
      exact List.mem_append_left _ (wheelAt_mem _ _)

/-- C42 (binary64): analogous colours of a colour panic exactly when its hue rounds to 360. -/
theorem c42_binary64_analogous_iff (hS : L.Sound) (argb : Int) (count divisions : Option Int) (hn : |count.getD 5 - 1| < 2 ^ 53) :
    onFresh (Hct.fromInt argb : Hct 𝔻) (analogous count divisions) = none ↔ 359.5 ≤ val (Hct.fromInt argb : Hct 𝔻).getHue := by
  rcases analogous64 hS argb count divisions hn with ⟨h, e⟩ | ⟨h, offs, out', e, _⟩
  · exact ⟨fun _ => h, fun _ => e⟩
  · rw [e]
    exact ⟨fun h => (by cases h), fun h' => absurd h' (not_le.mpr h)⟩

/-- Where the search for the complement starts: at the end of the coldest-to-warmest arc on which the input does not lie. -/
noncomputable def arcStart64 (input c w : Hct 𝔻) : 𝔻 := if isBetween input.getHue c.getHue w.getHue = true then w.getHue else c.getHue

/-- Where it ends. -/
noncomputable def arcEnd64 (input c w : Hct 𝔻) : 𝔻 := if isBetween input.getHue c.getHue w.getHue = true then c.getHue else w.getHue

theorem complement64 {input c w : Hct 𝔻} {x : 𝔻} (hhue : HueIn input.getHue)
    (hc : coldest input = some c) (hw : warmest input = some w)
    (hcm : c ∈ wheel input ++ [input]) (hwm : w ∈ wheel input ++ [input]) (hx : inputRelative input = some x) :
    theComplement input = if val input.getHue < 359.5 then
      complementLoop (wheel input) (temps input) (arcStart64 input c w) (arcEnd64 input c w) (rawTemperature c)
        (rawTemperature w - rawTemperature c) (1.0 - x) (List.range 360) 1000.0
        (wheelAt input ⌊val input.getHue + 1 / 2⌋)
    else none := by
  unfold theComplement
  have hp : toUsize (Fl.round input.getHue) = (⌊val input.getHue + 1 / 2⌋).toNat := by unfold toUsize; rw [place64 hhue]
  have h0 : 0 ≤ ⌊val input.getHue + 1 / 2⌋ := Int.floor_nonneg.mpr (by linarith [hhue.2.1])
  have hlt : (⌊val input.getHue + 1 / 2⌋).toNat < 360 ↔ val input.getHue < 359.5 := by
    rw [← place_lt_iff]; omega
  simp only [hc, hw, temp_mem hcm, temp_mem hwm, Option.bind_eq_bind, Option.bind_some, hx, hp, wheel_get, hlt]
  split
  · rw [Int.toNat_of_nonneg h0]
    simp only [Option.bind_some, arcStart64, arcEnd64]
  · rfl

theorem considered_hue64 (hS : L.Sound) {argb : Int} {h : Hct 𝔻} (hh : h ∈ wheel (Hct.fromInt argb) ++ [Hct.fromInt argb]) :
    HueIn h.getHue := by
  rcases (considered64_iff _ _).2 hh with rfl | ⟨i, _, rfl⟩
  · exact hue64 hS _
  · exact hue64 hS _

theorem angle64 {S : 𝔻} (hs : HueIn S) {i : Nat} (hi : i < 360) : HueIn (angleIn S i) ∧
    ∃ k : ℤ, |val (angleIn S i) - (val S + i + 360 * k)| ≤ 2 / 10 ^ 12 := by
  have hi' : (i : ℝ) < 360 := by exact_mod_cast hi
  have i0 : (0 : ℝ) ≤ i := Nat.cast_nonneg _
  have hn := is_ofInt (L := L) (n := (i : ℤ)) (by rw [abs_le]; constructor <;> omega)
  have hm := l1.mul hn (by rw [one_mul]; exact (rnd_ok (by push_cast; rw [abs_of_nonneg i0]; linarith)).1)
  rw [one_mul, (rep_int (by rw [abs_le]; constructor <;> omega)).rnd_eq] at hm
  have := turn64 (is_of S hs.1) hm (by push_cast; rw [abs_of_nonneg (by linarith [hs.2.1])]; linarith [hs.2.2])
  push_cast at this
  exact this

theorem place_angle64 {S : 𝔻} (hs : HueIn S) {i : Nat} (hi : i < 360) :
    placeIn S i = (⌊val (angleIn S i) + 1 / 2⌋).toNat := by
  unfold placeIn toUsize
  rw [place64 (angle64 hs hi).1]

/-- C42 (binary64): the complement panics exactly when the input's hue rounds to 360, or one of the angles on the searched arc, a
whole number of degrees from its start, does. -/
theorem c42_binary64_complement_iff (hS : L.Sound) (argb : Int) (c w : Hct 𝔻)
    (hc : onFresh (Hct.fromInt argb) getColdest = some c) (hw : onFresh (Hct.fromInt argb) getWarmest = some w) :
    let input : Hct 𝔻 := Hct.fromInt argb
    let S := arcStart64 input c w
    let angle (i : Nat) : 𝔻 := sanitizeDegreesDouble (S + 1.0 * Fl.ofInt i)
    onFresh input getComplement = none ↔ 359.5 ≤ val input.getHue ∨
      ∃ i : Nat, i < 360 ∧ isBetween (angle i) S (arcEnd64 input c w) = true ∧ 359.5 ≤ val (angle i) := by
  intro input S angle
  obtain ⟨c', hc', hcm, -⟩ := coldest64 hS input
  obtain ⟨w', hw', hwm, -⟩ := warmest64 hS input
  rw [fresh_value run_getColdest] at hc
  rw [fresh_value run_getWarmest] at hw
  obtain rfl := Option.some.inj (hc.symm.trans hc')
  obtain rfl := Option.some.inj (hw.symm.trans hw')
  have hs : HueIn S := by
    show HueIn (arcStart64 input c w)
    unfold arcStart64
    split
    · exact considered_hue64 hS hwm
    · exact considered_hue64 hS hcm
  rw [fresh_value (run_getComplement sentinel64), complement64 (hue64 hS argb) hc hw hcm hwm (inputRelative_any hc hw hcm hwm)]
  have hpl (i : Nat) (hi : i < 360) : 360 ≤ placeIn S i ↔ 359.5 ≤ val (angle i) := by
    rw [place_angle64 hs hi, ← not_lt, ← not_lt, ← place_lt_iff]
    have : 0 ≤ ⌊val (angleIn S i) + 1 / 2⌋ := Int.floor_nonneg.mpr (by linarith [(angle64 hs hi).1.2.1])
    show ¬ (⌊val (angleIn S i) + 1 / 2⌋).toNat < 360 ↔ ¬ ⌊val (angleIn S i) + 1 / 2⌋ < 360
    omega
  split
  · next hlt =>
    rw [complementLoop_panics]
    constructor
    · rintro ⟨i, hi, hv, h⟩
      exact Or.inr ⟨i, List.mem_range.mp hi, hv, (hpl i (List.mem_range.mp hi)).1 h⟩
    · rintro (h | ⟨i, hi, hv, h⟩)
      · exact absurd h (not_le.mpr hlt)
      · exact ⟨i, List.mem_range.mpr hi, hv, (hpl i hi).2 h⟩
  · next hge => exact ⟨fun _ => Or.inl (not_lt.mp hge), fun _ => rfl⟩

/-- C42 (binary64), the part that holds: queries other than the complement never panic for colours of hue below 359.5, nor do temperatures
of the colours considered and the extremes for any colour.  Missing: colours of hue 359.5 and more, where analogous colours panic
(`c42_binary64_analogous_iff`), and the complement, which panics for some others as well (`c42_binary64_complement_iff`). -/
theorem c42_binary64_partial (hS : L.Sound) (argb : Int) :
    (onFresh (Hct.fromInt argb : Hct 𝔻) getColdest).isSome ∧ (onFresh (Hct.fromInt argb : Hct 𝔻) getWarmest).isSome ∧
    (onFresh (Hct.fromInt argb : Hct 𝔻) getInputRelativeTemperature).isSome ∧
    (∀ h, Considered64 (Hct.fromInt argb) h → (onFresh (Hct.fromInt argb : Hct 𝔻) (relativeTemperature h)).isSome) ∧
    (val (Hct.fromInt argb : Hct 𝔻).getHue < 359.5 → ∀ count divisions : Option Int, |count.getD 5 - 1| < 2 ^ 53 →
      (onFresh (Hct.fromInt argb : Hct 𝔻) (analogous count divisions)).isSome) := by
  obtain ⟨c, w, hc, hw, -⟩ := c40_binary64_extremes hS (Hct.fromInt argb)
  refine ⟨by rw [hc]; rfl, by rw [hw]; rfl, ?_, fun h hh => ?_, fun hlt count divisions hn => ?_⟩
  · rw [c40_binary64_input hS]
    obtain ⟨x, hx, -⟩ := c40_binary64_relative hS _ c w _ hc hw (Or.inl rfl)
    rw [hx]; rfl
  · obtain ⟨x, hx, -⟩ := c40_binary64_relative hS _ c w _ hc hw hh
    rw [hx]; rfl
  · obtain ⟨_, out, h, _⟩ := c41_binary64 hS argb hlt count divisions hn
    rw [h]; rfl

/-! ## C67 -/

/-- The start of the arc is on the arc. -/
theorem visited_zero {S E : 𝔻} (hs : HueIn S) (hE : HueIn E) : VisitedIn S E 0 := by
  have hn := is_ofInt (L := L) (n := ((0 : Nat) : ℤ)) (by norm_num)
  have hm := l1.mul hn (by rw [one_mul]; exact (rnd_ok (by norm_num)).1)
  have ha := (is_of S hs.1).add hm (by
    simp only [Nat.cast_zero, Int.cast_zero, mul_zero, rnd_zero, add_zero]
    rw [(is_of S hs.1).rep.rnd_eq]; exact (is_of S hs.1).lt_max)
  simp only [Nat.cast_zero, Int.cast_zero, mul_zero, rnd_zero, add_zero, (is_of S hs.1).rep.rnd_eq] at ha
  have ev : val (S + 1.0 * Fl.ofInt ((0 : Nat) : ℤ)) = val S := ha.2
  obtain ⟨f, h0, -, -, h3⟩ := c06_binary64_partial (S + 1.0 * Fl.ofInt ((0 : Nat) : ℤ)) ha.1
  rw [ev] at h3
  obtain ⟨h4, k, hk⟩ := h3 hs.2.1
  have ia : Is (angleIn S 0) (val (angleIn S 0)) := is_of _ f
  change 0 ≤ val (angleIn S 0) at h0
  change val (angleIn S 0) < 360 at h4
  change val (angleIn S 0) = _ at hk
  unfold VisitedIn isBetween
  simp only [(is_of S hs.1).lt_iff (is_of E hE.1), (is_of S hs.1).le_iff ia, ia.le_iff (is_of E hE.1)]
  rcases hs.2.2.eq_or_lt with e | e
  · have hk1 : ((-2 : ℤ) : ℝ) < k := by push_cast; linarith
    have hk2 : (k : ℝ) < ((0 : ℤ) : ℝ) := by push_cast; linarith
    have hk1 : -2 < k := by exact_mod_cast hk1
    have hk2 : k < 0 := by exact_mod_cast hk2
    obtain rfl : k = -1 := by omega
    have : val (angleIn S 0) = 0 := by rw [hk, e]; norm_num
    rw [this, if_neg (by linarith [hE.2.2]), Bool.or_eq_true, decide_eq_true_iff, decide_eq_true_iff]
    exact Or.inr hE.2.1
  · have hk1 : ((-1 : ℤ) : ℝ) < k := by push_cast; linarith
    have hk2 : (k : ℝ) < ((1 : ℤ) : ℝ) := by push_cast; linarith [hs.2.1]
    have hk1 : -1 < k := by exact_mod_cast hk1
    have hk2 : k < 1 := by exact_mod_cast hk2
    obtain rfl : k = 0 := by omega
    have : val (angleIn S 0) = val S := by rw [hk]; norm_num
    rw [this]
    split
    · next h => simp [h.le]
    · simp


/-- C67 (binary64): let the coldest and warmest colours differ in temperature.  The complement (when it can be computed) is a colour
of the wheel on the arc between them that does not contain the input, at a whole number of degrees from its start (rounded), and no other
such colour has a relative temperature nearer to 1 minus the input's by more than 10⁻¹¹. -/
theorem c67_binary64 (hS : L.Sound) (argb : Int) (c w r : Hct 𝔻)
    (hc : onFresh (Hct.fromInt argb) getColdest = some c) (hw : onFresh (Hct.fromInt argb) getWarmest = some w)
    (hne : val (rawTemperature w) ≠ val (rawTemperature c))
    (hr : onFresh (Hct.fromInt argb : Hct 𝔻) getComplement = some r) :
    let input : Hct 𝔻 := Hct.fromInt argb
    let S := arcStart64 input c w
    ∃ angle : Nat → 𝔻,
      (∀ i < 360, HueIn (angle i) ∧ ∃ k : ℤ, |val (angle i) - (val S + i + 360 * k)| ≤ 2 / 10 ^ 12) ∧
      let color (i : Nat) : Hct 𝔻 := Hct.fromHct (Fl.ofInt ⌊val (angle i) + 1 / 2⌋) input.getChroma input.getTone
      let onArc (i : Nat) : Prop := i < 360 ∧ isBetween (angle i) S (arcEnd64 input c w) = true
      ∃ i x y, onArc i ∧ r = color i ∧ onFresh input getInputRelativeTemperature = some x ∧
        onFresh input (relativeTemperature r) = some y ∧
        ∀ j, onArc j → ∃ z, onFresh input (relativeTemperature (color j)) = some z ∧
          |1 - val x - val y| ≤ |1 - val x - val z| + 1 / 10 ^ 11 := by
  intro input S
  obtain ⟨c', hc', hcm, hcl⟩ := coldest64 hS input
  obtain ⟨w', hw', hwm, hwl⟩ := warmest64 hS input
  rw [fresh_value run_getColdest] at hc
  rw [fresh_value run_getWarmest] at hw
  obtain rfl := Option.some.inj (hc.symm.trans hc')
  obtain rfl := Option.some.inj (hw.symm.trans hw')
  change tv w ≠ tv c at hne
  have hs : HueIn S := by
    show HueIn (arcStart64 input c w)
    unfold arcStart64
    split
    · exact considered_hue64 hS hwm
    · exact considered_hue64 hS hcm
  have hx := inputRelative_any hc hw hcm hwm
  rw [fresh_value (run_getComplement sentinel64), complement64 (hue64 hS argb) hc hw hcm hwm hx] at hr
  have hin : input ∈ wheel input ++ [input] := by simp
  have ix := is_rel64 hS c w input (hcl _ hin) (hwl _ hin)
  have hfx := (fresh_value (run_getInputRelativeTemperature (input := input) sentinel64).1).trans hx
  generalize (if rawTemperature w - rawTemperature c == (0.0 : 𝔻) then 0.5
      else (rawTemperature input - rawTemperature c) / (rawTemperature w - rawTemperature c)) = x at *
  obtain ⟨x0, x1⟩ := rel64_range c w input (hcl _ hin) (hwl _ hin)
  -- the temperature looked for
  obtain ⟨t1, t2⟩ := rnd_ok (v := 1 - rel64 c w input) (by rw [abs_le]; constructor <;> linarith)
  have it := l1.sub ix t1
  -- the errors
  have hmem (i : Nat) : candidateIn input S i ∈ wheel input ++ [input] := List.mem_append_left _ (wheelAt_mem _ _)
  have hq (i : Nat) : Is ((rawTemperature (candidateIn input S i) - rawTemperature c) / (rawTemperature w - rawTemperature c))
      (rel64 c w (candidateIn input S i)) := by
    have hpos : 0 < rnd (tv w - tv c) :=
      rnd_sub_pos (is_tv hS c).1.rep (is_tv hS w).1.rep (lt_of_le_of_ne (hcl w hwm) (Ne.symm hne))
    have := is_rel64 hS c w _ (hcl _ (hmem i)) (hwl _ (hmem i))
    rwa [if_neg (fun hh => hpos.ne' (((diff64 hS w c).beq_iff l0).1 hh))] at this
  have hb (i : Nat) := rel64_range c w _ (hcl _ (hmem i)) (hwl _ (hmem i))
  rw [show ρ = 1 / 10 ^ 12 from rfl] at t2
  have t2 := abs_le.1 t2
  set T := rnd (1 - rel64 c w input) with hT
  have hT1 : -1 ≤ T ∧ T ≤ 2 := by norm_num at t2; constructor <;> linarith
  have he (i : Nat) := rnd_ok (v := T - rel64 c w (candidateIn input S i)) (by
    rw [abs_le]; constructor <;> linarith [hT1.1, hT1.2, (hb i).1, (hb i).2])
  have herr (i : Nat) : Is (errorIn input S (rawTemperature c) (rawTemperature w - rawTemperature c) (1.0 - x) i)
      |rnd (T - rel64 c w (candidateIn input S i))| := (it.sub (hq i) (he i).1).abs
  refine ⟨angleIn S, fun i hi => angle64 hs hi, ?_⟩
  intro color onArc
  by_cases hlt : val input.getHue < 359.5
  swap
  · rw [if_neg hlt] at hr; cases hr
  rw [if_pos hlt] at hr
  have hsmall : ∀ j, onArc j → placeIn S j < 360 := by
    intro j hj
    by_contra hge
    have := (complementLoop_panics input S (arcEnd64 input c w) (rawTemperature c)
      (rawTemperature w - rawTemperature c) (1.0 - x) (List.range 360) 1000.0
        (wheelAt input ⌊val input.getHue + 1 / 2⌋)).mpr ⟨j, List.mem_range.mpr hj.1, hj.2, not_lt.mp hge⟩
    rw [this] at hr; cases hr
  have hcol : ∀ j, onArc j → candidateIn input S j = color j := by
    intro j hj
    have h1 := hsmall j hj
    have h0 : 0 ≤ ⌊val (angleIn S j) + 1 / 2⌋ := Int.floor_nonneg.mpr (by linarith [(angle64 hs hj.1).1.2.1])
    rw [place_angle64 hs hj.1] at h1
    unfold candidateIn wheelAt
    rw [place_angle64 hs hj.1, Int.toNat_of_nonneg h0, Int.emod_eq_of_lt h0 (by omega)]
  have l1000 : Is (1000.0 : 𝔻) 1000 := by simpa using lit (L := L) 10000 1 true 1000 (by norm_num) (by norm_num)
  have hrel (h : Hct 𝔻) (hh : h ∈ wheel input ++ [input]) : ∃ z, onFresh input (relativeTemperature h) = some z ∧ val z = rel64 c w h :=
    ⟨_, (fresh_value (run_relative' h)).trans (relative_any hc hw hcm hwm hh), (is_rel64 hS c w h (hcl h hh) (hwl h hh)).2⟩
  have near (i : Nat) : |(|rnd (T - rel64 c w (candidateIn input S i))|) -
      (|1 - rel64 c w input - rel64 c w (candidateIn input S i)|)| ≤ 4 / 10 ^ 12 := by
    refine (abs_abs_sub_abs_le _ _).trans ?_
    have h := (he i).2
    rw [show ρ = 1 / 10 ^ 12 from rfl] at h
    have h := abs_le.1 h
    generalize rnd (T - rel64 c w (candidateIn input S i)) = e at *
    generalize rel64 c w (candidateIn input S i) = u at *
    rw [abs_le]; norm_num at *; constructor <;> linarith
  rcases complementLoop_first input S _ _ _ _ (fun x a => Is x a) (fun x y a b h1 h2 => h1.lt_iff h2)
    (fun i => |rnd (T - rel64 c w (candidateIn input S i))|) herr _ _ _ _ _ l1000 hr with ⟨_, hbig⟩ | ⟨l1, i, l2, hl, hv, hri, _, hfst, hlst⟩
  · exfalso
    have h0 : VisitedIn S (arcEnd64 input c w) 0 := visited_zero hs (by
      unfold arcEnd64
      split
      · exact considered_hue64 hS hcm
      · exact considered_hue64 hS hwm)
    have := hbig 0 (List.mem_range.mpr (by norm_num)) h0
    have hn := abs_le.1 (near 0)
    have hb0 := hb 0
    generalize |rnd (T - rel64 c w (candidateIn input S 0))| = e at *
    have : |1 - rel64 c w input - rel64 c w (candidateIn input S 0)| ≤ 1 := abs_le.2 ⟨by linarith, by linarith⟩
    generalize |1 - rel64 c w input - rel64 c w (candidateIn input S 0)| = e' at *
    norm_num at *
    linarith
  · have hi : i < 360 := List.mem_range.mp (by rw [hl]; simp)
    have hoi : onArc i := ⟨hi, hv⟩
    obtain ⟨y, hy, ey⟩ := hrel _ (hmem i)
    refine ⟨i, x, y, hoi, hri.trans (hcol i hoi), hfx, by rw [hri]; exact hy, fun j hj => ?_⟩
    obtain ⟨z, hz, ez⟩ := hrel _ (hmem j)
    rw [hcol j hj] at hz
    refine ⟨z, hz, ?_⟩
    rw [show val x = _ from ix.2, ey, ez]
    have hle : |rnd (T - rel64 c w (candidateIn input S i))| ≤ |rnd (T - rel64 c w (candidateIn input S j))| := by
      have hjl : j ∈ l1 ++ i :: l2 := by rw [← hl]; exact List.mem_range.mpr hj.1
      rcases List.mem_append.mp hjl with h | h
      · exact (hfst j h hj.2).le
      · rcases List.mem_cons.mp h with rfl | h
        · exact le_refl _
        · exact hlst j h hj.2
    have n1 := abs_le.1 (near i)
    have n2 := abs_le.1 (near j)
    generalize |rnd (T - rel64 c w (candidateIn input S i))| = e1 at *
    generalize |rnd (T - rel64 c w (candidateIn input S j))| = e2 at *
    generalize |1 - rel64 c w input - rel64 c w (candidateIn input S i)| = e3 at *
    generalize |1 - rel64 c w input - rel64 c w (candidateIn input S j)| = e4 at *
    norm_num at *
    linarith

/-- Zero divided by zero is NaN, which is not less than anything. -/
theorem nan_not_less {x y t z : 𝔻} (hx : Is x 0) (hy : Is y 0) : ¬ Fl.abs (t - x / y) < z := by
  have hz : x / y = Dbl.nan := by
    have h1 : ∃ s, x = Dbl.zero s := by
      rcases x with _ | s | s | ⟨v, h⟩
      · exact hx.1.elim
      · exact hx.1.elim
      · exact ⟨s, rfl⟩
      · exact absurd hx.2 h.2.1
    have h2 : ∃ s, y = Dbl.zero s := by
      rcases y with _ | s | s | ⟨v, h⟩
      · exact hy.1.elim
      · exact hy.1.elim
      · exact ⟨s, rfl⟩
      · exact absurd hy.2 h.2.1
    obtain ⟨s, rfl⟩ := h1
    obtain ⟨s', rfl⟩ := h2
    rfl
  generalize x / y = n at *
  subst hz
  rintro ⟨h, -⟩
  rcases t with _ | s | s | ⟨v, h'⟩ <;> exact Bool.noConfusion h

/-- C67 (binary64), when all colours considered have the same temperature: the complement is the colour of the wheel at the input's
rounded hue (the code divides by the zero difference of the extremes, and no result of that is taken for a smaller error). -/
theorem c67_binary64_equal (hS : L.Sound) (argb : Int) (c w r : Hct 𝔻)
    (hc : onFresh (Hct.fromInt argb) getColdest = some c) (hw : onFresh (Hct.fromInt argb) getWarmest = some w)
    (heq : val (rawTemperature w) = val (rawTemperature c))
    (hr : onFresh (Hct.fromInt argb : Hct 𝔻) getComplement = some r) :
    let input : Hct 𝔻 := Hct.fromInt argb
    r = Hct.fromHct (Fl.ofInt ⌊val input.getHue + 1 / 2⌋) input.getChroma input.getTone := by
  intro input
  obtain ⟨c', hc', hcm, hcl⟩ := coldest64 hS input
  obtain ⟨w', hw', hwm, hwl⟩ := warmest64 hS input
  rw [fresh_value run_getColdest] at hc
  rw [fresh_value run_getWarmest] at hw
  obtain rfl := Option.some.inj (hc.symm.trans hc')
  obtain rfl := Option.some.inj (hw.symm.trans hw')
  change tv w = tv c at heq
  rw [fresh_value (run_getComplement sentinel64),
    complement64 (hue64 hS argb) hc hw hcm hwm (inputRelative_any hc hw hcm hwm)] at hr
  by_cases hlt : val input.getHue < 359.5
  swap
  · rw [if_neg hlt] at hr; cases hr
  rw [if_pos hlt] at hr
  have key : ∀ (S E t : 𝔻) (l : List Nat) (e : 𝔻) (a : Hct 𝔻),
      complementLoop (wheel input) (temps input) S E (rawTemperature c) (rawTemperature w - rawTemperature c) t l e a = some r → r = a := by
    intro S E t l
    induction l with
    | nil => intro e a h; exact (Option.some.inj h).symm
    | cons i rest ih =>
      intro e a h
      rw [complementLoop_step] at h
      have hm : candidateIn input S i ∈ wheel input ++ [input] := List.mem_append_left _ (wheelAt_mem _ _)
      have hno : ¬ errorIn input S (rawTemperature c) (rawTemperature w - rawTemperature c) t i < e := by
        have d1 := diff64 hS (candidateIn input S i) c
        have d2 := diff64 hS w c
        rw [show tv (candidateIn input S i) = tv c from le_antisymm ((hwl _ hm).trans heq.le) (hcl _ hm), sub_self, rnd_zero] at d1
        rw [heq, sub_self, rnd_zero] at d2
        exact nan_not_less d1 d2
      rw [if_neg hno] at h
      split_ifs at h
      · exact ih _ _ h
      · exact ih _ _ h
  have h0 : 0 ≤ ⌊val input.getHue + 1 / 2⌋ := Int.floor_nonneg.mpr (by linarith [(hue64 hS argb).2.1])
  have := key _ _ _ _ _ _ hr
  rw [this]
  unfold wheelAt
  rw [Int.emod_eq_of_lt h0 (place_lt_iff.2 hlt)]

/-- The assumptions on the math library hold for one that rounds correctly; the colours of C67 and C41 are ordinary. -/
example : ∃ L : Libm, L.Sound ∧ L.TempOk ∧ ∃ c w : Hct (F64 L), onFresh (Hct.fromInt 0xFF4285F4) getColdest = some c ∧
    onFresh (Hct.fromInt 0xFF4285F4) getWarmest = some w := by
  obtain ⟨L, hS, hT⟩ := temp_sound_exists
  obtain ⟨c, w, hc, hw, -⟩ := c40_binary64_extremes hS (Hct.fromInt 0xFF4285F4)
  exact ⟨L, hS, hT, c, w, hc, hw⟩

end Mcu.Props.Binary64
