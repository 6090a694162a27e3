import Verif.Props.DynamicCache
import Verif.Props.Binary64Roles

/-! Properties C36, C60 and C62 for any number type and in IEEE-754 binary64. -/

namespace Mcu.Props

open DynamicColor ColorUtils MathUtils

section
variable {F : Type} [Fl F]

theorem keyLoop_from (hue chroma : F) (ds : List Nat) : ∀ (small : F) (best : Hct F) (P : Hct F → Prop), P best →
    (∀ d ∈ ds, P (Hct.fromHct hue chroma (50.0 + Fl.ofInt (d : Int))) ∧ P (Hct.fromHct hue chroma (50.0 - Fl.ofInt (d : Int)))) →
    P (TonalPalette.keyLoop hue chroma ds small best) := by
  induction ds with
  | nil => intro _ _ _ h _; exact h
  | cons d rest ih =>
    intro small best P h hd
    unfold TonalPalette.keyLoop
    simp only
    split
    · exact h
    · refine ih _ _ P ?_ (fun e he => hd e (by simp [he]))
      have h1 := (hd d (by simp)).1
      have h2 := (hd d (by simp)).2
      split_ifs
      exacts [h2, h1, h2, h]

/-- C36: for any number type, the key colour of a palette is the colour of its hue and chroma at tone 50 or at a tone
a whole number of steps, at most 49, above or below 50. -/
theorem c36_any_tone (hue chroma : F) : (TonalPalette.of hue chroma).keyColor = Hct.fromHct hue chroma 50.0 ∨
    ∃ d : Nat, 1 ≤ d ∧ d ≤ 49 ∧ ((TonalPalette.of hue chroma).keyColor = Hct.fromHct hue chroma (50.0 + Fl.ofInt (d : Int)) ∨
      (TonalPalette.of hue chroma).keyColor = Hct.fromHct hue chroma (50.0 - Fl.ofInt (d : Int))) := by
  refine keyLoop_from hue chroma _ _ _ (fun k => k = Hct.fromHct hue chroma 50.0 ∨
    ∃ d : Nat, 1 ≤ d ∧ d ≤ 49 ∧ (k = Hct.fromHct hue chroma (50.0 + Fl.ofInt (d : Int)) ∨
      k = Hct.fromHct hue chroma (50.0 - Fl.ofInt (d : Int)))) (Or.inl rfl) ?_
  intro d hd
  obtain ⟨e, he, rfl⟩ := List.mem_map.1 hd
  have := List.mem_range.1 he
  exact ⟨Or.inr ⟨e + 1, by omega, by omega, Or.inl rfl⟩, Or.inr ⟨e + 1, by omega, by omega, Or.inr rfl⟩⟩

/-- C60: for any number type and any lookup, a query for which the computation without cache succeeds never panics. -/
theorem c60_answers_any {ι : Type} (env : ι → DynamicColor ι F) (fuel : Nat) (r : ι)
    (hit : HctCache F → DynamicScheme F → Option (Hct F)) (cache : HctCache F) (s : DynamicScheme F)
    (h : (freshHct env fuel r s).isSome) : (getHct env fuel r hit cache s).isSome := by
  unfold getHct
  split
  · rfl
  · obtain ⟨x, hx⟩ := Option.isSome_iff_exists.1 h
    rw [hx]; rfl

theorem make_records_any {v : Variant} {argb : Int} {d : Bool} {c : F} {s : DynamicScheme F} (h : make v argb d c = some s) :
    s.sourceColorArgb = argb ∧ s.variant = v ∧ s.isDark = d ∧ s.contrastLevel = c := by
  cases v
  · cases h; exact ⟨rfl, rfl, rfl, rfl⟩
  · cases h; exact ⟨rfl, rfl, rfl, rfl⟩
  · cases h; exact ⟨rfl, rfl, rfl, rfl⟩
  · simp only [make, Schemes.vibrant, Option.bind_eq_bind, Option.bind_eq_some_iff] at h
    obtain ⟨_, _, _, _, h⟩ := h
    cases h; exact ⟨rfl, rfl, rfl, rfl⟩
  · simp only [make, Schemes.expressive, Option.bind_eq_bind, Option.bind_eq_some_iff] at h
    obtain ⟨_, _, _, _, h⟩ := h
    cases h; exact ⟨rfl, rfl, rfl, rfl⟩
  · simp only [make, Schemes.content, Option.bind_eq_bind, Option.bind_eq_some_iff] at h
    obtain ⟨_, _, _, _, h⟩ := h
    cases h; exact ⟨rfl, rfl, rfl, rfl⟩
  · simp only [make, Schemes.fidelity, Option.bind_eq_bind, Option.bind_eq_some_iff] at h
    obtain ⟨_, _, h⟩ := h
    cases h; exact ⟨rfl, rfl, rfl, rfl⟩
  · cases h; exact ⟨rfl, rfl, rfl, rfl⟩
  · cases h; exact ⟨rfl, rfl, rfl, rfl⟩

end

namespace Binary64

open Mcu.Ieee Lemmas

variable {L : Libm}

local notation "𝔻" => F64 L

/-! ## C60 -/

/-- Doubles that compare equal are the same, unless one of them is negative zero. -/
theorem eq_of_beq {x y : 𝔻} (h : (x == y) = true) (hx : x ≠ (Dbl.zero true : 𝔻)) (hy : y ≠ (Dbl.zero true : 𝔻)) : x = y := by
  have h : Dbl.beq x y = true := h
  obtain ⟨h1, h2, h3⟩ := of_decide_eq_true h
  have ext_num (v : ℝ) (hv) : (Dbl.num v hv).ext = (v : EReal) := rfl
  have ext_zero (b : Bool) : (Dbl.zero b).ext = ((0 : ℝ) : EReal) := rfl
  cases x with
  | nan => cases h1
  | inf a =>
    cases y with
    | nan => cases h2
    | inf b => cases a <;> cases b <;> first | rfl | (simp [Dbl.ext] at h3)
    | zero b => rw [ext_zero] at h3; cases a <;> simp [Dbl.ext] at h3
    | num v hv => rw [ext_num] at h3; cases a <;> simp [Dbl.ext] at h3
  | zero a =>
    cases y with
    | nan => cases h2
    | inf b => rw [ext_zero] at h3; cases b <;> simp [Dbl.ext] at h3
    | zero b =>
      cases a <;> cases b <;> first | rfl | exact absurd rfl hx | exact absurd rfl hy
    | num v hv =>
      rw [ext_num, ext_zero] at h3
      exact absurd (EReal.coe_eq_coe_iff.1 h3).symm hv.2.1
  | num u hu =>
    cases y with
    | nan => cases h2
    | inf b => rw [ext_num] at h3; cases b <;> simp [Dbl.ext] at h3
    | zero b =>
      rw [ext_num, ext_zero] at h3
      exact absurd (EReal.coe_eq_coe_iff.1 h3) hu.2.1
    | num v hv =>
      rw [ext_num, ext_num] at h3
      have := EReal.coe_eq_coe_iff.1 h3
      subst this; rfl

/-- The schemes that the library makes for a contrast level other than negative zero. -/
def MadePositive (s : DynamicScheme 𝔻) : Prop := Made s ∧ s.contrastLevel ≠ (Dbl.zero true : 𝔻)

theorem made_eq64 (s t : DynamicScheme 𝔻) (hs : MadePositive s) (ht : MadePositive t) (h : s.eq t = true) : s = t := by
  obtain ⟨⟨v, argb, d, c, hs⟩, ns⟩ := hs
  obtain ⟨⟨v', argb', d', c', ht⟩, nt⟩ := ht
  obtain ⟨a1, a2, a3, a4⟩ := make_records_any hs
  obtain ⟨b1, b2, b3, b4⟩ := make_records_any ht
  simp only [DynamicScheme.eq, Bool.and_eq_true, decide_eq_true_iff] at h
  obtain ⟨⟨⟨⟨⟨⟨⟨⟨⟨⟨h1, _⟩, h2⟩, h3⟩, h4⟩, _⟩, _⟩, _⟩, _⟩, _⟩, _⟩ := h
  have h4 := eq_of_beq h4 ns nt
  rw [beq_iff_eq] at h1 h3
  rw [← a1, ← a2, ← a3, ← a4, h1, h2, h3, h4, b1, b2, b3, b4, ht] at hs
  exact (Option.some.inj hs).symm

/-- C60: in binary64, asked about schemes made by the library's constructors with contrast levels other than negative
zero (also infinite ones and NaN), in any order and any number of times, every dynamic colour answers what it would
answer without a cache. -/
theorem c60_binary64_transparent {ι : Type} (env : ι → DynamicColor ι 𝔻) (fuel : Nat) (r : ι)
    (hit : HctCache 𝔻 → DynamicScheme 𝔻 → Option (Hct 𝔻)) (hv : ValidHit hit)
    (queries : List (DynamicScheme 𝔻)) (hq : ∀ s ∈ queries, Made s ∧ s.contrastLevel ≠ (Dbl.zero true : 𝔻))
    (answers : List (Hct 𝔻)) (cache : HctCache 𝔻)
    (h : askAll env fuel r hit queries [] = some (answers, cache)) :
    answers.map some = queries.map (freshHct env fuel r) :=
  askAll_fresh env fuel r hit hv MadePositive made_eq64 queries [] _ hq (fun _ _ h => by cases h) h

/-- Schemes at contrast level NaN are met. -/
example : MadePositive (L := L) (Schemes.tonalSpot (Hct.fromInt 0xFF4285F4) true Dbl.nan) := by
  refine ⟨⟨.tonalSpot, _, _, _, rfl⟩, ?_⟩
  intro h
  cases h

/-! ## C62 -/

theorem gray_solver64 (h t : 𝔻) : Gray (HctSolver.solveToInt h 0.0 t) := by
  refine (c24_gray h 0.0 t (Or.inl ?_)).2
  have a := is_lit (L := L) (m := 0) (e := 1) (s := true) (v := 0) (by norm_num) (by norm_num)
  have b := is_lit (L := L) (m := 1) (e := 4) (s := true) (v := 0.0001) (by norm_num) (by
    rw [abs_of_pos (by norm_num)]
    exact le_trans (by norm_num) (one_le_pow₀ (by norm_num : (1:ℝ) ≤ 2) (n := 1000)))
  refine (Is.lt_iff a b).2 ?_
  rw [rnd_zero]
  have := (rnd_ok (v := 0.0001) (by rw [abs_of_pos] <;> norm_num)).2
  have := abs_le.1 this
  unfold ρ at this
  norm_num at this ⊢
  linarith [this.1]

/-- C62: in binary64, for every seed and contrast level, the colours of the five palettes of a monochrome scheme are gray,
whether asked for by integer tone, by fractional tone or as key colour, and whatever has been read before. -/
theorem c62_binary64_palettes (src : Hct 𝔻) (dark : Bool) (contrast : 𝔻) :
    let s := Schemes.monochrome src dark contrast
    ∀ p ∈ [s.primaryPalette, s.secondaryPalette, s.tertiaryPalette, s.neutralPalette, s.neutralVariantPalette],
    ∀ ops : List PaletteOp,
      (∀ t : Int, Gray ((afterReads p ops).get t).1) ∧
      (∀ t : 𝔻, Gray ((afterReads p ops).getHct t).toInt) ∧
      Gray (afterReads p ops).keyColor.toInt := by
  intro s p hp ops
  have e : p = TonalPalette.of src.getHue 0.0 := by
    simpa [s, Schemes.monochrome, DynamicScheme.new] using hp
  subst e
  have hget (t : Int) : Gray ((afterReads (TonalPalette.of src.getHue (0.0 : 𝔻)) ops).get t).1 := by
    rw [c32_history_independent]; exact gray_solver64 _ _
  refine ⟨hget, fun t => ?_, ?_⟩
  · rw [c33_characterisation]
    have hk := c32_reads_keep_parameters (TonalPalette.of src.getHue (0.0 : 𝔻)) ops
    cases hc : (afterReads (TonalPalette.of src.getHue (0.0 : 𝔻)) ops).cache.lookup (Fl.toI64 t) with
    | none =>
      rw [hk.1, hk.2.1]; exact gray_solver64 _ _
    | some a =>
      have := hget (Fl.toI64 t)
      rw [get_fst, answer, hc] at this
      exact this
  · rw [(c32_reads_keep_parameters _ ops).2.2]
    rcases c36_any_tone src.getHue (0.0 : 𝔻) with h | ⟨d, _, _, h | h⟩ <;> rw [h] <;> exact gray_solver64 _ _

open Material in
/-- C62: in binary64, every Material role of a monochrome scheme except the error roles is gray. -/
theorem c62_binary64_roles (src : Hct 𝔻) (dark : Bool) (contrast : 𝔻) (fuel loopFuel : Nat) (r : Role)
    (hr : r ≠ .error ∧ r ≠ .onError ∧ r ≠ .errorContainer ∧ r ≠ .onErrorContainer) (argb : Int)
    (h : roleArgb fuel loopFuel (Schemes.monochrome src dark contrast) r = some argb) : Gray argb := by
  have hp : (registry loopFuel r).palette (Schemes.monochrome src dark contrast) =
      TonalPalette.of src.getHue 0.0 := by
    obtain ⟨h1, h2, h3, h4⟩ := hr
    cases r <;> first | rfl | contradiction
  simp only [roleArgb, DynamicColor.freshHct, hp] at h
  cases ht : DynamicColor.getTone (registry loopFuel) (Schemes.monochrome src dark contrast) fuel r with
  | none => rw [ht] at h; cases h
  | some t =>
    rw [ht] at h
    cases h
    exact gray_solver64 _ _

end Binary64

end Mcu.Props
