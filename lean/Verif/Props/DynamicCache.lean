import Verif.Props.Schemes
import Verif.Props.Color

/-! Property C60: the cache of a dynamic colour. -/

namespace Mcu.Props

open DynamicColor ColorUtils MathUtils

section
variable {ι F : Type} [Fl F]

/-- The answers to a sequence of queries put to one dynamic colour, starting from a cache, and the cache
afterwards; `none` if one of them panics. -/
def askAll (env : ι → DynamicColor ι F) (fuel : Nat) (r : ι)
    (hit : HctCache F → DynamicScheme F → Option (Hct F)) :
    List (DynamicScheme F) → HctCache F → Option (List (Hct F) × HctCache F)
  | [], cache => some ([], cache)
  | s :: rest, cache => do
    let a ← getHct env fuel r hit cache s
    let b ← askAll env fuel r hit rest a.2
    some (a.1 :: b.1, b.2)

theorem getHct_length (env : ι → DynamicColor ι F) (fuel : Nat) (r : ι)
    (hit : HctCache F → DynamicScheme F → Option (Hct F)) (cache : HctCache F) (s : DynamicScheme F)
    (a : Hct F × HctCache F) (h : getHct env fuel r hit cache s = some a) (hc : cache.length ≤ 5) :
    a.2.length ≤ 5 := by
  unfold getHct at h
  split at h
  · cases h; exact hc
  · cases hf : freshHct env fuel r s with
    | none => rw [hf] at h; cases h
    | some x =>
      rw [hf] at h
      cases h
      show List.length (_ :: _) ≤ 5
      split
      · simp
      · simp only [List.length_cons]; omega

/-- C60: after any sequence of queries for any schemes, the cache of a dynamic colour holds at most five
entries, whatever the hash map does on lookups; for any number type. -/
theorem c60_bounded (env : ι → DynamicColor ι F) (fuel : Nat) (r : ι)
    (hit : HctCache F → DynamicScheme F → Option (Hct F)) (queries : List (DynamicScheme F))
    (answers : List (Hct F)) (cache : HctCache F)
    (h : askAll env fuel r hit queries [] = some (answers, cache)) : cache.length ≤ 5 := by
  have main : ∀ (queries : List (DynamicScheme F)) (c : HctCache F) (out : List (Hct F) × HctCache F),
      askAll env fuel r hit queries c = some out → c.length ≤ 5 → out.2.length ≤ 5 := by
    intro queries
    induction queries with
    | nil => intro c out h hc; cases h; exact hc
    | cons s rest ih =>
      intro c out h hc
      simp only [askAll, Option.bind_eq_bind, Option.bind_eq_some_iff] at h
      obtain ⟨a, ha, b, hb, hout⟩ := h
      cases hout
      exact ih _ b hb (getHct_length env fuel r hit c s a ha hc)
  exact main queries [] _ h (by simp)

/-- Every entry of the cache is the fresh answer for its key, and its key is one of the schemes asked about. -/
def Sound (env : ι → DynamicColor ι F) (fuel : Nat) (r : ι) (P : DynamicScheme F → Prop) (c : HctCache F) : Prop :=
  ∀ key h, (key, h) ∈ c → P key ∧ freshHct env fuel r key = some h

/-- If equal schemes of a class are the same scheme, all answers for schemes of the class are the fresh ones. -/
theorem askAll_fresh (env : ι → DynamicColor ι F) (fuel : Nat) (r : ι)
    (hit : HctCache F → DynamicScheme F → Option (Hct F)) (hv : ValidHit hit)
    (P : DynamicScheme F → Prop) (hP : ∀ s t, P s → P t → s.eq t = true → s = t) :
    ∀ (queries : List (DynamicScheme F)) (c : HctCache F) (out : List (Hct F) × HctCache F),
      (∀ s ∈ queries, P s) → Sound env fuel r P c → askAll env fuel r hit queries c = some out →
      out.1.map some = queries.map (freshHct env fuel r) := by
  intro queries
  induction queries with
  | nil => intro c out _ _ h; cases h; rfl
  | cons s rest ih =>
    intro c out hq hs h
    simp only [askAll, Option.bind_eq_bind, Option.bind_eq_some_iff] at h
    obtain ⟨a, ha, b, hb, hout⟩ := h
    cases hout
    have hps : P s := hq s (by simp)
    have step : freshHct env fuel r s = some a.1 ∧ Sound env fuel r P a.2 := by
      unfold getHct at ha
      cases hh : hit c s with
      | some x =>
        rw [hh] at ha
        cases ha
        obtain ⟨key, hk, he⟩ := hv c s x hh
        have e := hP key s (hs key x hk).1 hps he
        exact ⟨e ▸ (hs key x hk).2, hs⟩
      | none =>
        rw [hh] at ha
        cases hf : freshHct env fuel r s with
        | none => simp only [hf] at ha; cases ha
        | some x =>
          simp only [hf] at ha
          cases ha
          refine ⟨rfl, ?_⟩
          intro key h hk
          rcases List.mem_cons.1 hk with he | hk
          · cases he; exact ⟨hps, hf⟩
          · split at hk
            · cases hk
            · exact hs key h hk
    simp only [List.map_cons, step.1]
    rw [ih a.2 b (fun t ht => hq t (by simp [ht])) step.2 hb]

end

/-- The scheme the library makes for a variant, a source colour, dark or light mode and a contrast level. -/
def make {F : Type} [Fl F] : Variant → Int → Bool → F → Option (DynamicScheme F)
  | .tonalSpot, argb, d, c => some (Schemes.tonalSpot (Hct.fromInt argb) d c)
  | .neutral, argb, d, c => some (Schemes.neutral (Hct.fromInt argb) d c)
  | .monochrome, argb, d, c => some (Schemes.monochrome (Hct.fromInt argb) d c)
  | .rainbow, argb, d, c => some (Schemes.rainbow (Hct.fromInt argb) d c)
  | .fruitSalad, argb, d, c => some (Schemes.fruitSalad (Hct.fromInt argb) d c)
  | .vibrant, argb, d, c => Schemes.vibrant (Hct.fromInt argb) d c
  | .expressive, argb, d, c => Schemes.expressive (Hct.fromInt argb) d c
  | .content, argb, d, c => Schemes.content (Hct.fromInt argb) d c
  | .fidelity, argb, d, c => Schemes.fidelity (Hct.fromInt argb) d c

/-- The schemes the library makes. -/
def Made {F : Type} [Fl F] (s : DynamicScheme F) : Prop := ∃ v argb d c, make v argb d c = some s

/-- A scheme a user puts together with `DynamicScheme::new` from palettes made by `TonalPalette::of`. -/
def Assembled {F : Type} [Fl F] (s : DynamicScheme F) : Prop :=
  ∃ (argb : Int) (v : Variant) (c : Option F) (d : Bool) (h1 c1 h2 c2 h3 c3 h4 c4 h5 c5 : F),
    s = DynamicScheme.new argb v c d (TonalPalette.of h1 c1) (TonalPalette.of h2 c2) (TonalPalette.of h3 c3)
      (TonalPalette.of h4 c4) (TonalPalette.of h5 c5)

theorem eq_fields {s t : DynamicScheme ℝ} (h : s.eq t = true) :
    s.sourceColorArgb = t.sourceColorArgb ∧ s.variant = t.variant ∧ s.isDark = t.isDark ∧
    s.contrastLevel = t.contrastLevel ∧ s.primaryPalette.eq t.primaryPalette = true ∧
    s.secondaryPalette.eq t.secondaryPalette = true ∧ s.tertiaryPalette.eq t.tertiaryPalette = true ∧
    s.neutralPalette.eq t.neutralPalette = true ∧ s.neutralVariantPalette.eq t.neutralVariantPalette = true := by
  simp only [DynamicScheme.eq, Bool.and_eq_true, beq_iff_eq, decide_eq_true_iff] at h
  obtain ⟨⟨⟨⟨⟨⟨⟨⟨⟨⟨h1, _⟩, h2⟩, h3⟩, h4⟩, h5⟩, h6⟩, h7⟩, h8⟩, h9⟩, _⟩ := h
  have h4 : s.contrastLevel = t.contrastLevel := by
    exact h4
  exact ⟨h1, h2, h3, h4, h5, h6, h7, h8, h9⟩

theorem make_records {v : Variant} {argb : Int} {d : Bool} {c : ℝ} {s : DynamicScheme ℝ} (h : make v argb d c = some s) :
    s.sourceColorArgb = argb ∧ s.variant = v ∧ s.isDark = d ∧ s.contrastLevel = c := by
  cases v
  · cases h; exact ⟨rfl, rfl, rfl, rfl⟩
  · cases h; exact ⟨rfl, rfl, rfl, rfl⟩
  · cases h; exact ⟨rfl, rfl, rfl, rfl⟩
  · simp only [make, Schemes.vibrant, Option.bind_eq_bind, Option.bind_eq_some_iff] at h
    obtain ⟨_, _, _, _, h⟩ := h
    cases h; exact ⟨rfl, rfl, rfl, rfl⟩
  · simp only [make, Schemes.expressive, Option.bind_eq_bind, Option.bind_eq_some_iff] at h
    obtain ⟨_, _, _, _, h⟩ := h
    cases h; exact ⟨rfl, rfl, rfl, rfl⟩
  · simp only [make, Schemes.content, Option.bind_eq_bind, Option.bind_eq_some_iff] at h
    obtain ⟨_, _, _, _, h⟩ := h
    cases h; exact ⟨rfl, rfl, rfl, rfl⟩
  · simp only [make, Schemes.fidelity, Option.bind_eq_bind, Option.bind_eq_some_iff] at h
    obtain ⟨_, _, h⟩ := h
    cases h; exact ⟨rfl, rfl, rfl, rfl⟩
  · cases h; exact ⟨rfl, rfl, rfl, rfl⟩
  · cases h; exact ⟨rfl, rfl, rfl, rfl⟩

/-- Schemes the library makes that compare equal are the same. -/
theorem made_eq (s t : DynamicScheme ℝ) (hs : Made s) (ht : Made t) (h : s.eq t = true) : s = t := by
  obtain ⟨v, argb, d, c, hs⟩ := hs
  obtain ⟨v', argb', d', c', ht⟩ := ht
  obtain ⟨a1, a2, a3, a4⟩ := make_records hs
  obtain ⟨b1, b2, b3, b4⟩ := make_records ht
  obtain ⟨e1, e2, e3, e4, _⟩ := eq_fields h
  rw [← a1, ← a2, ← a3, ← a4, e1, e2, e3, e4, b1, b2, b3, b4, ht] at hs
  exact (Option.some.inj hs).symm

theorem of_eq {h c h' c' : ℝ} (he : (TonalPalette.of h c).eq (TonalPalette.of h' c') = true) : h = h' ∧ c = c' := by
  rw [c35_characterisation] at he
  exact he

/-- So are schemes a user assembles from palettes given by hue and chroma. -/
theorem assembled_eq (s t : DynamicScheme ℝ) (hs : Assembled s) (ht : Assembled t) (h : s.eq t = true) : s = t := by
  obtain ⟨argb, v, c, d, h1, c1, h2, c2, h3, c3, h4, c4, h5, c5, rfl⟩ := hs
  obtain ⟨argb', v', c', d', h1', c1', h2', c2', h3', c3', h4', c4', h5', c5', rfl⟩ := ht
  obtain ⟨e1, e2, e3, e4, p1, p2, p3, p4, p5⟩ := eq_fields h
  have e1 : argb = argb' := e1
  have e2 : v = v' := e2
  have e3 : d = d' := e3
  obtain ⟨rfl, rfl⟩ := of_eq p1
  obtain ⟨rfl, rfl⟩ := of_eq p2
  obtain ⟨rfl, rfl⟩ := of_eq p3
  obtain ⟨rfl, rfl⟩ := of_eq p4
  obtain ⟨rfl, rfl⟩ := of_eq p5
  subst e1; subst e2; subst e3
  have e4 : c.getD 0.0 = c'.getD 0.0 := e4
  simp only [DynamicScheme.new, e4]

/-- Both classes have members. -/
example : Made (Schemes.tonalSpot (Hct.fromInt 0xFF4285F4) true (0.5 : ℝ)) ∧
    Assembled (DynamicScheme.new 0xFF4285F4 .neutral none false (TonalPalette.of (10 : ℝ) 20) (TonalPalette.of 20 30)
      (TonalPalette.of 30 40) (TonalPalette.of 40 5) (TonalPalette.of 50 6)) :=
  ⟨⟨.tonalSpot, _, _, _, rfl⟩, ⟨_, _, _, _, _, _, _, _, _, _, _, _, _, _, rfl⟩⟩

/-- C60: asked about schemes made by the library's constructors, in any order and any number of times, every
dynamic colour (also one defined by the user) answers what it would answer without a cache. -/
theorem c60_transparent {ι : Type} (env : ι → DynamicColor ι ℝ) (fuel : Nat) (r : ι)
    (hit : HctCache ℝ → DynamicScheme ℝ → Option (Hct ℝ)) (hv : ValidHit hit)
    (queries : List (DynamicScheme ℝ)) (hq : ∀ s ∈ queries, Made s) (answers : List (Hct ℝ)) (cache : HctCache ℝ)
    (h : askAll env fuel r hit queries [] = some (answers, cache)) :
    answers.map some = queries.map (freshHct env fuel r) :=
  askAll_fresh env fuel r hit hv Made made_eq queries [] _ hq (fun _ _ h => by cases h) h

/-- C60: the same for schemes assembled by the user from palettes given by hue and chroma. -/
theorem c60_transparent_assembled {ι : Type} (env : ι → DynamicColor ι ℝ) (fuel : Nat) (r : ι)
    (hit : HctCache ℝ → DynamicScheme ℝ → Option (Hct ℝ)) (hv : ValidHit hit)
    (queries : List (DynamicScheme ℝ)) (hq : ∀ s ∈ queries, Assembled s) (answers : List (Hct ℝ)) (cache : HctCache ℝ)
    (h : askAll env fuel r hit queries [] = some (answers, cache)) :
    answers.map some = queries.map (freshHct env fuel r) :=
  askAll_fresh env fuel r hit hv Assembled assembled_eq queries [] _ hq (fun _ _ h => by cases h) h

/-- Conversely a query for which the computation without cache succeeds never panics. -/
theorem c60_answers {ι : Type} (env : ι → DynamicColor ι ℝ) (fuel : Nat) (r : ι)
    (hit : HctCache ℝ → DynamicScheme ℝ → Option (Hct ℝ)) (cache : HctCache ℝ) (s : DynamicScheme ℝ)
    (h : (freshHct env fuel r s).isSome) : (getHct env fuel r hit cache s).isSome := by
  unfold getHct
  split
  · rfl
  · obtain ⟨x, hx⟩ := Option.isSome_iff_exists.1 h
    rw [hx]; rfl

/-- A lookup as a hash map does it: the first entry whose key compares equal and feeds the same words to the
hasher. -/
noncomputable def hashLookup (cache : HctCache ℝ) (s : DynamicScheme ℝ) : Option (Hct ℝ) := by
  classical
  exact (cache.find? fun e => e.1.eq s && decide (e.1.hashInput = s.hashInput)).map Prod.snd

theorem hashLookup_valid : ValidHit hashLookup := by
  classical
  intro cache scheme h hh
  obtain ⟨e, he, rfl⟩ := Option.map_eq_some_iff.1 hh
  have h1 := List.find?_some he
  rw [Bool.and_eq_true] at h1
  exact ⟨e.1, List.mem_of_find?_eq_some he, h1.1⟩

theorem eq_read (s : DynamicScheme ℝ) (hs : s.neutralPalette.isFromCache = false) (t : Int) :
    DynamicScheme.eq { s with neutralPalette := (s.neutralPalette.get t).2 } s = true ∧
    DynamicScheme.hashInput { s with neutralPalette := (s.neutralPalette.get t).2 } = DynamicScheme.hashInput s := by
  have hk := get_same s.neutralPalette t
  have he : (s.neutralPalette.get t).2.eq s.neutralPalette = true := by
    rw [c35_characterisation, if_pos ⟨by rw [← hk.2.2.2.1, hs], hs⟩]
    exact ⟨hk.1.symm, hk.2.1.symm⟩
  have hr (p : TonalPalette ℝ) : p.eq p = true := (c35_refl_symm_partial p p).1
  constructor
  · simp only [DynamicScheme.eq, Bool.and_eq_true, beq_iff_eq, decide_true, he, hr, and_self, Hct.eq]
  · have hh : (s.neutralPalette.get t).2.hashInput = s.neutralPalette.hashInput := by
      simp only [TonalPalette.hashInput, ← hk.2.2.2.1, hs, Bool.not_false, if_true, hk.1, hk.2.1]
    simp only [DynamicScheme.hashInput, DynamicScheme.paletteWords, hh]

open Material in
/-- C60's second half is violated when palettes are read in between: two schemes that compare and hash equal, one
of them with tone 83 of its neutral palette read before, get the same answer from the cache although their colours
for the role `surface_dim` differ. -/
theorem c60_violated : ∃ (s1 s0 : DynamicScheme ℝ) (a b : Hct ℝ) (cache : HctCache ℝ),
    s1.eq s0 = true ∧ Made s0 ∧
    askAll (registry 0) 1 Role.surfaceDim hashLookup [s1, s0] [] = some ([a, b], cache) ∧
    freshHct (registry 0) 1 Role.surfaceDim s0 ≠ some b := by
  let s0 : DynamicScheme ℝ := Schemes.monochrome (Hct.fromInt 0xFF4285F4) false 0.225
  let s1 : DynamicScheme ℝ := { s0 with neutralPalette := (s0.neutralPalette.get 83).2 }
  have hh := eq_read s0 rfl 83
  have htone (s : DynamicScheme ℝ) (h1 : s.isDark = false) (h2 : s.contrastLevel = 0.225) :
      getTone (registry 0) s 1 Role.surfaceDim = some 83.85 := by
    simp only [getTone, registry, Material.surfaceDim, h1, h2, Option.bind_eq_bind, Option.bind_some, curve,
      ContrastCurve.get, lerp, Bool.false_eq_true, if_false]
    norm_num
  have htr : Fl.toI64 (83.85 : ℝ) = 83 := by
    rw [fl_toI64, realTrunc_of_nonneg (by norm_num), show ⌊(83.85 : ℝ)⌋ = 83 from Int.floor_eq_iff.2 (by norm_num)]
    rfl
  have hgray (h t : ℝ) : (Hct.fromHct h (0.0 : ℝ) t).toInt = argbFromLstar t :=
    (c24_gray h 0.0 t (Or.inl (by norm_num))).1
  have f0 : freshHct (registry 0) 1 Role.surfaceDim s0 = some (Hct.fromHct (Hct.fromInt 0xFF4285F4 : Hct ℝ).getHue 0.0 83.85) := by
    unfold freshHct
    rw [htone s0 rfl rfl]
    rfl
  have f1 : freshHct (registry 0) 1 Role.surfaceDim s1 = some (Hct.fromInt (argbFromLstar (83 : ℝ))) := by
    unfold freshHct
    rw [htone s1 rfl rfl]
    show some (TonalPalette.getHct (s0.neutralPalette.get 83).2 83.85) = _
    have hc : (s0.neutralPalette.get 83).2.cache = [(83, toneColor (Hct.fromInt 0xFF4285F4 : Hct ℝ).getHue 0.0 83)] := rfl
    have ht : toneColor (Hct.fromInt 0xFF4285F4 : Hct ℝ).getHue 0.0 83 = argbFromLstar (83 : ℝ) := by
      rw [toneColor, hgray, fl_ofInt]
      norm_num
    rw [c33_characterisation, htr, hc, ht]
    simp only [List.lookup_cons, beq_self_eq_true]
  have hfind : hashLookup [(s1, Hct.fromInt (argbFromLstar (83 : ℝ)))] s0 = some (Hct.fromInt (argbFromLstar (83 : ℝ))) := by
    unfold hashLookup
    rw [List.find?_cons_of_pos]
    · rfl
    · simp only [hh.1, hh.2, decide_true, Bool.and_self, s1]
  refine ⟨s1, s0, Hct.fromInt (argbFromLstar (83 : ℝ)), Hct.fromInt (argbFromLstar (83 : ℝ)),
    [(s1, Hct.fromInt (argbFromLstar (83 : ℝ)))], hh.1, ⟨.monochrome, _, _, _, rfl⟩, ?_, ?_⟩
  · have g1 : getHct (registry 0) 1 Role.surfaceDim hashLookup [] s1 =
        some (Hct.fromInt (argbFromLstar (83 : ℝ)), [(s1, Hct.fromInt (argbFromLstar (83 : ℝ)))]) := by
      unfold getHct
      rw [show hashLookup [] s1 = none from rfl]
      simp only [f1]
      rfl
    have g0 : getHct (registry 0) 1 Role.surfaceDim hashLookup [(s1, Hct.fromInt (argbFromLstar (83 : ℝ)))] s0 =
        some (Hct.fromInt (argbFromLstar (83 : ℝ)), [(s1, Hct.fromInt (argbFromLstar (83 : ℝ)))]) := by
      unfold getHct
      rw [hfind]
    simp only [askAll, g1, g0, Option.bind_eq_bind, Option.bind_some]
  · rw [f0]
    intro h
    have h := congrArg Hct.toInt (Option.some.inj h)
    rw [hgray] at h
    rw [c23_from_int] at h
    have h1 := c16_accuracy 83.85 (by norm_num) (by norm_num)
    have h2 := c16_accuracy 83 (by norm_num) (by norm_num)
    rw [h] at h1
    have h1 := abs_le.1 h1
    have h2 := abs_le.1 h2
    norm_num at h1 h2
    linarith [h1.1, h1.2, h2.1, h2.2]

end Mcu.Props
