import Verif.Props.Readable
import Verif.Lemmas.Wcag

/-! Properties C76 - C81: the order of the surfaces, light foregrounds, blending by hue, the colours the roles are
drawn with, and their contrast. -/

namespace Mcu.Props

open DynamicColor Material Lemmas Spec Contrast ColorUtils

/-! ## C76 -/

/-- The surfaces of a dark scheme, from dark to light. -/
def darkSurfaces : List Role :=
  [.surfaceContainerLowest, .surfaceDim, .surfaceContainerLow, .surfaceContainer, .surfaceContainerHigh,
   .surfaceContainerHighest, .surfaceBright]

/-- The surfaces of a light scheme, from light to dark. -/
def lightSurfaces : List Role :=
  [.surfaceContainerLowest, .surfaceBright, .surfaceContainerLow, .surfaceContainer, .surfaceContainerHigh,
   .surfaceContainerHighest, .surfaceDim]

/-- C76: with every contrast level, each surface of a dark scheme is at least two tones lighter than the one before. -/
theorem c76_dark (s : DynamicScheme ℝ) (hd : s.isDark = true) (a b : Role)
    (h : (a, b) ∈ darkSurfaces.zip darkSurfaces.tail) (rounds m n : Nat) (ta tb : ℝ)
    (ha : getTone (registry rounds) s m a = some ta) (hb : getTone (registry rounds) s n b = some tb) :
    ta + 2 ≤ tb := by
  have u2 := unit_range (2 * s.contrastLevel)
  have u3 := unit_range (2 * s.contrastLevel - 1)
  simp only [darkSurfaces, List.tail_cons, List.zip_cons_cons, List.zip_nil_right, List.mem_cons, Prod.mk.injEq,
    List.not_mem_nil, or_false] at h
  rcases h with ⟨rfl, rfl⟩ | ⟨rfl, rfl⟩ | ⟨rfl, rfl⟩ | ⟨rfl, rfl⟩ | ⟨rfl, rfl⟩ | ⟨rfl, rfl⟩ <;>
    (replace ha := (plain_inv (registry rounds) s _ m ta rfl rfl ha).choose_spec.2
     replace hb := (plain_inv (registry rounds) s _ n tb rfl rfl hb).choose_spec.2
     simp only [registry, surfaceDim, surfaceBright, surfaceContainerLowest, surfaceContainerLow,
       surfaceContainer, surfaceContainerHigh, surfaceContainerHighest, hd, if_true,
       Option.some.injEq, curve_eq] at ha hb
     rw [← ha, ← hb]
     norm_num
     linarith)

/-- C76: with every contrast level, each surface of a light scheme is at least two tones darker than the one before. -/
theorem c76_light (s : DynamicScheme ℝ) (hd : s.isDark = false) (a b : Role)
    (h : (a, b) ∈ lightSurfaces.zip lightSurfaces.tail) (rounds m n : Nat) (ta tb : ℝ)
    (ha : getTone (registry rounds) s m a = some ta) (hb : getTone (registry rounds) s n b = some tb) :
    tb + 2 ≤ ta := by
  have u2 := unit_range (2 * s.contrastLevel)
  have u3 := unit_range (2 * s.contrastLevel - 1)
  simp only [lightSurfaces, List.tail_cons, List.zip_cons_cons, List.zip_nil_right, List.mem_cons, Prod.mk.injEq,
    List.not_mem_nil, or_false] at h
  rcases h with ⟨rfl, rfl⟩ | ⟨rfl, rfl⟩ | ⟨rfl, rfl⟩ | ⟨rfl, rfl⟩ | ⟨rfl, rfl⟩ | ⟨rfl, rfl⟩ <;>
    (replace ha := (plain_inv (registry rounds) s _ m ta rfl rfl ha).choose_spec.2
     replace hb := (plain_inv (registry rounds) s _ n tb rfl rfl hb).choose_spec.2
     simp only [registry, surfaceDim, surfaceBright, surfaceContainerLowest, surfaceContainerLow,
       surfaceContainer, surfaceContainerHigh, surfaceContainerHighest, hd, Bool.false_eq_true, if_false,
       Option.some.injEq, curve_eq] at ha hb
     rw [← ha, ← hb]
     norm_num <;> linarith)

/-- C76: the background and the surface have the same tone, which is that of the dimmest surface in a dark scheme and
that of the brightest one in a light scheme. -/
theorem c76_base (s : DynamicScheme ℝ) (rounds k l m : Nat) (t0 t1 t2 : ℝ)
    (h0 : getTone (registry rounds) s k .background = some t0) (h1 : getTone (registry rounds) s l .surface = some t1)
    (h2 : getTone (registry rounds) s m (if s.isDark then .surfaceDim else .surfaceBright) = some t2) :
    t0 = t1 ∧ t1 = t2 ∧ t1 = (if s.isDark then 6 else 98) := by
  replace h0 := (plain_inv (registry rounds) s _ k t0 rfl rfl h0).choose_spec.2
  replace h1 := (plain_inv (registry rounds) s _ l t1 rfl rfl h1).choose_spec.2
  cases hd : s.isDark <;> simp only [hd, if_true, Bool.false_eq_true, if_false] at h2 ⊢ <;>
    (replace h2 := (plain_inv (registry rounds) s _ m t2 rfl rfl h2).choose_spec.2
     simp only [registry, Material.background, surface, surfaceDim, surfaceBright, hd, if_true, Bool.false_eq_true, if_false,
       Option.some.injEq] at h0 h1 h2
     subst h0 h1 h2
     norm_num)

/-- The surfaces have tones in every scheme. -/
example (s : DynamicScheme ℝ) (a : Role) (h : a ∈ darkSurfaces) : ∃ t, ∀ rounds fuel, 3 ≤ fuel →
    getTone (registry rounds) s fuel a = some t := by
  refine c56_total_without_search s a (Or.inl ?_)
  simp only [darkSurfaces, List.mem_cons, List.not_mem_nil, or_false] at h
  rcases h with rfl | rfl | rfl | rfl | rfl | rfl | rfl <;> simp [NeedsSearch]

/-! ## C77 -/

theorem allows_iff {t : ℝ} (h : 0 ≤ t) : toneAllowsLightForeground t = true ↔ t < 49.5 := by
  have e49 : (49.0 : ℝ) = ((49 : ℤ) : ℝ) := by norm_num
  unfold toneAllowsLightForeground
  rw [decide_eq_true_iff, fl_round, realRound_of_nonneg h, e49, Int.cast_le, ← Int.lt_add_one_iff, Int.floor_lt]
  norm_num
  constructor <;> intro h <;> linarith

/-- C77: the tone that `enable_light_foreground` gives for a tone from 0 to 100: tones that call for a light
foreground and are too light for it become 49, all others stay; then either white has a contrast of at least 4.5 and
the tone calls for a light foreground, or black has a contrast of at least 6.5 and it does not. -/
theorem c77_light_foreground (t : ℝ) (h0 : 0 ≤ t) (h1 : t ≤ 100) :
    enableLightForeground t = (if 49.5 ≤ t ∧ t < 59.5 then 49 else t) ∧
    (if tonePrefersLightForeground (enableLightForeground t) then 4.5 ≤ ratioOfTones 100 (enableLightForeground t)
     else 6.5 ≤ ratioOfTones 0 (enableLightForeground t)) ∧
    tonePrefersLightForeground (enableLightForeground t) = tonePrefersLightForeground t ∧
    enableLightForeground (enableLightForeground t) = enableLightForeground t := by
  have e49 : (49.0 : ℝ) = 49 := by norm_num
  have val (u : ℝ) (hu0 : 0 ≤ u) : enableLightForeground u = (if 49.5 ≤ u ∧ u < 59.5 then 49 else u) := by
    simp only [enableLightForeground, e49]
    rcases lt_or_ge u 59.5 with h | h
    · rw [prefers_of_lt hu0 h]
      rcases lt_or_ge u 49.5 with h' | h'
      · rw [(allows_iff hu0).2 h', if_neg (by simp), if_neg (by rintro ⟨a, -⟩; linarith)]
      · have : toneAllowsLightForeground u = false := by
          rw [Bool.eq_false_iff]; intro hc; exact absurd ((allows_iff hu0).1 hc) (not_lt.2 h')
        rw [this, if_pos (by simp), if_pos ⟨h', h⟩]
    · rw [prefers_of_ge h, if_neg (by simp), if_neg (by rintro ⟨-, a⟩; linarith)]
  rw [val t h0]
  by_cases hm : 49.5 ≤ t ∧ t < 59.5
  · rw [if_pos hm]
    refine ⟨rfl, ?_, ?_, ?_⟩
    · rw [prefers_of_lt (by norm_num) (by norm_num), if_pos rfl]
      refine ratio_ge (by norm_num) (by norm_num) (by norm_num) ?_
      rw [c11_endpoints.2.1, y_cube (by norm_num)]
      norm_num
    · rw [prefers_of_lt (by norm_num) (by norm_num), prefers_of_lt h0 hm.2]
    · rw [val 49 (by norm_num), if_neg (by norm_num)]
  · rw [if_neg hm]
    refine ⟨rfl, ?_, rfl, by rw [val t h0, if_neg hm]⟩
    rcases lt_or_ge t 59.5 with h | h
    · have ht : t < 49.5 := by by_contra hc; exact hm ⟨not_lt.1 hc, h⟩
      rw [prefers_of_lt h0 h, if_pos rfl, ratio_white h0 h1, le_div_iff₀ (by linarith [(y_range h0 h1).1])]
      have := y_le ht.le (by norm_num)
      norm_num at this ⊢
      linarith
    · rw [prefers_of_ge h, if_neg (by simp), ratio_black h0 h1]
      have := y_ge h (by norm_num)
      norm_num at this ⊢
      linarith

/-! ## C78 -/

/-- C78: blending by hue keeps the tone of the first colour, up to 0.84, whatever the amount. -/
theorem c78_blend_tone (a b : Int) (amount : ℝ) :
    |(lstarFromArgb (Blend.hctHue a b amount) : ℝ) - lstarFromArgb a| ≤ 0.84 :=
  c26_tone _ _ _ (c15_range a).1 (c15_range a).2

/-- C78: harmonising keeps the tone of the design colour, up to 0.84. -/
theorem c78_harmonize_tone (design source : Int) :
    |(lstarFromArgb (Blend.harmonize ℝ design source) : ℝ) - lstarFromArgb design| ≤ 0.84 :=
  c26_tone _ _ _ (c15_range design).1 (c15_range design).2

/-- C78: so a harmonised or blended colour keeps at least 93 % of the contrast that the original colour has with any
other colour. -/
theorem c78_contrast (a b other : Int) (amount : ℝ) :
    0.93 * wcagContrast a other ≤ wcagContrast (Blend.hctHue a b amount) other ∧
    0.93 * wcagContrast a other ≤ wcagContrast (Blend.harmonize ℝ a b) other := by
  have h1 := ratio_close (c15_range a) (c15_range other) (c15_range _) (c15_range other) (c78_blend_tone a b amount)
    (by norm_num)
  have h2 := ratio_close (c15_range a) (c15_range other) (c15_range _) (c15_range other) (c78_harmonize_tone a b)
    (by norm_num)
  rw [ratio_eq_wcag, ratio_eq_wcag] at h1 h2
  norm_num at h1 h2 ⊢
  have p := (c17_range (lstarFromArgb a) (lstarFromArgb other)).1
  rw [ratio_eq_wcag] at p
  constructor <;> linarith

/-- C78: blending by hue requests, with amount 0, the hue of the first colour, with amount 1, that of the second, and
always the chroma and the tone of the first. -/
theorem c78_blend_ends (a b : Int) (ha : Opaque32 a) (hb : Opaque32 b) :
    let x : Hct ℝ := Hct.fromInt a
    let y : Hct ℝ := Hct.fromInt b
    Blend.hctHue a b (0 : ℝ) = (Hct.fromHct x.getHue x.getChroma x.getTone).toInt ∧
    Blend.hctHue a b (1 : ℝ) = (Hct.fromHct y.getHue x.getChroma x.getTone).toInt := by
  intro x y
  obtain ⟨h0, h1⟩ := c29_endpoints a b ha hb
  constructor
  · simp only [Blend.hctHue, h0]; rfl
  · simp only [Blend.hctHue, h1]; rfl

example : Opaque32 0xFFFF0000 ∧ Opaque32 0xFF0000FF := by unfold Opaque32; decide

/-! ## C79 -/

/-- No colour has been read from the palettes of a scheme. -/
def Unread {F : Type} [Fl F] (s : DynamicScheme F) : Prop :=
  s.primaryPalette.cache = [] ∧ s.secondaryPalette.cache = [] ∧ s.tertiaryPalette.cache = [] ∧
  s.neutralPalette.cache = [] ∧ s.neutralVariantPalette.cache = [] ∧ s.errorPalette.cache = []

/-- The schemes the library makes have palettes nothing was read from. -/
theorem unread_made {F : Type} [Fl F] (s : DynamicScheme F) (h : Made s ∨ Assembled s) : Unread s := by
  rcases h with ⟨v, argb, d, c, h⟩ | ⟨argb, v, c, d, h1, c1, h2, c2, h3, c3, h4, c4, h5, c5, rfl⟩
  · cases v
    case content =>
      simp only [make, Schemes.content, Option.bind_eq_bind, Option.bind_eq_some_iff] at h
      obtain ⟨l, hl, t, ht, h⟩ := h
      cases h
      exact ⟨rfl, rfl, rfl, rfl, rfl, rfl⟩
    case fidelity =>
      simp only [make, Schemes.fidelity, Option.bind_eq_bind, Option.bind_eq_some_iff] at h
      obtain ⟨t, ht, h⟩ := h
      cases h
      exact ⟨rfl, rfl, rfl, rfl, rfl, rfl⟩
    case vibrant =>
      simp only [make, Schemes.vibrant, Option.bind_eq_bind, Option.bind_eq_some_iff] at h
      obtain ⟨_, _, _, _, h⟩ := h
      cases h
      exact ⟨rfl, rfl, rfl, rfl, rfl, rfl⟩
    case expressive =>
      simp only [make, Schemes.expressive, Option.bind_eq_bind, Option.bind_eq_some_iff] at h
      obtain ⟨_, _, _, _, h⟩ := h
      cases h
      exact ⟨rfl, rfl, rfl, rfl, rfl, rfl⟩
    all_goals
      cases h
      exact ⟨rfl, rfl, rfl, rfl, rfl, rfl⟩
  · exact ⟨rfl, rfl, rfl, rfl, rfl, rfl⟩

theorem palette_unread {F : Type} [Fl F] (rounds : Nat) (s : DynamicScheme F) (h : Unread s) (r : Role) :
    ((registry (F := F) rounds r).palette s).cache = [] := by
  obtain ⟨h1, h2, h3, h4, h5, h6⟩ := h
  cases r <;> first | exact h1 | exact h2 | exact h3 | exact h4 | exact h5 | exact h6

/-- The colour a role is drawn with in a scheme, when asked for the first time. -/
def Drawn {F : Type} [Fl F] (rounds : Nat) (s : DynamicScheme F) (r : Role) (argb : Int) : Prop :=
  ∃ fuel hit cache, ValidHit hit ∧ getArgb (registry rounds) fuel r hit [] s = some (argb, cache)

theorem drawn_inv {F : Type} [Fl F] (rounds : Nat) (s : DynamicScheme F) (hu : Unread s) (r : Role) (argb : Int)
    (h : Drawn rounds s r argb) : ∃ fuel t, getTone (registry rounds) s fuel r = some t ∧
      argb = (Hct.fromHct ((registry rounds r).palette s).hue ((registry rounds r).palette s).chroma t).toInt := by
  obtain ⟨fuel, hit, cache, hv, h⟩ := h
  have hn : hit [] s = none := by
    cases e : hit [] s with
    | none => rfl
    | some x => obtain ⟨k, hk, -⟩ := hv _ _ _ e; cases hk
  simp only [getArgb, getHct, hn, freshHct, Option.bind_eq_bind, Option.bind_eq_some_iff] at h
  obtain ⟨a, ⟨x, ⟨t, ht, hx⟩, ha⟩, h⟩ := h
  cases hx
  cases ha
  cases h
  refine ⟨fuel, t, ht, ?_⟩
  show Hct.toInt (TonalPalette.getHct _ _) = _
  rw [c33_unread_tones_partial _ _ (by rw [palette_unread rounds s hu r]; rfl)]

/-- C79: the colour a role is drawn with is opaque and has the tone computed for the role, up to 0.84. -/
theorem c79_drawn (s : DynamicScheme ℝ) (hs : Made s ∨ Assembled s) (rounds n : Nat) (r : Role) (argb : Int) (t : ℝ)
    (h : Drawn rounds s r argb) (ht : getTone (registry rounds) s n r = some t) :
    Opaque32 argb ∧ |(lstarFromArgb argb : ℝ) - t| ≤ 0.84 := by
  obtain ⟨fuel, t', ht', rfl⟩ := drawn_inv rounds s (unread_made s hs) r argb h
  have := getTone_unique _ s (registry_mono (F := ℝ) rounds s) ht' ht
  subst this
  have hr := c57_made s hs rounds fuel r t' ht'
  exact ⟨c14_solver _ _ _, c26_tone _ _ _ hr.1 hr.2⟩

/-- C79: every role but the secondary and its container with their text can be drawn in every scheme; for any number
type. -/
theorem c79_can_be_drawn {F : Type} [Fl F] (s : DynamicScheme F) (r : Role)
    (h : ¬ NeedsSearch r ∨ (s.variant ≠ .fidelity ∧ s.variant ≠ .content)) : ∃ argb, ∀ rounds, Drawn rounds s r argb := by
  obtain ⟨t, ht⟩ := c56_total_without_search s r h
  refine ⟨(((registry 0 r).palette s).getHct t).toInt, fun rounds => ?_⟩
  refine ⟨3, fun _ _ => none, [(s, ((registry 0 r).palette s).getHct t)], fun _ _ _ h => absurd h (by simp), ?_⟩
  have e : (registry (F := F) rounds r).palette s = (registry 0 r).palette s := by cases r <;> rfl
  simp only [getArgb, getHct, freshHct, ht rounds 3 le_rfl, Option.bind_eq_bind, Option.bind_some, e]
  rfl

/-! ## C76 again: the colours the surfaces are drawn with -/

/-- C76: drawn, each surface of a dark scheme is lighter than the one before, in a light scheme it is darker. -/
theorem c76_drawn (s : DynamicScheme ℝ) (hs : Made s ∨ Assembled s) (rounds : Nat) (a b : Role) (ca cb : Int)
    (ha : Drawn rounds s a ca) (hb : Drawn rounds s b cb) :
    (s.isDark = true → (a, b) ∈ darkSurfaces.zip darkSurfaces.tail → relativeLuminance ca < relativeLuminance cb) ∧
    (s.isDark = false → (a, b) ∈ lightSurfaces.zip lightSurfaces.tail → relativeLuminance cb < relativeLuminance ca) := by
  obtain ⟨fa, ta, hta, -⟩ := drawn_inv rounds s (unread_made s hs) a ca ha
  obtain ⟨fb, tb, htb, -⟩ := drawn_inv rounds s (unread_made s hs) b cb hb
  have h1 := abs_le.1 (c79_drawn s hs rounds fa a ca ta ha hta).2
  have h2 := abs_le.1 (c79_drawn s hs rounds fb b cb tb hb htb).2
  have key (c d : Int) (h : (lstarFromArgb c : ℝ) < lstarFromArgb d) : relativeLuminance c < relativeLuminance d := by
    have := c11_strictMono.1 h
    rw [y_of_tone, y_of_tone] at this
    linarith
  norm_num at h1 h2
  constructor
  · intro hd hm
    have := c76_dark s hd a b hm rounds fa fb ta tb hta htb
    exact key _ _ (by linarith [h1.2, h2.1])
  · intro hd hm
    have := c76_light s hd a b hm rounds fa fb ta tb hta htb
    exact key _ _ (by linarith [h1.1, h2.2])

/-! ## C80 -/

theorem drawn_contrast (s : DynamicScheme ℝ) (hs : Made s ∨ Assembled s) (rounds m n : Nat) (a b : Role) (ca cb : Int)
    (ta tb k : ℝ) (ha : Drawn rounds s a ca) (hb : Drawn rounds s b cb) (hta : getTone (registry rounds) s m a = some ta)
    (htb : getTone (registry rounds) s n b = some tb) (h : 1.0322 ^ 2 * k ≤ ratioOfTones ta tb) : k ≤ wcagContrast ca cb := by
  have h1 := (c79_drawn s hs rounds m a ca ta ha hta).2
  have h2 := (c79_drawn s hs rounds n b cb tb hb htb).2
  have := ratio_close (c57_made s hs rounds m a ta hta) (c57_made s hs rounds n b tb htb) (c15_range _) (c15_range _) h1 h2
  rw [ratio_eq_wcag] at this
  norm_num at h this ⊢
  linarith

/-- C80: as drawn, the text on an accent role or its container and on the inverse surface has a WCAG contrast of at
least 4.2, in every scheme the library makes and with every contrast level. -/
theorem c80_accents (s : DynamicScheme ℝ) (hs : Made s ∨ Assembled s) (rounds : Nat) (x b : Role)
    (hx : (x, b) ∈ onAccents) (cx cb : Int) (h1 : Drawn rounds s x cx) (h2 : Drawn rounds s b cb) :
    4.2 ≤ wcagContrast cx cb := by
  obtain ⟨m, tx, htx, -⟩ := drawn_inv rounds s (unread_made s hs) x cx h1
  obtain ⟨n, tb, htb, -⟩ := drawn_inv rounds s (unread_made s hs) b cb h2
  refine drawn_contrast s hs rounds m n x b cx cb tx tb _ h1 h2 htx htb ?_
  have := c58_accents s (hs.elim (tonesInRange_made s) (tonesInRange_assembled s)) x b hx rounds m n tx tb htx htb
  norm_num at this ⊢
  linarith

/-- C80: as drawn, text on any surface has a WCAG contrast of at least 4.2; the less prominent text has it with
contrast levels from 0, and 2.8 with negative ones. -/
theorem c80_surfaces (s : DynamicScheme ℝ) (hs : Made s ∨ Assembled s) (rounds : Nat) (b : Role) (hb : b ∈ surfaces)
    (cx cv cb : Int) (h1 : Drawn rounds s .onSurface cx) (h2 : Drawn rounds s .onSurfaceVariant cv)
    (h3 : Drawn rounds s b cb) :
    4.2 ≤ wcagContrast cx cb ∧ (0 ≤ s.contrastLevel → 4.2 ≤ wcagContrast cv cb) ∧ 2.8 ≤ wcagContrast cv cb := by
  obtain ⟨m, tx, htx, -⟩ := drawn_inv rounds s (unread_made s hs) _ cx h1
  obtain ⟨k, tv, htv, -⟩ := drawn_inv rounds s (unread_made s hs) _ cv h2
  obtain ⟨n, tb, htb, -⟩ := drawn_inv rounds s (unread_made s hs) b cb h3
  obtain ⟨a1, a2, a3⟩ := c58_surfaces s b hb rounds m k n tx tv tb htx htv htb
  refine ⟨drawn_contrast s hs rounds m n _ b cx cb tx tb _ h1 h3 htx htb ?_,
    fun hc => drawn_contrast s hs rounds k n _ b cv cb tv tb _ h2 h3 htv htb ?_,
    drawn_contrast s hs rounds k n _ b cv cb tv tb _ h2 h3 htv htb ?_⟩
  · norm_num at a1 ⊢; linarith
  · have := a2 hc
    norm_num at this ⊢; linarith
  · norm_num at a3 ⊢; linarith

/-- C80: as drawn, text on a fixed role and on its dimmed version has a WCAG contrast of at least 4.2; the less
prominent text has it with contrast levels from 0, and 2.8 with negative ones. -/
theorem c80_fixed (s : DynamicScheme ℝ) (hs : Made s ∨ Assembled s) (rounds : Nat) (x d o v : Role)
    (hx : (x, d, o, v) ∈ onFixed) (cx cd co cv : Int) (h1 : Drawn rounds s x cx) (h2 : Drawn rounds s d cd)
    (h3 : Drawn rounds s o co) (h4 : Drawn rounds s v cv) :
    (4.2 ≤ wcagContrast co cx ∧ 4.2 ≤ wcagContrast co cd) ∧
    (0 ≤ s.contrastLevel → 4.2 ≤ wcagContrast cv cx ∧ 4.2 ≤ wcagContrast cv cd) ∧
    2.8 ≤ wcagContrast cv cx ∧ 2.8 ≤ wcagContrast cv cd := by
  obtain ⟨m, tx, htx, -⟩ := drawn_inv rounds s (unread_made s hs) x cx h1
  obtain ⟨n, td, htd, -⟩ := drawn_inv rounds s (unread_made s hs) d cd h2
  obtain ⟨k, tt, hto, -⟩ := drawn_inv rounds s (unread_made s hs) o co h3
  obtain ⟨l, tv, htv, -⟩ := drawn_inv rounds s (unread_made s hs) v cv h4
  obtain ⟨⟨a1, a2⟩, a3, a4, a5⟩ := c58_fixed_partial s (hs.elim (tonesInRange_made s) (tonesInRange_assembled s)) x d o v hx
    rounds m n k l tx td tt tv htx htd hto htv
  refine ⟨⟨drawn_contrast s hs rounds k m o x co cx tt tx _ h3 h1 hto htx ?_,
    drawn_contrast s hs rounds k n o d co cd tt td _ h3 h2 hto htd ?_⟩,
    fun hc => ⟨drawn_contrast s hs rounds l m v x cv cx tv tx _ h4 h1 htv htx ?_,
      drawn_contrast s hs rounds l n v d cv cd tv td _ h4 h2 htv htd ?_⟩,
    drawn_contrast s hs rounds l m v x cv cx tv tx _ h4 h1 htv htx ?_,
    drawn_contrast s hs rounds l n v d cv cd tv td _ h4 h2 htv htd ?_⟩
  · norm_num at a1 ⊢; linarith
  · norm_num at a2 ⊢; linarith
  · have := (a3 hc).1
    norm_num at this ⊢; linarith
  · have := (a3 hc).2
    norm_num at this ⊢; linarith
  · norm_num at a4 ⊢; linarith
  · norm_num at a5 ⊢; linarith

/-- Text and surface can be drawn in a scheme of every variant, for example these. -/
example : ∃ a b, Drawn 0 (Schemes.tonalSpot (Hct.fromInt 0xFF4285F4 : Hct ℝ) true 0.5) .onPrimary a ∧
    Drawn 0 (Schemes.tonalSpot (Hct.fromInt 0xFF4285F4 : Hct ℝ) true 0.5) .primary b ∧
    Made (Schemes.tonalSpot (Hct.fromInt 0xFF4285F4 : Hct ℝ) true 0.5) := by
  obtain ⟨a, ha⟩ := c79_can_be_drawn (Schemes.tonalSpot (Hct.fromInt 0xFF4285F4 : Hct ℝ) true 0.5) .onPrimary
    (Or.inl (by simp [NeedsSearch]))
  obtain ⟨b, hb⟩ := c79_can_be_drawn (Schemes.tonalSpot (Hct.fromInt 0xFF4285F4 : Hct ℝ) true 0.5) .primary
    (Or.inl (by simp [NeedsSearch]))
  exact ⟨a, b, ha 0, hb 0, .tonalSpot, 0xFF4285F4, true, 0.5, rfl⟩

/-! ## C81 -/

/-- C81: the contrast computed for the tones of two colours is the WCAG contrast of the colours. -/
theorem c81_tone_contrast (a b : Int) :
    ratioOfTones (lstarFromArgb a : ℝ) (lstarFromArgb b) = wcagContrast a b := ratio_eq_wcag a b

/-- C81: for tones of colour objects made from colours. -/
theorem c81_hct_contrast (a b : Int) :
    ratioOfTones (Hct.fromInt a : Hct ℝ).getTone (Hct.fromInt b : Hct ℝ).getTone = wcagContrast a b := ratio_eq_wcag a b

/-- C81: if a tone differs from the one asked for by at most 0.84, as tones of solved colours do, the contrast of the
drawn colours is at least 93.8 % of the contrast of the tones asked for. -/
theorem c81_solved (h1 c1 t1 h2 c2 t2 : ℝ) (r1 : 0 ≤ t1 ∧ t1 ≤ 100) (r2 : 0 ≤ t2 ∧ t2 ≤ 100) :
    0.938 * ratioOfTones t1 t2 ≤ wcagContrast (Hct.fromHct h1 c1 t1).toInt (Hct.fromHct h2 c2 t2).toInt := by
  have := ratio_close r1 r2 (c15_range _) (c15_range _) (c26_tone h1 c1 t1 r1.1 r1.2) (c26_tone h2 c2 t2 r2.1 r2.2)
  rw [ratio_eq_wcag] at this
  have p := (c17_range t1 t2).1
  show _ ≤ wcagContrast (HctSolver.solveToInt h1 c1 t1) (HctSolver.solveToInt h2 c2 t2)
  norm_num at this ⊢
  linarith

/-! ## C82 -/

/-- The families of roles: one for each palette of a scheme. -/
inductive Family
  | primary | secondary | tertiary | error | neutral | neutralVariant
deriving DecidableEq

/-- The roles of a family. -/
def Family.roles : Family → List Role
  | .primary => [.primaryPaletteKeyColor, .surfaceTint, .primary, .onPrimary, .primaryContainer, .onPrimaryContainer,
      .inversePrimary, .primaryFixed, .primaryFixedDim, .onPrimaryFixed, .onPrimaryFixedVariant]
  | .secondary => [.secondaryPaletteKeyColor, .secondary, .onSecondary, .secondaryContainer, .onSecondaryContainer,
      .secondaryFixed, .secondaryFixedDim, .onSecondaryFixed, .onSecondaryFixedVariant]
  | .tertiary => [.tertiaryPaletteKeyColor, .tertiary, .onTertiary, .tertiaryContainer, .onTertiaryContainer,
      .tertiaryFixed, .tertiaryFixedDim, .onTertiaryFixed, .onTertiaryFixedVariant]
  | .error => [.error, .onError, .errorContainer, .onErrorContainer]
  | .neutral => [.neutralPaletteKeyColor, .background, .onBackground, .surface, .surfaceDim, .surfaceBright,
      .surfaceContainerLowest, .surfaceContainerLow, .surfaceContainer, .surfaceContainerHigh, .surfaceContainerHighest,
      .onSurface, .inverseSurface, .inverseOnSurface, .shadow, .scrim]
  | .neutralVariant => [.neutralVariantPaletteKeyColor, .surfaceVariant, .onSurfaceVariant, .outline, .outlineVariant]

/-- The palette of a family in a scheme. -/
def Family.palette {F : Type} [Fl F] (s : DynamicScheme F) : Family → TonalPalette F
  | .primary => s.primaryPalette
  | .secondary => s.secondaryPalette
  | .tertiary => s.tertiaryPalette
  | .error => s.errorPalette
  | .neutral => s.neutralPalette
  | .neutralVariant => s.neutralVariantPalette

/-- C82: every role belongs to exactly one family. -/
theorem c82_one_family (r : Role) : ∃ f : Family, r ∈ f.roles ∧ ∀ g : Family, r ∈ g.roles → g = f := by
  cases r <;> first
    | exact ⟨.primary, by decide, fun g h => by cases g <;> first | rfl | (revert h; decide)⟩
    | exact ⟨.secondary, by decide, fun g h => by cases g <;> first | rfl | (revert h; decide)⟩
    | exact ⟨.tertiary, by decide, fun g h => by cases g <;> first | rfl | (revert h; decide)⟩
    | exact ⟨.error, by decide, fun g h => by cases g <;> first | rfl | (revert h; decide)⟩
    | exact ⟨.neutral, by decide, fun g h => by cases g <;> first | rfl | (revert h; decide)⟩
    | exact ⟨.neutralVariant, by decide, fun g h => by cases g <;> first | rfl | (revert h; decide)⟩

/-- C82: a role is drawn with the colour that has the hue and the chroma of the palette of its family and the tone
computed for the role; for any number type. -/
theorem c82_drawn {F : Type} [Fl F] (s : DynamicScheme F) (hs : Made s ∨ Assembled s) (rounds n : Nat) (f : Family) (r : Role)
    (hr : r ∈ f.roles) (argb : Int) (t : F) (h : Drawn rounds s r argb)
    (ht : getTone (registry rounds) s n r = some t) :
    argb = (Hct.fromHct (f.palette s).hue (f.palette s).chroma t).toInt := by
  obtain ⟨fuel, t', ht', rfl⟩ := drawn_inv rounds s (unread_made s hs) r argb h
  have := getTone_unique _ s (registry_mono (F := F) rounds s) ht' ht
  subst this
  have e : (registry rounds r).palette s = f.palette s := by
    cases f <;> simp only [Family.roles, List.mem_cons, List.not_mem_nil, or_false] at hr
    · rcases hr with rfl | rfl | rfl | rfl | rfl | rfl | rfl | rfl | rfl | rfl | rfl <;> rfl
    · rcases hr with rfl | rfl | rfl | rfl | rfl | rfl | rfl | rfl | rfl <;> rfl
    · rcases hr with rfl | rfl | rfl | rfl | rfl | rfl | rfl | rfl | rfl <;> rfl
    · rcases hr with rfl | rfl | rfl | rfl <;> rfl
    · rcases hr with rfl | rfl | rfl | rfl | rfl | rfl | rfl | rfl | rfl | rfl | rfl | rfl | rfl | rfl | rfl | rfl <;> rfl
    · rcases hr with rfl | rfl | rfl | rfl | rfl <;> rfl
  rw [e]

/-- C82: two roles of one family that have the same tone are drawn with the same colour; for any number type. -/
theorem c82_same_tone {F : Type} [Fl F] (s : DynamicScheme F) (hs : Made s ∨ Assembled s) (rounds m n : Nat) (f : Family) (a b : Role)
    (ha : a ∈ f.roles) (hb : b ∈ f.roles) (ca cb : Int) (t : F) (h1 : Drawn rounds s a ca) (h2 : Drawn rounds s b cb)
    (ht1 : getTone (registry rounds) s m a = some t) (ht2 : getTone (registry rounds) s n b = some t) : ca = cb := by
  rw [c82_drawn s hs rounds m f a ha ca t h1 ht1, c82_drawn s hs rounds n f b hb cb t h2 ht2]

end Mcu.Props
