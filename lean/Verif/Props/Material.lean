import Verif.Lemmas.Material
import Verif.Props.DynamicCache

/-! Properties C56, C57 and C59: the tones of the Material roles. -/

namespace Mcu.Props

open DynamicColor Material Lemmas Spec

/-! ## C56 -/

section
variable {F : Type} [Fl F]

/-- The search for the secondary container's tone ends within `rounds` rounds; only the fidelity and content variants
do this search. -/
def SearchEnds (rounds : Nat) (s : DynamicScheme F) : Prop :=
  s.variant = .fidelity ∨ s.variant = .content →
    (findDesiredChromaByTone rounds s.secondaryPalette.hue s.secondaryPalette.chroma
      (if s.isDark then 30.0 else 90.0) (!s.isDark)).isSome

/-- The roles that need the tone of the secondary container. -/
def NeedsSearch (r : Role) : Prop :=
  r = .secondary ∨ r = .secondaryContainer ∨ r = .onSecondary ∨ r = .onSecondaryContainer

instance (r : Role) : Decidable (NeedsSearch r) :=
  inferInstanceAs (Decidable (_ ∨ _ ∨ _ ∨ _))

/-- Surfaces 0, what is drawn on them 1, what is drawn on those 2. -/
def rank : Role → Nat
  | .onBackground | .onSurface | .onSurfaceVariant | .inverseOnSurface | .inversePrimary | .outline | .outlineVariant
  | .primary | .primaryContainer | .secondary | .secondaryContainer | .tertiary | .tertiaryContainer
  | .error | .errorContainer | .primaryFixed | .primaryFixedDim | .secondaryFixed | .secondaryFixedDim
  | .tertiaryFixed | .tertiaryFixedDim => 1
  | .onPrimary | .onPrimaryContainer | .onSecondary | .onSecondaryContainer | .onTertiary | .onTertiaryContainer
  | .onError | .onErrorContainer | .onPrimaryFixed | .onPrimaryFixedVariant | .onSecondaryFixed
  | .onSecondaryFixedVariant | .onTertiaryFixed | .onTertiaryFixedVariant => 2
  | _ => 0

theorem secondaryContainer_tone (rounds : Nat) (s : DynamicScheme F) (h : SearchEnds rounds s) (g : Role → Option F) :
    ((secondaryContainer rounds).tone s g).isSome := by
  simp only [secondaryContainer]
  by_cases h1 : isMonochrome s = true
  · rw [if_pos h1]; rfl
  · rw [if_neg h1]
    by_cases h2 : (!isFidelity s) = true
    · rw [if_pos h2]; rfl
    · rw [if_neg h2]
      have hv : s.variant = .fidelity ∨ s.variant = .content := by
        simp [isFidelity] at h2; tauto
      have := h hv
      cases hd : s.isDark <;> rw [hd] at this <;> exact this

omit [Fl F] in
theorem highestSurface_below (s : DynamicScheme F) (P : Role → Prop) (h1 : P .surfaceBright) (h2 : P .surfaceDim) :
    P (highestSurface s) ∧ rank (highestSurface s) < 1 := by
  unfold highestSurface
  split
  · exact ⟨h1, by decide⟩
  · exact ⟨h2, by decide⟩

theorem evaluable (rounds : Nat) (s : DynamicScheme F) (r : Role) (hr : NeedsSearch r → SearchEnds rounds s) :
    Evaluable (registry rounds) s rank (fun r => NeedsSearch r → SearchEnds rounds s) r := by
  have hs := highestSurface_below s (fun r => NeedsSearch r → SearchEnds rounds s)
    (fun h => absurd h (by decide)) (fun h => absurd h (by decide))
  have low {x q : Role} (h1 : ¬ NeedsSearch x) (h2 : rank x < rank q) :
      (NeedsSearch x → SearchEnds rounds s) ∧ rank x < rank q := ⟨fun h => absurd h h1, h2⟩
  cases r
  case secondaryContainer =>
    refine ⟨⟨_, rfl, hs⟩, ?_⟩
    rintro x (rfl | rfl)
    · exact ⟨rfl, fun g _ => secondaryContainer_tone rounds s (hr (by decide)) g⟩
    · exact ⟨rfl, fun g _ => rfl⟩
  case secondary =>
    refine ⟨⟨_, rfl, hs⟩, ?_⟩
    rintro x (rfl | rfl)
    · exact ⟨rfl, fun g _ => secondaryContainer_tone rounds s (hr (by decide)) g⟩
    · exact ⟨rfl, fun g _ => rfl⟩
  case onSecondary =>
    refine ⟨fun g _ => ?_, ?_⟩
    · simp only [registry, onSecondary]; split <;> rfl
    · intro b hb; cases hb
      exact ⟨⟨fun _ => hr (by decide), Nat.lt_succ_self _⟩, rfl, fun b2 hb2 => absurd (show none = some b2 from hb2) (fun h => nomatch h)⟩
  case onSecondaryContainer =>
    refine ⟨fun g hg => ?_, ?_⟩
    · simp only [registry, onSecondaryContainer]
      split
      · rfl
      · rw [Option.isSome_map]; exact hg _ ⟨fun _ => hr (by decide), Nat.lt_succ_self _⟩
    · intro b hb; cases hb
      exact ⟨⟨fun _ => hr (by decide), Nat.lt_succ_self _⟩, rfl, fun b2 hb2 => absurd (show none = some b2 from hb2) (fun h => nomatch h)⟩
  all_goals first
    | exact ⟨fun g _ => rfl, fun b hb => absurd (show none = some b from hb) (fun h => nomatch h)⟩
    | (refine ⟨fun g _ => rfl, fun b hb => ?_⟩
       cases hb
       refine ⟨?_, rfl, fun b2 hb2 => ?_⟩
       · first | exact hs | exact (low (of_decide_eq_false rfl) (Nat.lt_succ_self _))
       · cases hb2 <;> exact (low (of_decide_eq_false rfl) (Nat.lt_succ_self _)))
    | (refine ⟨⟨_, rfl, hs⟩, ?_⟩
       rintro x (rfl | rfl)
       · exact ⟨rfl, fun g _ => by
           first | rfl | (simp only [registry, primary, primaryContainer, tertiary, tertiaryContainer]; (repeat' split) <;> rfl)⟩
       · exact ⟨rfl, fun g _ => by
           first | rfl | (simp only [registry, primary, primaryContainer, tertiary, tertiaryContainer]; (repeat' split) <;> rfl)⟩)
    | (refine ⟨fun g hg => ?_, fun b hb => ?_⟩
       · have hp : (g .primaryContainer).isSome ∨ True := Or.inr trivial
         simp only [registry, onPrimary, onTertiary, onPrimaryContainer, onTertiaryContainer]
         (repeat' split) <;> first
           | rfl
           | (rw [Option.isSome_map]; exact hg _ (low (of_decide_eq_false rfl) (Nat.lt_succ_self _)))
       · cases hb
         exact ⟨(low (of_decide_eq_false rfl) (Nat.lt_succ_self _)), rfl, fun b2 hb2 => absurd (show none = some b2 from hb2) (fun h => nomatch h)⟩)

/-- C56: for every scheme and every role the tone is found with at most three nested calls, without a panic, provided
the search for the secondary container's tone ends; and it does not depend on how many calls are allowed.  For any
number type. -/
theorem c56_total (rounds : Nat) (s : DynamicScheme F) (r : Role) (h : NeedsSearch r → SearchEnds rounds s) :
    ∃ t, ∀ fuel, 3 ≤ fuel → getTone (registry rounds) s fuel r = some t := by
  have h3 : rank r < 3 := by cases r <;> decide
  obtain ⟨t, ht⟩ := Option.isSome_iff_exists.1
    (getTone_total (registry rounds) s rank _ (evaluable rounds s) 3 r h h3)
  exact ⟨t, fun fuel hf => getTone_mono _ s (registry_mono rounds s) hf r t ht⟩

/-- C56: all roles except the secondary and its container with their text always have a tone; with a variant other
than fidelity and content, these have one too. -/
theorem c56_total_without_search (s : DynamicScheme F) (r : Role)
    (h : ¬ NeedsSearch r ∨ (s.variant ≠ .fidelity ∧ s.variant ≠ .content)) :
    ∃ t, ∀ rounds fuel, 3 ≤ fuel → getTone (registry rounds) s fuel r = some t := by
  have hs (rounds : Nat) : NeedsSearch r → SearchEnds rounds s := by
    intro hr hv
    rcases h with h | h
    · exact absurd hr h
    · exact absurd hv (not_or.2 h)
  obtain ⟨t, ht⟩ := c56_total 0 s r (hs 0)
  refine ⟨t, fun rounds fuel hf => ?_⟩
  exact getTone_extends (registry_extends (Nat.zero_le rounds) s) fuel r t (ht fuel hf)

/-- C56: the colours a role is drawn on have a lower rank, so no chain of backgrounds ever comes back. -/
theorem c56_acyclic : ∃ rank : Role → Nat, (∀ r, rank r ≤ 2) ∧ ∀ (rounds : Nat) (s : DynamicScheme F) (r : Role)
    (b : DynamicScheme F → Role), ((registry rounds r).background = some b ∨ (registry rounds r).secondBackground = some b) →
    rank (b s) < rank r := by
  have hs (s : DynamicScheme F) := (highestSurface_below s (fun _ => True) trivial trivial).2
  refine ⟨rank, fun r => by cases r <;> decide, fun rounds s r b h => ?_⟩
  cases r <;> rcases h with h | h <;> first
    | exact absurd (show none = some b from h) (fun h => nomatch h)
    | (cases h; first | exact Nat.lt_succ_self _ | exact hs s)

end

/-- C56: over the reals the search ends in every light scheme. -/
theorem c56_search_ends_light (s : DynamicScheme ℝ) (h : s.isDark = false) (rounds : Nat) (hr : 91 ≤ rounds) :
    SearchEnds rounds s := by
  have e90 : (90.0 : ℝ) = 90 := by norm_num
  have hl : 0 < (Hct.fromHct s.secondaryPalette.hue s.secondaryPalette.chroma 90).getTone := by
    have := abs_le.1 (c26_tone s.secondaryPalette.hue s.secondaryPalette.chroma 90 (by norm_num) (by norm_num))
    have e : (Hct.fromHct s.secondaryPalette.hue s.secondaryPalette.chroma 90).getTone =
      (ColorUtils.lstarFromArgb (HctSolver.solveToInt s.secondaryPalette.hue s.secondaryPalette.chroma (90 : ℝ)) : ℝ) := rfl
    rw [e]
    norm_num at this
    linarith [this.1]
  intro _
  obtain ⟨t, ht⟩ := Option.isSome_iff_exists.1 (search_down_ends _ _ hl)
  simp only [h, Bool.false_eq_true, if_false, Bool.not_false, e90]
  rw [search_mono hr _ _ _ _ t ht]; rfl

/-- C56 (partial): over the reals the search ends in a dark scheme if the palette reaches more chroma at tone 30 than
white has.  What is missing: dark schemes whose palette does not. -/
theorem c56_search_ends_partial (s : DynamicScheme ℝ)
    (hd : s.isDark = true → (Hct.fromInt 0xFFFFFFFF : Hct ℝ).getChroma <
      (Hct.fromHct s.secondaryPalette.hue s.secondaryPalette.chroma 30).getChroma)
    (rounds : Nat) (hr : 91 ≤ rounds) : SearchEnds rounds s := by
  have e30 : (30.0 : ℝ) = 30 := by norm_num
  cases h : s.isDark
  · exact c56_search_ends_light s h rounds hr
  · intro _
    obtain ⟨t, ht⟩ := Option.isSome_iff_exists.1 (search_up_ends _ _ (hd h))
    simp only [h, if_true, Bool.not_true, e30]
    rw [search_mono (show 71 ≤ rounds by omega) _ _ _ _ t ht]; rfl

/-- C56: every role of every light scheme has a tone (over the reals). -/
theorem c56_total_light (s : DynamicScheme ℝ) (h : s.isDark = false) (r : Role) (rounds : Nat) (hr : 91 ≤ rounds) :
    ∃ t, ∀ fuel, 3 ≤ fuel → getTone (registry rounds) s fuel r = some t :=
  c56_total rounds s r (fun _ => c56_search_ends_light s h rounds hr)

example : (Schemes.tonalSpot (Hct.fromInt 0xFF4285F4 : Hct ℝ) false 0).isDark = false := rfl

/-- Roles that need no search have tones in a scheme of every variant. -/
example : ∃ t : ℝ, ∀ rounds fuel, 3 ≤ fuel →
    getTone (registry rounds) (Schemes.tonalSpot (Hct.fromInt 0xFF4285F4) true 0.5) fuel .onSecondaryContainer = some t :=
  c56_total_without_search _ _ (Or.inr (by constructor <;> (intro h; cases h)))

/-! ## C57 -/

/-- C57: the tone of every role in every scheme is from 0 to 100, if those of the source colour and of the palettes'
key colours are. -/
theorem c57_range (s : DynamicScheme ℝ) (hs : TonesInRange s) (rounds fuel : Nat) (r : Role) (t : ℝ)
    (h : getTone (registry rounds) s fuel r = some t) : 0 ≤ t ∧ t ≤ 100 := by
  refine getTone_range (registry rounds) s (fun r g _ v hv => registry_range rounds s hs r g v hv)
    (fun r p hp => ?_) fuel r t h
  rw [registry_delta rounds s r p hp]; norm_num

/-- The key colour of a palette is a colour object as the library makes them. -/
def KeyMade (p : TonalPalette ℝ) : Prop := ∃ n, p.keyColor = Hct.fromInt n

theorem keyMade_of (hue chroma : ℝ) : KeyMade (TonalPalette.of hue chroma) := by
  obtain ⟨_, _, t, _, h, _⟩ := c36_key_color hue chroma
  exact ⟨_, h⟩

theorem KeyMade.tone {p : TonalPalette ℝ} (h : KeyMade p) : 0 ≤ p.keyColor.getTone ∧ p.keyColor.getTone ≤ 100 := by
  obtain ⟨n, hn⟩ := h
  rw [hn]; exact c15_range n

theorem tonesInRange_new (argb : Int) (v : Variant) (c : Option ℝ) (d : Bool) (p1 p2 p3 p4 p5 : TonalPalette ℝ)
    (h1 : KeyMade p1) (h2 : KeyMade p2) (h3 : KeyMade p3) (h4 : KeyMade p4) (h5 : KeyMade p5) :
    TonesInRange (DynamicScheme.new argb v c d p1 p2 p3 p4 p5) :=
  ⟨c15_range argb, h1.tone, h2.tone, h3.tone, h4.tone, h5.tone⟩

theorem tonesInRange_assembled (s : DynamicScheme ℝ) (h : Assembled s) : TonesInRange s := by
  obtain ⟨argb, v, c, d, h1, c1, h2, c2, h3, c3, h4, c4, h5, c5, rfl⟩ := h
  exact tonesInRange_new _ _ _ _ _ _ _ _ _ (keyMade_of _ _) (keyMade_of _ _) (keyMade_of _ _) (keyMade_of _ _) (keyMade_of _ _)

theorem keyMade_fixed (t : Hct ℝ) (h : t = Hct.fromInt t.toInt) : KeyMade (TonalPalette.fromHct (Dislike.fixIfDisliked t)) := by
  obtain ⟨n, hn⟩ := fixIfDisliked_fromInt t.toInt
  rw [← h] at hn
  exact ⟨n, hn⟩

theorem analogous_fromInt {argb : Int} {l : List (Hct ℝ)} {t : Hct ℝ}
    (he : TemperatureSpec.onFresh (Hct.fromInt argb : Hct ℝ) (TemperatureCache.analogous (some 3) (some 6)) = some l)
    (ht : l.getLast? = some t) : t = Hct.fromInt t.toInt := by
  have hiff := c42_analogous_panics_iff argb (some 3) (some 6) (by simp) (by simp)
  rcases lt_or_ge (Hct.fromInt argb : Hct ℝ).getHue 359.5 with hlt | hge
  · obtain ⟨offs, out, he', -, -, -, -, hlen, -, hk⟩ := c41_analogous argb hlt (some 3) (some 6) (by simp) (by simp)
    have hlen3 : out.length = 3 := by
      have : max 1 ((some (3 : Int)).getD 5) = 3 := by decide
      rw [this] at hlen; exact_mod_cast hlen
    rw [he', Option.some.injEq] at he
    subst he
    match out, hlen3 with
    | [a, b, u], _ =>
      simp only [List.getLast?_cons_cons, List.getLast?_singleton, Option.some.injEq] at ht
      subst ht
      obtain ⟨o, -, ho⟩ := Option.map_eq_some_iff.1 (hk 2 (by simp) (by decide)).symm
      have e : u = Hct.fromHct _ _ _ := ho.symm
      rw [e]; rfl
  · rw [hiff.2 hge] at he; cases he

theorem tonesInRange_made (s : DynamicScheme ℝ) (h : Made s) : TonesInRange s := by
  obtain ⟨v, argb, d, c, h⟩ := h
  cases v
  case content =>
    simp only [make, Schemes.content, Option.bind_eq_bind, Option.bind_eq_some_iff] at h
    obtain ⟨l, hl, t, ht, h⟩ := h
    cases h
    exact tonesInRange_new _ _ _ _ _ _ _ _ _ (keyMade_of _ _) (keyMade_of _ _)
      (keyMade_fixed t (analogous_fromInt hl ht)) (keyMade_of _ _) (keyMade_of _ _)
  case fidelity =>
    simp only [make, Schemes.fidelity, Option.bind_eq_bind, Option.bind_eq_some_iff] at h
    obtain ⟨t, ht, h⟩ := h
    cases h
    exact tonesInRange_new _ _ _ _ _ _ _ _ _ (keyMade_of _ _) (keyMade_of _ _)
      (keyMade_fixed t (complement_fromInt ht)) (keyMade_of _ _) (keyMade_of _ _)
  case vibrant =>
    simp only [make, Schemes.vibrant, Option.bind_eq_bind, Option.bind_eq_some_iff] at h
    obtain ⟨_, _, _, _, h⟩ := h
    cases h
    exact tonesInRange_new _ _ _ _ _ _ _ _ _ (keyMade_of _ _) (keyMade_of _ _) (keyMade_of _ _) (keyMade_of _ _) (keyMade_of _ _)
  case expressive =>
    simp only [make, Schemes.expressive, Option.bind_eq_bind, Option.bind_eq_some_iff] at h
    obtain ⟨_, _, _, _, h⟩ := h
    cases h
    exact tonesInRange_new _ _ _ _ _ _ _ _ _ (keyMade_of _ _) (keyMade_of _ _) (keyMade_of _ _) (keyMade_of _ _) (keyMade_of _ _)
  all_goals
    cases h
    exact tonesInRange_new _ _ _ _ _ _ _ _ _ (keyMade_of _ _) (keyMade_of _ _) (keyMade_of _ _) (keyMade_of _ _) (keyMade_of _ _)

/-- C57: so every role of every scheme the library makes, and of every scheme assembled from palettes given by hue
and chroma, has a tone from 0 to 100 whenever it has one. -/
theorem c57_made (s : DynamicScheme ℝ) (hs : Made s ∨ Assembled s) (rounds fuel : Nat) (r : Role) (t : ℝ)
    (h : getTone (registry rounds) s fuel r = some t) : 0 ≤ t ∧ t ≤ 100 :=
  c57_range s (hs.elim (tonesInRange_made s) (tonesInRange_assembled s)) rounds fuel r t h

/-! ## C59 -/

/-- The tones of two roles that declare a tone delta pair of distance 10. -/
theorem material_pair (s : DynamicScheme ℝ) (hs : TonesInRange s) (rounds : Nat) (p : ToneDeltaPair Role ℝ)
    (hp : Paired (registry rounds) s p) (hd : p.delta = 10) (m n : Nat) (a b : ℝ)
    (ha : getTone (registry rounds) s m p.roleA = some a) (hb : getTone (registry rounds) s n p.roleB = some b) :
    Apart p.polarity s.isDark 10 a b ∧ ¬ Awkward a ∧ ¬ Awkward b := by
  have hm := registry_mono (F := ℝ) rounds s
  have ha := getTone_mono _ s hm (show m ≤ max m n + 1 by omega) _ _ ha
  have hb := getTone_mono _ s hm (show n ≤ max m n + 1 by omega) _ _ hb
  rw [← hd]
  exact c55_distance (registry rounds) s p hp (by rw [hd]; norm_num) (max m n) a b
    (fun t ht => registry_range rounds s hs _ _ t ht) (fun t ht => registry_range rounds s hs _ _ t ht) ha hb

theorem registry_paired (rounds : Nat) (s : DynamicScheme ℝ) (x : Role) (f : DynamicScheme ℝ → ToneDeltaPair Role ℝ)
    (h : (registry rounds x).toneDeltaPair = some f) : Paired (registry rounds) s (f s) := by
  cases x <;> first
    | exact absurd (show none = some f from h) (fun h => nomatch h)
    | (cases h
       exact ⟨rfl, rfl, rfl, of_decide_eq_false rfl⟩)

/-- The accent roles with their containers. -/
def accents : List (Role × Role) :=
  [(.primary, .primaryContainer), (.secondary, .secondaryContainer), (.tertiary, .tertiaryContainer),
   (.error, .errorContainer)]

/-- The fixed roles with their dimmed versions. -/
def fixedPairs : List (Role × Role) :=
  [(.primaryFixed, .primaryFixedDim), (.secondaryFixed, .secondaryFixedDim), (.tertiaryFixed, .tertiaryFixedDim)]

/-- C59: in every scheme with every contrast level, an accent role and its container are at least 10 tones apart, the
accent being the lighter one in dark and the darker one in light schemes, and neither tone lies in [50, 60). -/
theorem c59_accents (s : DynamicScheme ℝ) (hs : TonesInRange s) (x c : Role) (hx : (x, c) ∈ accents)
    (rounds m n : Nat) (tx tc : ℝ) (h1 : getTone (registry rounds) s m x = some tx)
    (h2 : getTone (registry rounds) s n c = some tc) :
    (if s.isDark then tc + 10 ≤ tx else tx + 10 ≤ tc) ∧ ¬ Awkward tx ∧ ¬ Awkward tc := by
  have main (p : ToneDeltaPair Role ℝ) (hp : Paired (registry rounds) s p) (hd : p.delta = 10) (h0 : p.polarity = .nearer)
      (ea : p.roleA = c) (eb : p.roleB = x) :
      (if s.isDark then tc + 10 ≤ tx else tx + 10 ≤ tc) ∧ ¬ Awkward tx ∧ ¬ Awkward tc := by
    have := material_pair s hs rounds p hp hd n m tc tx (by rw [ea]; exact h2) (by rw [eb]; exact h1)
    rw [h0] at this
    cases hk : s.isDark <;> rw [hk] at this
    · exact ⟨this.1, this.2.2, this.2.1⟩
    · exact ⟨this.1, this.2.2, this.2.1⟩
  simp only [accents, List.mem_cons, Prod.mk.injEq, List.not_mem_nil, or_false] at hx
  rcases hx with ⟨rfl, rfl⟩ | ⟨rfl, rfl⟩ | ⟨rfl, rfl⟩ | ⟨rfl, rfl⟩
  · exact main _ (registry_paired rounds s .primary _ rfl) (registry_delta rounds s .primary _ rfl) rfl rfl rfl
  · exact main _ (registry_paired rounds s .secondary _ rfl) (registry_delta rounds s .secondary _ rfl) rfl rfl rfl
  · exact main _ (registry_paired rounds s .tertiary _ rfl) (registry_delta rounds s .tertiary _ rfl) rfl rfl rfl
  · exact main _ (registry_paired rounds s .error _ rfl) (registry_delta rounds s .error _ rfl) rfl rfl rfl

/-- C59: in every scheme with every contrast level, a fixed role is at least 10 tones lighter than its dimmed version,
and neither tone lies in [50, 60). -/
theorem c59_fixed (s : DynamicScheme ℝ) (hs : TonesInRange s) (x d : Role) (hx : (x, d) ∈ fixedPairs)
    (rounds m n : Nat) (tx td : ℝ) (h1 : getTone (registry rounds) s m x = some tx)
    (h2 : getTone (registry rounds) s n d = some td) : td + 10 ≤ tx ∧ ¬ Awkward tx ∧ ¬ Awkward td := by
  have main (p : ToneDeltaPair Role ℝ) (hp : Paired (registry rounds) s p) (hd : p.delta = 10) (h0 : p.polarity = .lighter)
      (ea : p.roleA = x) (eb : p.roleB = d) : td + 10 ≤ tx ∧ ¬ Awkward tx ∧ ¬ Awkward td := by
    have := material_pair s hs rounds p hp hd m n tx td (by rw [ea]; exact h1) (by rw [eb]; exact h2)
    rw [h0] at this
    cases hk : s.isDark <;> rw [hk] at this <;> exact this
  simp only [fixedPairs, List.mem_cons, Prod.mk.injEq, List.not_mem_nil, or_false] at hx
  rcases hx with ⟨rfl, rfl⟩ | ⟨rfl, rfl⟩ | ⟨rfl, rfl⟩
  · exact main _ (registry_paired rounds s .primaryFixed _ rfl) (registry_delta rounds s .primaryFixed _ rfl) rfl rfl rfl
  · exact main _ (registry_paired rounds s .secondaryFixed _ rfl) (registry_delta rounds s .secondaryFixed _ rfl) rfl rfl rfl
  · exact main _ (registry_paired rounds s .tertiaryFixed _ rfl) (registry_delta rounds s .tertiaryFixed _ rfl) rfl rfl rfl

/-- The Material pairs meet the hypotheses of C55 and C59. -/
example : ∃ (s : DynamicScheme ℝ) (a b : ℝ), TonesInRange s ∧
    getTone (registry 0) s 3 .primary = some a ∧ getTone (registry 0) s 3 .primaryContainer = some b := by
  have hm : Made (Schemes.tonalSpot (Hct.fromInt 0xFF4285F4) true (0.5 : ℝ)) := ⟨.tonalSpot, _, _, _, rfl⟩
  obtain ⟨a, ha⟩ := c56_total_without_search (Schemes.tonalSpot (Hct.fromInt 0xFF4285F4) true (0.5 : ℝ)) .primary (Or.inl (by decide))
  obtain ⟨b, hb⟩ := c56_total_without_search (Schemes.tonalSpot (Hct.fromInt 0xFF4285F4) true (0.5 : ℝ)) .primaryContainer (Or.inl (by decide))
  exact ⟨_, a, b, tonesInRange_made _ hm, ha 0 3 le_rfl, hb 0 3 le_rfl⟩

end Mcu.Props
