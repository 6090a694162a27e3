import Verif.Lemmas.Readable
import Verif.Props.Material

/-! Property C58: text roles are readable on their surfaces. -/

namespace Mcu.Props

open DynamicColor Material Lemmas Spec Contrast ColorUtils

/-! ### The tones of the surfaces -/

theorem curve_eq (a b c d l : ℝ) : (curve a b c d).get l =
    a + (b - a) * unit (l + 1) + (c - b) * unit (2 * l) + (d - c) * unit (2 * l - 1) := c22_spec _ _

theorem unit_range (t : ℝ) : 0 ≤ unit t ∧ unit t ≤ 1 :=
  ⟨le_max_left _ _, max_le (by norm_num) (min_le_left _ _)⟩

/-- The surfaces that text may be drawn on. -/
def surfaces : List Role :=
  [.background, .surface, .surfaceDim, .surfaceBright, .surfaceContainerLowest, .surfaceContainerLow,
   .surfaceContainer, .surfaceContainerHigh, .surfaceContainerHighest]

/-- The tone of the surface with the least contrast to text. -/
noncomputable def topTone (s : DynamicScheme ℝ) : ℝ :=
  if s.isDark then 24 + 5 * unit (2 * s.contrastLevel) + 5 * unit (2 * s.contrastLevel - 1)
  else 87 - 7 * unit (2 * s.contrastLevel) - 5 * unit (2 * s.contrastLevel - 1)

theorem topTone_range (s : DynamicScheme ℝ) :
    (s.isDark = true → 24 ≤ topTone s ∧ topTone s ≤ 34) ∧ (s.isDark = false → 75 ≤ topTone s ∧ topTone s ≤ 87) := by
  have u2 := unit_range (2 * s.contrastLevel)
  have u3 := unit_range (2 * s.contrastLevel - 1)
  constructor <;> intro h <;> simp only [topTone, h, if_true, Bool.false_eq_true, if_false] <;>
    constructor <;> linarith

theorem highest_tone (s : DynamicScheme ℝ) (rounds n : Nat) (t : ℝ)
    (h : getTone (registry rounds) s n (highestSurface s) = some t) : t = topTone s := by
  cases hd : s.isDark
  · have e : highestSurface s = .surfaceDim := by simp [highestSurface, hd]
    rw [e] at h
    replace h := (plain_inv (registry rounds) s _ n t rfl rfl h).choose_spec.2
    simp only [registry, surfaceDim, hd, Bool.false_eq_true, if_false, Option.some.injEq] at h
    rw [← h, curve_eq]
    simp only [topTone, hd, Bool.false_eq_true, if_false]
    norm_num
    ring
  · have e : highestSurface s = .surfaceBright := by simp [highestSurface, hd]
    rw [e] at h
    replace h := (plain_inv (registry rounds) s _ n t rfl rfl h).choose_spec.2
    simp only [registry, surfaceBright, hd, if_true, Option.some.injEq] at h
    rw [← h, curve_eq]
    simp only [topTone, hd, if_true]
    norm_num

theorem surface_tone (s : DynamicScheme ℝ) (b : Role) (hb : b ∈ surfaces) (rounds n : Nat) (t : ℝ)
    (h : getTone (registry rounds) s n b = some t) :
    (s.isDark = true → 0 ≤ t ∧ t ≤ topTone s) ∧ (s.isDark = false → topTone s ≤ t ∧ t ≤ 100) := by
  have u2 := unit_range (2 * s.contrastLevel)
  have u3 := unit_range (2 * s.contrastLevel - 1)
  simp only [surfaces, List.mem_cons, List.not_mem_nil, or_false] at hb
  constructor <;> intro hd <;> simp only [topTone, hd, if_true, Bool.false_eq_true, if_false] <;>
    (rcases hb with rfl | rfl | rfl | rfl | rfl | rfl | rfl | rfl | rfl <;>
      (replace h := (plain_inv (registry rounds) s _ n t rfl rfl h).choose_spec.2
       simp only [registry, Material.background, surface, surfaceDim, surfaceBright, surfaceContainerLowest, surfaceContainerLow,
         surfaceContainer, surfaceContainerHigh, surfaceContainerHighest, hd, if_true, Bool.false_eq_true, if_false,
         Option.some.injEq, curve_eq] at h
       rw [← h]
       constructor <;> norm_num <;> linarith))

/-! ### Text on one background -/

/-- Roles that are drawn on the accent roles, and on the inverse surface. -/
def onAccents : List (Role × Role) :=
  [(.onPrimary, .primary), (.onPrimaryContainer, .primaryContainer),
   (.onSecondary, .secondary), (.onSecondaryContainer, .secondaryContainer),
   (.onTertiary, .tertiary), (.onTertiaryContainer, .tertiaryContainer),
   (.onError, .error), (.onErrorContainer, .errorContainer), (.inverseOnSurface, .inverseSurface)]

theorem strong_curve (c : ℝ) : 4.5 ≤ (curve (4.5 : ℝ) 7.0 11.0 21.0).get c :=
  (curve_range _ _ _ _ c 4.5 21 (by norm_num) (by norm_num)).1

theorem weak_curve (c : ℝ) : 3 ≤ (curve (3.0 : ℝ) 4.5 7.0 11.0).get c ∧
    (0 ≤ c → 4.5 ≤ (curve (3.0 : ℝ) 4.5 7.0 11.0).get c) := by
  refine ⟨(curve_range _ _ _ _ c 3 11 (by norm_num) (by norm_num)).1, fun hc => ?_⟩
  rw [curve_eq, unit_of_ge (by linarith)]
  have u2 := unit_range (2 * c)
  have u3 := unit_range (2 * c - 1)
  norm_num
  linarith

/-- C58: in every scheme, dark or light, with every contrast level, the text on an accent role or its container and
on the inverse surface has a contrast of at least 4.5. -/
theorem c58_accents (s : DynamicScheme ℝ) (hs : TonesInRange s) (x b : Role) (hx : (x, b) ∈ onAccents)
    (rounds m n : Nat) (tx tb : ℝ) (h1 : getTone (registry rounds) s m x = some tx)
    (h2 : getTone (registry rounds) s n b = some tb) : 4.5 ≤ ratioOfTones tx tb := by
  have hr := c57_range s hs rounds n b tb h2
  have hm := registry_mono (F := ℝ) rounds s
  have main (h0 : (registry (F := ℝ) rounds x).toneDeltaPair = none)
      (hb : (registry (F := ℝ) rounds x).background = some (fun _ => b))
      (hb2 : (registry (F := ℝ) rounds x).secondBackground = none)
      (hk : (registry (F := ℝ) rounds x).contrastCurve = some (curve 4.5 7.0 11.0 21.0))
      (hbg : (registry (F := ℝ) rounds x).isBackground = false) : 4.5 ≤ ratioOfTones tx tb := by
    obtain ⟨m', b', i, rfl, hb', -, rfl⟩ := single_inv (registry rounds) s x m tx _ _ h0 hb hb2 hk hbg h1
    have := getTone_unique _ s hm hb' h2
    subst this
    exact adjusted_ge _ hr.1 hr.2 (by norm_num) (strong_curve _)
  simp only [onAccents, List.mem_cons, Prod.mk.injEq, List.not_mem_nil, or_false] at hx
  rcases hx with ⟨rfl, rfl⟩ | ⟨rfl, rfl⟩ | ⟨rfl, rfl⟩ | ⟨rfl, rfl⟩ | ⟨rfl, rfl⟩ | ⟨rfl, rfl⟩ | ⟨rfl, rfl⟩ |
    ⟨rfl, rfl⟩ | ⟨rfl, rfl⟩ <;> exact main rfl rfl rfl rfl rfl

/-- C58: text on the background has a contrast of at least 4.5, and of at least 3 with a negative contrast level. -/
theorem c58_background (s : DynamicScheme ℝ) (rounds m n : Nat) (tx tb : ℝ)
    (h1 : getTone (registry rounds) s m .onBackground = some tx)
    (h2 : getTone (registry rounds) s n .background = some tb) :
    (0 ≤ s.contrastLevel → 4.5 ≤ ratioOfTones tx tb) ∧ 3 ≤ ratioOfTones tx tb := by
  have hm := registry_mono (F := ℝ) rounds s
  have hk := curve_range (3.0 : ℝ) 3.0 4.5 7.0 s.contrastLevel 3 7 (by norm_num) (by norm_num)
  obtain ⟨m', b', i, rfl, hb', hi, rfl⟩ := single_inv (registry rounds) s .onBackground m tx _ _ rfl rfl rfl rfl rfl h1
  have := getTone_unique _ s hm hb' h2
  subst this
  replace h2 := (plain_inv (registry rounds) s _ n _ rfl rfl h2).choose_spec.2
  have hv : (b' = 6 ∧ i = 90) ∨ (b' = 98 ∧ i = 10) := by
    cases hd : s.isDark <;>
      simp only [registry, Material.background, onBackground, hd, if_true, Bool.false_eq_true, if_false, Option.some.injEq] at h2 hi
    · right; rw [← h2, ← hi]; norm_num
    · left; rw [← h2, ← hi]; norm_num
  have hb : 0 ≤ b' ∧ b' ≤ 100 := by rcases hv with ⟨rfl, -⟩ | ⟨rfl, -⟩ <;> norm_num
  refine ⟨fun hc => ?_, adjusted_ge _ hb.1 hb.2 (by norm_num) hk.1⟩
  have h7 : 7 ≤ ratioOfTones b' i := by
    rcases hv with ⟨rfl, rfl⟩ | ⟨rfl, rfl⟩
    · rw [c17_symm]
      refine ratio_ge (by norm_num) (by norm_num) (by norm_num) ?_
      have := y_le (show (6 : ℝ) ≤ 9 by norm_num) (by norm_num)
      rw [y_cube (show (8 : ℝ) < 90 by norm_num)]
      norm_num at this ⊢
      linarith
    · exact ratio_ge_cube (by norm_num) (by norm_num) (by norm_num) (by norm_num)
  rcases adjusted_cases (decide (s.contrastLevel < 0)) b' _ i with ⟨e, -⟩ | ⟨-, h | h⟩
  · rw [e, c17_symm]; norm_num at h7 ⊢; linarith
  · exact absurd (of_decide_eq_true h) (not_lt.2 hc)
  · exact absurd (lt_of_lt_of_le h hk.2) (not_lt.2 h7)

/-- C58: text on any surface has a contrast of at least 4.5 with every contrast level; the less prominent text has it
with contrast levels from 0, and 3 with negative ones. -/
theorem c58_surfaces (s : DynamicScheme ℝ) (b : Role) (hb : b ∈ surfaces) (rounds m m' n : Nat) (tx tv tb : ℝ)
    (h1 : getTone (registry rounds) s m .onSurface = some tx)
    (h1' : getTone (registry rounds) s m' .onSurfaceVariant = some tv)
    (h2 : getTone (registry rounds) s n b = some tb) :
    4.5 ≤ ratioOfTones tx tb ∧ (0 ≤ s.contrastLevel → 4.5 ≤ ratioOfTones tv tb) ∧ 3 ≤ ratioOfTones tv tb := by
  obtain ⟨k1, t1, i1, -, ht1, hi1, rfl⟩ := single_inv (registry rounds) s .onSurface m tx _ _ rfl rfl rfl rfl rfl h1
  obtain ⟨k2, t2, i2, -, ht2, hi2, rfl⟩ := single_inv (registry rounds) s .onSurfaceVariant m' tv _ _ rfl rfl rfl rfl rfl h1'
  have e1 := highest_tone s rounds _ _ ht1
  have e2 := highest_tone s rounds _ _ ht2
  rw [e1, e2]
  have hS := surface_tone s b hb rounds n tb h2
  have hT := topTone_range s
  have q1 := strong_curve s.contrastLevel
  have q2 := weak_curve s.contrastLevel
  cases hd : s.isDark
  · obtain ⟨a1, a2⟩ := hS.2 hd
    obtain ⟨a3, a4⟩ := hT.2 hd
    simp only [registry, onSurface, onSurfaceVariant, hd, Bool.false_eq_true, if_false, Option.some.injEq] at hi1 hi2
    subst hi1 hi2
    refine ⟨readable_light _ (by linarith) a2 a1 ?_ (by norm_num) q1 ?_,
      fun hc => readable_light _ (by linarith) a2 a1 ?_ (by norm_num) (q2.2 hc) ?_,
      readable_light _ (by linarith) a2 a1 ?_ (by norm_num) q2.1 ?_⟩ <;> norm_num at q1 q2 ⊢ <;> linarith
  · obtain ⟨a1, a2⟩ := hS.1 hd
    obtain ⟨a3, a4⟩ := hT.1 hd
    simp only [registry, onSurface, onSurfaceVariant, hd, if_true, Option.some.injEq] at hi1 hi2
    subst hi1 hi2
    refine ⟨readable_dark _ (by linarith) a1 a2 ?_ (by norm_num) q1 ?_,
      fun hc => readable_dark _ (by linarith) a1 a2 ?_ (by norm_num) (q2.2 hc) ?_,
      readable_dark _ (by linarith) a1 a2 ?_ (by norm_num) q2.1 ?_⟩ <;> norm_num at q1 q2 ⊢ <;> linarith

/-- C58: the text on the surface variant has a contrast of at least 4.5 with contrast levels from 0, and in a light
scheme at least 3 with negative ones. -/
theorem c58_surface_variant (s : DynamicScheme ℝ) (rounds m n : Nat) (tx tb : ℝ)
    (h1 : getTone (registry rounds) s m .onSurfaceVariant = some tx)
    (h2 : getTone (registry rounds) s n .surfaceVariant = some tb) :
    (0 ≤ s.contrastLevel → 4.5 ≤ ratioOfTones tx tb) ∧ (s.isDark = false → 3 ≤ ratioOfTones tx tb) := by
  obtain ⟨k1, t1, i1, -, ht1, hi1, rfl⟩ := single_inv (registry rounds) s .onSurfaceVariant m tx _ _ rfl rfl rfl rfl rfl h1
  have e1 := highest_tone s rounds _ _ ht1
  rw [e1]
  replace h2 := (plain_inv (registry rounds) s _ n _ rfl rfl h2).choose_spec.2
  have hT := topTone_range s
  have q2 := weak_curve s.contrastLevel
  cases hd : s.isDark
  · obtain ⟨a3, a4⟩ := hT.2 hd
    simp only [registry, onSurfaceVariant, surfaceVariant, hd, Bool.false_eq_true, if_false, Option.some.injEq] at hi1 h2
    subst hi1 h2
    refine ⟨fun hc => readable_light _ (by linarith) ?_ ?_ ?_ (by norm_num) (q2.2 hc) ?_,
      fun _ => readable_light _ (by linarith) ?_ ?_ ?_ (by norm_num) q2.1 ?_⟩ <;> norm_num at q2 ⊢ <;> linarith
  · obtain ⟨a3, a4⟩ := hT.1 hd
    simp only [registry, onSurfaceVariant, surfaceVariant, hd, if_true, Option.some.injEq] at hi1 h2
    subst hi1 h2
    refine ⟨fun hc => ?_, fun h => Bool.noConfusion h⟩
    have h80 : 80 ≤ adjusted (decide (s.contrastLevel < 0)) (topTone s)
        ((curve (3.0 : ℝ) 4.5 7.0 11.0).get s.contrastLevel) 80.0 := by
      rcases adjusted_cases (decide (s.contrastLevel < 0)) (topTone s) _ 80.0 with ⟨e, -⟩ | ⟨e, h | h⟩
      · rw [e]; norm_num
      · exact absurd (of_decide_eq_true h) (not_lt.2 hc)
      · rw [e]
        have := fg_light_past (by linarith) (by linarith) (by norm_num) h
        norm_num at this ⊢; exact this
    have e30 : (30.0 : ℝ) = 30 := by norm_num
    rw [e30]
    refine le_trans ?_ (c17_monotone 80 _ 30 30 (by norm_num) h80 le_rfl)
    exact ratio_ge_cube (by norm_num) (by norm_num) (by norm_num) (by norm_num)

/-! ### Text on the fixed roles -/

theorem fixed_sides (s : DynamicScheme ℝ) (x d : Role) (hx : (x, d) ∈ fixedPairs)
    (rounds m n : Nat) (tx td : ℝ) (h1 : getTone (registry rounds) s m x = some tx)
    (h2 : getTone (registry rounds) s n d = some td) : 60 ≤ td ∨ tx < 50 := by
  have hm := registry_mono (F := ℝ) rounds s
  have h1' := getTone_mono _ s hm (show m ≤ max m n + 1 by omega) _ _ h1
  have h2' := getTone_mono _ s hm (show n ≤ max m n + 1 by omega) _ _ h2
  have hk := curve_range (1.0 : ℝ) 1.0 3.0 4.5 s.contrastLevel 1 4.5 (by norm_num) (by norm_num)
  have hk3 : s.isDark = true → 30 < topTone s → 3 ≤ (curve (1.0 : ℝ) 1.0 3.0 4.5).get s.contrastLevel := by
    intro hd h
    simp only [topTone, hd, if_true] at h
    have u2 := unit_range (2 * s.contrastLevel)
    have u3 := unit_range (2 * s.contrastLevel - 1)
    have hpos : 0 < 2 * s.contrastLevel - 1 := by
      by_contra hc
      rw [unit_of_le (not_lt.1 hc)] at h
      linarith
    rw [curve_eq, unit_of_ge (show 1 ≤ 2 * s.contrastLevel by linarith)]
    norm_num
    linarith [u3.1]
  have hT := topTone_range s
  have main (p : ToneDeltaPair Role ℝ) (hp : Paired (registry rounds) s p) (hdl : p.delta = 10) (h0 : p.polarity = .lighter)
      (htog : p.stayTogether = true) (ea : p.roleA = x) (eb : p.roleB = d)
      (hb : (registry (F := ℝ) rounds x).background = some highestSurface)
      (hca : (registry (F := ℝ) rounds x).contrastCurve = some (curve 1.0 1.0 3.0 4.5))
      (hcb : (registry (F := ℝ) rounds d).contrastCurve = some (curve 1.0 1.0 3.0 4.5))
      (hi : ∀ g ia ib, (registry (F := ℝ) rounds x).tone s g = some ia → (registry (F := ℝ) rounds d).tone s g = some ib →
        FixedInitial ia ib) : 60 ≤ td ∨ tx < 50 := by
    obtain ⟨bg, na, nb, ia, ib, ia', ib', hbg, hna, hnb, p1, p2⟩ :=
      paired_tones (registry rounds) s p hp _ tx td (by rw [ea]; exact h1') (by rw [eb]; exact h2')
    rw [ea] at ia' hbg hna
    rw [eb] at ib' hnb
    have hI := hi _ _ _ ia' ib'
    rw [hb, Option.bind_some] at hbg
    have := highest_tone s rounds _ _ hbg
    subst this
    rw [hca, Option.map_some, Option.some.injEq] at hna
    rw [hcb, Option.map_some, Option.some.injEq] at hnb
    subst hna hnb
    rw [h0, hdl, htog] at p1 p2
    cases hd : s.isDark
    · have q := p1 (by rw [hd]; rfl)
      simp only [hd, Bool.false_eq_true, if_false] at q
      have := side_light (decide (s.contrastLevel < 0)) (hT.2 hd).1 (hT.2 hd).2 hk.1 hI
      simp only [← q] at this
      exact this.symm
    · have q := p2 (by rw [hd]; rfl)
      simp only [hd, if_true] at q
      have := side_dark (decide (s.contrastLevel < 0)) (by linarith [(hT.1 hd).1]) (hT.1 hd).2 (hk3 hd) hI
      simp only [← q] at this
      exact this
  simp only [fixedPairs, List.mem_cons, Prod.mk.injEq, List.not_mem_nil, or_false] at hx
  rcases hx with ⟨rfl, rfl⟩ | ⟨rfl, rfl⟩ | ⟨rfl, rfl⟩
  · refine main _ (registry_paired rounds s .primaryFixed _ rfl) (registry_delta rounds s .primaryFixed _ rfl) rfl rfl rfl rfl
      rfl rfl rfl fun g ia ib h h' => ?_
    simp only [registry, primaryFixed, primaryFixedDim, Option.some.injEq] at h h'
    rw [← h, ← h']
    cases isMonochrome s <;> simp only [if_true, Bool.false_eq_true, if_false, FixedInitial] <;> norm_num
  · refine main _ (registry_paired rounds s .secondaryFixed _ rfl) (registry_delta rounds s .secondaryFixed _ rfl) rfl rfl rfl rfl
      rfl rfl rfl fun g ia ib h h' => ?_
    simp only [registry, secondaryFixed, secondaryFixedDim, Option.some.injEq] at h h'
    rw [← h, ← h']
    cases isMonochrome s <;> simp only [if_true, Bool.false_eq_true, if_false, FixedInitial] <;> norm_num
  · refine main _ (registry_paired rounds s .tertiaryFixed _ rfl) (registry_delta rounds s .tertiaryFixed _ rfl) rfl rfl rfl rfl
      rfl rfl rfl fun g ia ib h h' => ?_
    simp only [registry, tertiaryFixed, tertiaryFixedDim, Option.some.injEq] at h h'
    rw [← h, ← h']
    cases isMonochrome s <;> simp only [if_true, Bool.false_eq_true, if_false, FixedInitial] <;> norm_num

/-- The fixed roles, their dimmed versions, and the two roles of text on both. -/
def onFixed : List (Role × Role × Role × Role) :=
  [(.primaryFixed, .primaryFixedDim, .onPrimaryFixed, .onPrimaryFixedVariant),
   (.secondaryFixed, .secondaryFixedDim, .onSecondaryFixed, .onSecondaryFixedVariant),
   (.tertiaryFixed, .tertiaryFixedDim, .onTertiaryFixed, .onTertiaryFixedVariant)]

/-- C58 (partial): text on a fixed role and on its dimmed version has a contrast of at least 4.48 with every contrast
level; the less prominent text has it with contrast levels from 0, and 3 with negative ones.  What is missing: 4.5
instead of 4.48; this is false, see `c58_fixed_violated`. -/
theorem c58_fixed_partial (s : DynamicScheme ℝ) (hs : TonesInRange s) (x d o v : Role) (hx : (x, d, o, v) ∈ onFixed)
    (rounds m n k l : Nat) (tx td tt tv : ℝ) (h1 : getTone (registry rounds) s m x = some tx)
    (h2 : getTone (registry rounds) s n d = some td) (h3 : getTone (registry rounds) s k o = some tt)
    (h4 : getTone (registry rounds) s l v = some tv) :
    (4.48 ≤ ratioOfTones tt tx ∧ 4.48 ≤ ratioOfTones tt td) ∧
    (0 ≤ s.contrastLevel → 4.48 ≤ ratioOfTones tv tx ∧ 4.48 ≤ ratioOfTones tv td) ∧
    3 ≤ ratioOfTones tv tx ∧ 3 ≤ ratioOfTones tv td := by
  have hm := registry_mono (F := ℝ) rounds s
  have hp : (x, d) ∈ fixedPairs := by
    simp only [onFixed, List.mem_cons, Prod.mk.injEq, List.not_mem_nil, or_false] at hx
    rcases hx with ⟨rfl, rfl, -⟩ | ⟨rfl, rfl, -⟩ | ⟨rfl, rfl, -⟩ <;> simp [fixedPairs]
  have r1 := c57_range s hs rounds m x tx h1
  have r2 := c57_range s hs rounds n d td h2
  have hside := fixed_sides s x d hp rounds m n tx td h1 h2
  have hap := (c59_fixed s hs x d hp rounds m n tx td h1 h2).1
  have q1 := strong_curve s.contrastLevel
  have q2 := weak_curve s.contrastLevel
  have main (a1 : (registry (F := ℝ) rounds o).toneDeltaPair = none)
      (a2 : (registry (F := ℝ) rounds o).background = some (fun _ => d))
      (a3 : (registry (F := ℝ) rounds o).secondBackground = some (fun _ => x))
      (a4 : (registry (F := ℝ) rounds o).contrastCurve = some (curve 4.5 7.0 11.0 21.0))
      (a5 : (registry (F := ℝ) rounds o).isBackground = false)
      (b1 : (registry (F := ℝ) rounds v).toneDeltaPair = none)
      (b2 : (registry (F := ℝ) rounds v).background = some (fun _ => d))
      (b3 : (registry (F := ℝ) rounds v).secondBackground = some (fun _ => x))
      (b4 : (registry (F := ℝ) rounds v).contrastCurve = some (curve 3.0 4.5 7.0 11.0))
      (b5 : (registry (F := ℝ) rounds v).isBackground = false) :
      (4.48 ≤ ratioOfTones tt tx ∧ 4.48 ≤ ratioOfTones tt td) ∧
      (0 ≤ s.contrastLevel → 4.48 ≤ ratioOfTones tv tx ∧ 4.48 ≤ ratioOfTones tv td) ∧
      3 ≤ ratioOfTones tv tx ∧ 3 ≤ ratioOfTones tv td := by
    obtain ⟨_, y1, y2, i, -, hy1, hy2, -, rfl⟩ := dual_inv (registry rounds) s o k tt _ _ _ a1 a2 a3 a4 a5 h3
    obtain ⟨_, z1, z2, j, -, hz1, hz2, -, rfl⟩ := dual_inv (registry rounds) s v l tv _ _ _ b1 b2 b3 b4 b5 h4
    have := getTone_unique _ s hm hy1 h2; subst this
    have := getTone_unique _ s hm hy2 h1; subst this
    have := getTone_unique _ s hm hz1 hy1; subst this
    have := getTone_unique _ s hm hz2 hy2; subst this
    have one := dual_ge (a := adjusted (decide (s.contrastLevel < 0)) z1 ((curve (4.5 : ℝ) 7.0 11.0 21.0).get s.contrastLevel) i)
      (k := 4.48) r2.1 r1.2 hap hside le_rfl (le_trans (by norm_num) q1) (le_trans (by norm_num) q1)
    have two (hc : 0 ≤ s.contrastLevel) := dual_ge
      (a := adjusted (decide (s.contrastLevel < 0)) z1 ((curve (3.0 : ℝ) 4.5 7.0 11.0).get s.contrastLevel) j)
      (k := 4.48) r2.1 r1.2 hap hside le_rfl (le_trans (by norm_num) (q2.2 hc)) q2.1
    have three := dual_ge
      (a := adjusted (decide (s.contrastLevel < 0)) z1 ((curve (3.0 : ℝ) 4.5 7.0 11.0).get s.contrastLevel) j)
      (k := 3) r2.1 r1.2 hap hside (by norm_num) q2.1 q2.1
    exact ⟨⟨one.2, one.1⟩, fun hc => ⟨(two hc).2, (two hc).1⟩, three.2, three.1⟩
  simp only [onFixed, List.mem_cons, Prod.mk.injEq, List.not_mem_nil, or_false] at hx
  rcases hx with ⟨rfl, rfl, rfl, rfl⟩ | ⟨rfl, rfl, rfl, rfl⟩ | ⟨rfl, rfl, rfl, rfl⟩ <;>
    exact main rfl rfl rfl rfl rfl rfl rfl rfl rfl rfl

/-! ### Where the full statement fails -/

theorem lstar_between {y a b : ℝ} (ha : 8 < a) (hb : 8 < b) (h1 : 100 * ((a + 16) / 116) ^ 3 ≤ y)
    (h2 : y ≤ 100 * ((b + 16) / 116) ^ 3) : a ≤ lstarFromY y ∧ lstarFromY y ≤ b := by
  rw [← y_cube ha] at h1
  rw [← y_cube hb] at h2
  have l1 := c11_strictMono.2.monotone h1
  have l2 := c11_strictMono.2.monotone h2
  rw [c11_lstar_y_lstar] at l1 l2
  exact ⟨l1, l2⟩

theorem fg_24 : 54 ≤ foregroundTone (24 : ℝ) 3 ∧ foregroundTone (24 : ℝ) 3 ≤ 55 := by
  have he := lighter_eq 24 3 (by norm_num) (by norm_num) (by norm_num)
  have hb : 54 ≤ lstarFromY (3 * (yFromLstar (24 : ℝ) + 5) - 5) ∧ lstarFromY (3 * (yFromLstar (24 : ℝ) + 5) - 5) ≤ 54.6 := by
    rw [y_cube (show (8 : ℝ) < 24 by norm_num)]
    exact lstar_between (by norm_num) (by norm_num) (by norm_num) (by norm_num)
  generalize lstarFromY (3 * (yFromLstar (24 : ℝ) + 5) - 5) = l at he hb
  norm_num at hb
  have h04 : (0.4 : ℝ) = 2 / 5 := by norm_num
  rw [h04, if_neg (by linarith [hb.2])] at he
  rw [fg_light (by norm_num) (by norm_num) (by norm_num),
    (c20_decision 24 3).1 (by rw [he]; intro h; linarith [hb.1]), he]
  constructor <;> linarith [hb.1, hb.2]

theorem fg_421 : 49.95 ≤ foregroundTone (40553 / 500 : ℝ) (671 / 250) ∧
    foregroundTone (40553 / 500 : ℝ) (671 / 250) ≤ 49.99 := by
  have he := darker_eq (40553 / 500) (671 / 250) (by norm_num) (by norm_num) (by norm_num)
  have hb : 50.35 ≤ lstarFromY ((yFromLstar (40553 / 500 : ℝ) + 5) / (671 / 250) - 5) ∧
      lstarFromY ((yFromLstar (40553 / 500 : ℝ) + 5) / (671 / 250) - 5) ≤ 50.39 := by
    rw [y_cube (show (8 : ℝ) < 40553 / 500 by norm_num)]
    exact lstar_between (by norm_num) (by norm_num) (by norm_num) (by norm_num)
  generalize lstarFromY ((yFromLstar (40553 / 500 : ℝ) + 5) / (671 / 250) - 5) = l at he hb
  have h04 : (0.4 : ℝ) = 2 / 5 := by norm_num
  norm_num at hb
  rw [h04, if_neg (by linarith [hb.1])] at he
  rw [fg_dark (by norm_num) (by norm_num) (by norm_num),
    (c20_decision _ _).2.2.1 (by rw [he]; intro h; linarith [hb.1]), he]
  norm_num
  constructor <;> linarith [hb.1, hb.2]

/-- C58 fails for the surface variant: in the dark scheme of every colour with contrast level -1, the text on the
surface variant has a contrast of less than 2.5. -/
theorem c58_surface_variant_violated (argb : Int) :
    ∃ tx tb : ℝ, (∀ rounds fuel, 3 ≤ fuel →
      getTone (registry rounds) (Schemes.tonalSpot (Hct.fromInt argb) true (-1)) fuel .onSurfaceVariant = some tx ∧
      getTone (registry rounds) (Schemes.tonalSpot (Hct.fromInt argb) true (-1)) fuel .surfaceVariant = some tb) ∧
      ratioOfTones tx tb < 2.5 := by
  obtain ⟨tx, h1⟩ := c56_total_without_search (Schemes.tonalSpot (Hct.fromInt argb) true (-1 : ℝ)) .onSurfaceVariant
    (Or.inl (by decide))
  obtain ⟨tb, h2⟩ := c56_total_without_search (Schemes.tonalSpot (Hct.fromInt argb) true (-1 : ℝ)) .surfaceVariant
    (Or.inl (by decide))
  refine ⟨tx, tb, fun rounds fuel hf => ⟨h1 rounds fuel hf, h2 rounds fuel hf⟩, ?_⟩
  replace h1 := h1 0 3 le_rfl
  replace h2 := h2 0 3 le_rfl
  have hc : (Schemes.tonalSpot (Hct.fromInt argb) true (-1 : ℝ)).contrastLevel = -1 := rfl
  have hd : (Schemes.tonalSpot (Hct.fromInt argb) true (-1 : ℝ)).isDark = true := rfl
  generalize Schemes.tonalSpot (Hct.fromInt argb) true (-1 : ℝ) = s at *
  obtain ⟨m, t1, i1, -, ht1, hi1, rfl⟩ := single_inv (registry 0) s .onSurfaceVariant 3 tx _ _ rfl rfl rfl rfl rfl h1
  have e1 := highest_tone s 0 _ _ ht1
  replace h2 := (plain_inv (registry 0) s _ 3 _ rfl rfl h2).choose_spec.2
  simp only [registry, surfaceVariant, hd, if_true, Option.some.injEq] at h2
  have htop : topTone s = 24 := by
    simp only [topTone, hd, hc, if_true]
    rw [unit_of_le (by norm_num), unit_of_le (by norm_num)]
    norm_num
  have hk : (curve (3.0 : ℝ) 4.5 7.0 11.0).get s.contrastLevel = 3 := by
    rw [hc, curve_eq, unit_of_le (by norm_num), unit_of_le (by norm_num), unit_of_le (by norm_num)]
    norm_num
  have hdec : decide (s.contrastLevel < 0) = true := by rw [decide_eq_true_eq, hc]; norm_num
  have hadj : adjusted (decide (s.contrastLevel < 0)) t1 ((curve (3.0 : ℝ) 4.5 7.0 11.0).get s.contrastLevel) i1 =
      foregroundTone 24 3 := by
    rw [hdec, hk, e1, htop]; rfl
  rw [hadj, ← h2]
  obtain ⟨b1, b2⟩ := fg_24
  generalize foregroundTone (24 : ℝ) 3 = l at *
  have h25 : (2.5 : ℝ) = 5 / 2 := by norm_num
  have h30 : (30.0 : ℝ) = 30 := by norm_num
  rw [h25, h30]
  refine lt_of_le_of_lt (c17_monotone l 55 30 30 (by linarith) (by linarith) le_rfl) ?_
  exact ratio_lt_cube (by norm_num) (by norm_num) (by norm_num) (by norm_num)

/-- C58 fails for the fixed roles: in the light scheme of every colour with contrast level 0.421, the text on the fixed
primary role has a contrast of less than 4.5. -/
theorem c58_fixed_violated (argb : Int) :
    ∃ tx tb : ℝ, (∀ rounds fuel, 3 ≤ fuel →
      getTone (registry rounds) (Schemes.tonalSpot (Hct.fromInt argb) false 0.421) fuel .onPrimaryFixed = some tx ∧
      getTone (registry rounds) (Schemes.tonalSpot (Hct.fromInt argb) false 0.421) fuel .primaryFixed = some tb) ∧
      ratioOfTones tx tb < 4.5 := by
  have e421 : (0.421 : ℝ) = 421 / 1000 := by norm_num
  rw [e421]
  have htr := tonesInRange_made _ ⟨.tonalSpot, argb, false, (421 / 1000 : ℝ), rfl⟩
  obtain ⟨tx, h1⟩ := c56_total_without_search (Schemes.tonalSpot (Hct.fromInt argb) false (421 / 1000 : ℝ)) .onPrimaryFixed
    (Or.inl (by decide))
  obtain ⟨tb, h2⟩ := c56_total_without_search (Schemes.tonalSpot (Hct.fromInt argb) false (421 / 1000 : ℝ)) .primaryFixed
    (Or.inl (by decide))
  obtain ⟨td, h3⟩ := c56_total_without_search (Schemes.tonalSpot (Hct.fromInt argb) false (421 / 1000 : ℝ)) .primaryFixedDim
    (Or.inl (by decide))
  refine ⟨tx, tb, fun rounds fuel hf => ⟨h1 rounds fuel hf, h2 rounds fuel hf⟩, ?_⟩
  replace h1 := h1 0 3 le_rfl
  replace h2 := h2 0 3 le_rfl
  replace h3 := h3 0 3 le_rfl
  have hc : (Schemes.tonalSpot (Hct.fromInt argb) false (421 / 1000 : ℝ)).contrastLevel = 421 / 1000 := rfl
  have hd : (Schemes.tonalSpot (Hct.fromInt argb) false (421 / 1000 : ℝ)).isDark = false := rfl
  have hmono : isMonochrome (Schemes.tonalSpot (Hct.fromInt argb) false (421 / 1000 : ℝ)) = false := rfl
  generalize Schemes.tonalSpot (Hct.fromInt argb) false (421 / 1000 : ℝ) = s at *
  have hm := registry_mono (F := ℝ) 0 s
  have htop : topTone s = 40553 / 500 := by
    simp only [topTone, hd, hc, Bool.false_eq_true, if_false]
    rw [unit_of_mem (by norm_num) (by norm_num), unit_of_le (by norm_num)]
    norm_num
  have hk : (curve (1.0 : ℝ) 1.0 3.0 4.5).get s.contrastLevel = 671 / 250 := by
    rw [hc, curve_eq, unit_of_ge (by norm_num), unit_of_mem (by norm_num) (by norm_num), unit_of_le (by norm_num)]
    norm_num
  have hk2 : (curve (4.5 : ℝ) 7.0 11.0 21.0).get s.contrastLevel = 1296 / 125 := by
    rw [hc, curve_eq, unit_of_ge (by norm_num), unit_of_mem (by norm_num) (by norm_num), unit_of_le (by norm_num)]
    norm_num
  have hdec : decide (s.contrastLevel < 0) = false := by rw [decide_eq_false_iff_not, hc]; norm_num
  -- the fixed role and its dimmed version
  obtain ⟨bg, na, nb, ia, ib, hia, hib, hbg, hna, hnb, p1, -⟩ :=
    paired_tones (registry 0) s _ (registry_paired 0 s .primaryFixed _ rfl) 2 tb td h2 h3
  have := highest_tone s 0 _ _ hbg
  subst this
  have hna' : (curve (1.0 : ℝ) 1.0 3.0 4.5).get s.contrastLevel = na := Option.some.inj hna
  have hnb' : (curve (1.0 : ℝ) 1.0 3.0 4.5).get s.contrastLevel = nb := Option.some.inj hnb
  simp only [registry, primaryFixed, primaryFixedDim, hmono, Bool.false_eq_true, if_false, Option.some.injEq] at hia hib
  have e90 : (90.0 : ℝ) = 90 := by norm_num
  have e80 : (80.0 : ℝ) = 80 := by norm_num
  have e10 : (10.0 : ℝ) = 10 := by norm_num
  have p := p1 (by rw [hd]; rfl)
  rw [← hna', ← hnb', ← hia, ← hib, hk, htop, hdec, hd, e90, e80] at p
  simp only [Bool.false_eq_true, if_false, e10] at p
  rw [pairTones_eq] at p
  obtain ⟨b1, b2⟩ := fg_421
  norm_num at b1 b2
  obtain ⟨l, hfg⟩ : ∃ l, foregroundTone (40553 / 500 : ℝ) (671 / 250) = l := ⟨_, rfl⟩
  rw [hfg] at b1 b2
  have g1 : adjusted false (40553 / 500) (671 / 250) 90 = l := by
    rcases adjusted_cases false (40553 / 500) (671 / 250) 90 with ⟨-, -, h⟩ | ⟨e, -⟩
    · refine absurd h (not_le.2 ?_)
      rw [c17_symm]
      exact ratio_lt_cube (by norm_num) (by norm_num) (by norm_num) (by norm_num)
    · rw [e, hfg]
  have g2 : adjusted false (40553 / 500) (671 / 250) 80 = l := by
    rcases adjusted_cases false (40553 / 500) (671 / 250) 80 with ⟨-, -, h⟩ | ⟨e, -⟩
    · refine absurd h (not_le.2 ?_)
      exact ratio_lt_cube (by norm_num) (by norm_num) (by norm_num) (by norm_num)
    · rw [e, hfg]
  rw [g1, g2] at p
  have htb : tb = l := by
    rcases spread_light (l) (l) 10 (by constructor <;> linarith) (by constructor <;> linarith)
      (by norm_num) with ⟨-, h⟩ | ⟨e, -⟩ | ⟨-, h, -⟩
    · linarith
    · simp only [e, avoidAwkward] at p
      rw [if_neg (by norm_num; intro h; linarith), if_neg (by norm_num; intro h; linarith)] at p
      exact (Prod.mk.inj p).1
    · linarith
  have hbt : 0 ≤ tb ∧ tb ≤ 100 := by rw [htb]; constructor <;> linarith
  have hyt := y_ge (show 49.95 ≤ tb by rw [htb]; norm_num; linarith) (by norm_num)
  have hyt2 := y_le (show tb ≤ 50 by rw [htb]; linarith) (by norm_num)
  norm_num at hyt hyt2
  have hwhite : ratioOfTones 100 tb < 4.5 := by
    rw [ratio_white hbt.1 hbt.2, div_lt_iff₀ (by linarith)]
    norm_num
    linarith
  have hblack : ratioOfTones 0 tb < 5 := by
    rw [ratio_black hbt.1 hbt.2, div_lt_iff₀ (by linarith)]
    linarith
  have hall (a : ℝ) (ha : 0 ≤ a ∧ a ≤ 100) : ratioOfTones tb a < 5 := by
    rcases le_total tb a with h | h
    · rw [c17_symm]
      refine lt_of_le_of_lt (c17_monotone a 100 tb tb h ha.2 le_rfl) (hwhite.trans (by norm_num))
    · refine lt_of_le_of_lt (c17_monotone tb tb a 0 h le_rfl ha.1) ?_
      rw [c17_symm]; exact hblack
  -- the text
  obtain ⟨_, y1, y2, i, -, hy1, hy2, hi, rfl⟩ := dual_inv (registry 0) s .onPrimaryFixed 3 tx _ _ _ rfl rfl rfl rfl rfl h1
  have := getTone_unique _ s hm hy1 h3; subst this
  have := getTone_unique _ s hm hy2 h2; subst this
  have hi' := registry_range 0 s htr _ _ _ hi
  have ha := adjusted_range (decide (s.contrastLevel < 0)) y1 ((curve (4.5 : ℝ) 7.0 11.0 21.0).get s.contrastLevel) i hi'
  rw [hk2] at ha ⊢
  have hap := (c59_fixed s htr .primaryFixed .primaryFixedDim (by simp [fixedPairs]) 0 3 3 _ _ h2 h3).1
  have hrd := c57_range s htr 0 3 _ _ h3
  have hle : y1 ≤ y2 := by linarith
  generalize adjusted (decide (s.contrastLevel < 0)) y1 (1296 / 125) i = a at ha ⊢
  have h100 : dualTone y1 y2 a (1296 / 125) = 100 := by
    have e0 : (0.0 : ℝ) = 0 := by norm_num
    have e1 : (100.0 : ℝ) = 100 := by norm_num
    simp only [dualTone, fl_fmax, fl_fmin, max_eq_right hle, min_eq_left hle, e0, e1]
    rw [if_neg (fun h => absurd h.1 (not_le.2 ((hall a ha).trans (by norm_num))))]
    have hp : (tonePrefersLightForeground y1 || tonePrefersLightForeground y2) = true := by
      rw [prefers_of_lt hrd.1 (by norm_num; linarith)]; rfl
    simp only [hp, if_true]
    have hl : lighter y2 (1296 / 125) = -1 := by
      by_contra h
      have hq := c18_sound y2 (1296 / 125) hbt.1 hbt.2 (by norm_num) h
      have hq2 := hall _ ⟨hq.1, hq.2.1⟩
      rw [c17_symm] at hq2
      have := hq.2.2.2
      norm_num at hq2 this
      linarith
    rw [hl, if_pos (by norm_num)]
  rw [h100]
  exact hwhite

/-- The scheme of the repository's tests meets the hypotheses of the theorems above. -/
example : TonesInRange (Schemes.tonalSpot (Hct.fromInt 0xFF4285F4) true (0.5 : ℝ)) ∧
    ∃ tx tb : ℝ, getTone (registry 0) (Schemes.tonalSpot (Hct.fromInt 0xFF4285F4) true 0.5) 3 .onSurface = some tx ∧
      getTone (registry 0) (Schemes.tonalSpot (Hct.fromInt 0xFF4285F4) true 0.5) 3 .surfaceContainerHigh = some tb := by
  have hm : Made (Schemes.tonalSpot (Hct.fromInt 0xFF4285F4) true (0.5 : ℝ)) := ⟨.tonalSpot, _, _, _, rfl⟩
  obtain ⟨a, ha⟩ := c56_total_without_search (Schemes.tonalSpot (Hct.fromInt 0xFF4285F4) true (0.5 : ℝ)) .onSurface (Or.inl (by decide))
  obtain ⟨b, hb⟩ := c56_total_without_search (Schemes.tonalSpot (Hct.fromInt 0xFF4285F4) true (0.5 : ℝ)) .surfaceContainerHigh (Or.inl (by decide))
  exact ⟨tonesInRange_made _ hm, a, b, ha 0 3 le_rfl, hb 0 3 le_rfl⟩

end Mcu.Props
