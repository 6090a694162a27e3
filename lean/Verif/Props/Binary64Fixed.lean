import Verif.Lemmas.F64Fixed
import Verif.Props.Binary64Drawn

/-! # Text on the fixed roles, in IEEE-754 binary64

C58 and C80 for the fixed roles, whose text has two backgrounds. -/

namespace Mcu.Props.Binary64

open Mcu.Ieee Mcu.Lemmas MathUtils Contrast ColorUtils DynamicColor Material Spec

variable {L : Libm}

local notation "𝔻" => F64 L

/-- The contrast asked of a fixed role, and the surface it is drawn on. -/
theorem fixed_ratio64 (s : DynamicScheme 𝔻) (rounds n : Nat) (bg : 𝔻)
    (h : getTone (registry rounds) s n (highestSurface s) = some bg) :
    RatioOk ((curve (1.0 : 𝔻) 1.0 3.0 4.5).get s.contrastLevel) ∧
    (s.isDark = true → 30.1 < val bg → 2.9 ≤ val ((curve (1.0 : 𝔻) 1.0 3.0 4.5).get s.contrastLevel)) := by
  have hkc : RatioCurve (curve (1.0 : 𝔻) 1.0 3.0 4.5) := by constructor <;> exact ratio_lit (by norm_num)
  refine ⟨(curve_ratioOk hkc s.contrastLevel).1, fun hd hb => ?_⟩
  have hmem : highestSurface s ∈ surfaces := by
    unfold highestSurface; split <;> decide
  obtain ⟨a', ha', u, iu, hu⟩ := surface_transfer s _ (List.mem_cons_of_mem _ hmem) rounds n bg h
  have e := highest_tone (shadow s) rounds n a' ha'
  obtain ⟨v, iv, hv⟩ := curve_transfer (L := L) (half_lit (by norm_num) (by norm_num)) (half_lit (by norm_num) (by norm_num))
    (half_lit (by norm_num) (by norm_num)) (half_lit (by norm_num) (by norm_num))
    (by norm_num [abs_of_pos]) s.contrastLevel (a := 1.0) (b := 1.0) (c := 3.0) (d := 4.5)
  rw [show val _ = v from iv.2]
  rw [show val bg = u from iu.2] at hb
  have hd' : (shadow s).isDark = true := hd
  have hc' : (shadow s).contrastLevel = levelOf s.contrastLevel := rfl
  simp only [topTone, hd', if_true, hc'] at e
  generalize levelOf s.contrastLevel = c at *
  have u2 := unit_range (2 * c)
  have u3 := unit_range (2 * c - 1)
  have hu := abs_le.1 hu
  have hv := abs_le.1 hv
  norm_num at hu hv hb
  have hpos : 0 < 2 * c - 1 := by
    by_contra hc
    rw [unit_of_le (not_lt.1 hc)] at e
    linarith
  rw [curve_eq, unit_of_ge (show 1 ≤ 2 * c by linarith)] at hv
  norm_num at hv ⊢
  linarith [u3.1, hv.1]

/-- In every scheme a fixed role and its dimmed version lie on the same side of 50..60. -/
theorem fixed_sides64 (hL : L.PowOk) (s : DynamicScheme 𝔻) (x d : Role) (hx : (x, d) ∈ fixedPairs)
    (rounds m n : Nat) (tx td : 𝔻) (h1 : getTone (registry rounds) s m x = some tx)
    (h2 : getTone (registry rounds) s n d = some td) : 60 ≤ val td ∨ val tx < 50 := by
  have hm := registry_mono (F := 𝔻) rounds s
  have h1' := getTone_mono _ s hm (show m ≤ max m n + 1 by omega) _ _ h1
  have h2' := getTone_mono _ s hm (show n ≤ max m n + 1 by omega) _ _ h2
  have hmem : highestSurface s ∈ surfaces := by
    unfold highestSurface; split <;> decide
  have main (p : ToneDeltaPair Role 𝔻) (hp : Paired (registry rounds) s p) (hdl : Is p.delta 10) (h0 : p.polarity = .lighter)
      (htog : p.stayTogether = true) (ea : p.roleA = x) (eb : p.roleB = d)
      (hb : (registry (F := 𝔻) rounds x).background = some highestSurface)
      (hca : (registry (F := 𝔻) rounds x).contrastCurve = some (curve 1.0 1.0 3.0 4.5))
      (hcb : (registry (F := 𝔻) rounds d).contrastCurve = some (curve 1.0 1.0 3.0 4.5))
      (hi : ∀ g ia ib, (registry (F := 𝔻) rounds x).tone s g = some ia → (registry (F := 𝔻) rounds d).tone s g = some ib →
        Fin ia ∧ Fin ib ∧ FixedInitial (val ia) (val ib)) : 60 ≤ val td ∨ val tx < 50 := by
    obtain ⟨bg, ia, ib, ka, kb, ia', ib', hbg, hna, hnb, p1, p2⟩ :=
      paired_tonesF (registry rounds) s p hp _ tx td (by rw [ea]; exact h1') (by rw [eb]; exact h2')
    rw [ea] at ia' hbg hna
    rw [eb] at ib' hnb
    obtain ⟨fa, fb, hI⟩ := hi _ _ _ ia' ib'
    rw [hb, Option.bind_some] at hbg
    rw [hca, Option.some.injEq] at hna
    rw [hcb, Option.some.injEq] at hnb
    subst hna hnb
    obtain ⟨tb, -, hdark, hlight⟩ := surface64 s _ hmem rounds _ _ bg bg hbg hbg
    obtain ⟨hk, hk3⟩ := fixed_ratio64 s rounds _ bg hbg
    rw [h0, htog] at p1 p2
    cases hd : s.isDark
    · have q := p1 (by rw [hd]; rfl)
      simp only [hd, Bool.false_eq_true, if_false] at q
      have := side_light64 hL (decide (s.contrastLevel < 0.0)) tb (hlight hd).1 (hlight hd).2.1 hk fa fb hI hdl lm1
      simp only [← q] at this
      exact this.symm
    · have q := p2 (by rw [hd]; rfl)
      simp only [hd, if_true] at q
      have := side_dark64 hL (decide (s.contrastLevel < 0.0)) tb (by have := (hdark hd).1; norm_num at this; linarith)
        (hdark hd).2.1 hk (hk3 hd) fb fa hI hdl l1
      simp only [← q] at this
      exact this
  have lit {m e : ℕ} (h : 10 ^ e ∣ 2 * m) (hm : m ≤ 10000) := half_lit (L := L) h hm
  have i90 : Is (90.0 : 𝔻) 90 := by simpa using Binary64.lit (L := L) 900 1 true 90 (by norm_num) (by norm_num)
  have i80 : Is (80.0 : 𝔻) 80 := by simpa using Binary64.lit (L := L) 800 1 true 80 (by norm_num) (by norm_num)
  have i70 : Is (70.0 : 𝔻) 70 := by simpa using Binary64.lit (L := L) 700 1 true 70 (by norm_num) (by norm_num)
  have i40 : Is (40.0 : 𝔻) 40 := by simpa using Binary64.lit (L := L) 400 1 true 40 (by norm_num) (by norm_num)
  have i30 : Is (30.0 : 𝔻) 30 := by simpa using Binary64.lit (L := L) 300 1 true 30 (by norm_num) (by norm_num)
  simp only [fixedPairs, List.mem_cons, Prod.mk.injEq, List.not_mem_nil, or_false] at hx
  rcases hx with ⟨rfl, rfl⟩ | ⟨rfl, rfl⟩ | ⟨rfl, rfl⟩
  · refine main _ (registry_pairedF rounds s .primaryFixed _ rfl) (registry_delta64 rounds s .primaryFixed _ rfl) rfl rfl rfl rfl
      rfl rfl rfl fun g ia ib h h' => ?_
    simp only [registry, primaryFixed, primaryFixedDim, Option.some.injEq] at h h'
    rw [← h, ← h']
    cases isMonochrome s <;> simp only [if_true, Bool.false_eq_true, if_false]
    · exact ⟨i90.1, i80.1, Or.inl ⟨i90.2, i80.2⟩⟩
    · exact ⟨i40.1, i30.1, Or.inr (Or.inr ⟨i40.2, i30.2⟩)⟩
  · refine main _ (registry_pairedF rounds s .secondaryFixed _ rfl) (registry_delta64 rounds s .secondaryFixed _ rfl) rfl rfl rfl rfl
      rfl rfl rfl fun g ia ib h h' => ?_
    simp only [registry, secondaryFixed, secondaryFixedDim, Option.some.injEq] at h h'
    rw [← h, ← h']
    cases isMonochrome s <;> simp only [if_true, Bool.false_eq_true, if_false]
    · exact ⟨i90.1, i80.1, Or.inl ⟨i90.2, i80.2⟩⟩
    · exact ⟨i80.1, i70.1, Or.inr (Or.inl ⟨i80.2, i70.2⟩)⟩
  · refine main _ (registry_pairedF rounds s .tertiaryFixed _ rfl) (registry_delta64 rounds s .tertiaryFixed _ rfl) rfl rfl rfl rfl
      rfl rfl rfl fun g ia ib h h' => ?_
    simp only [registry, tertiaryFixed, tertiaryFixedDim, Option.some.injEq] at h h'
    rw [← h, ← h']
    cases isMonochrome s <;> simp only [if_true, Bool.false_eq_true, if_false]
    · exact ⟨i90.1, i80.1, Or.inl ⟨i90.2, i80.2⟩⟩
    · exact ⟨i40.1, i30.1, Or.inr (Or.inr ⟨i40.2, i30.2⟩)⟩

/-- C58 (partial): in binary64, text on a fixed role and on its dimmed version has a contrast of at least 4.48 with every
contrast level; the less prominent text has it with contrast levels that are not negative, and 3 with negative ones (up to
10⁻⁹).  What is missing: 4.5 instead of 4.48; over the reals this is false, see `c58_fixed_violated`. -/
theorem c58_binary64_fixed_partial (hL : L.PowOk) (s : DynamicScheme 𝔻) (hs : Made s ∨ Assembled s) (x d o v : Role)
    (hx : (x, d, o, v) ∈ onFixed) (rounds m n k l : Nat) (tx td tt tv : 𝔻)
    (h1 : getTone (registry rounds) s m x = some tx) (h2 : getTone (registry rounds) s n d = some td)
    (h3 : getTone (registry rounds) s k o = some tt) (h4 : getTone (registry rounds) s l v = some tv) :
    (4.48 ≤ val (ratioOfTones tt tx) ∧ 4.48 ≤ val (ratioOfTones tt td)) ∧
    (¬ s.contrastLevel < 0.0 → 4.48 ≤ val (ratioOfTones tv tx) ∧ 4.48 ≤ val (ratioOfTones tv td)) ∧
    3 - 1 / 10 ^ 9 ≤ val (ratioOfTones tv tx) ∧ 3 - 1 / 10 ^ 9 ≤ val (ratioOfTones tv td) := by
  have hm := registry_mono (F := 𝔻) rounds s
  have hts := tonesOk_made hL s hs
  have hq := searchOk hL rounds s
  have hp : (x, d) ∈ fixedPairs := by
    simp only [onFixed, List.mem_cons, Prod.mk.injEq, List.not_mem_nil, or_false] at hx
    rcases hx with ⟨rfl, rfl, -⟩ | ⟨rfl, rfl, -⟩ | ⟨rfl, rfl, -⟩ <;> simp [fixedPairs]
  have r1 := role_ok hL rounds s hts hq m x tx h1
  have r2 := role_ok hL rounds s hts hq n d td h2
  have hside := fixed_sides64 hL s x d hp rounds m n tx td h1 h2
  have hap := (c59_binary64_fixed hL s hs x d hp rounds m n tx td h1 h2).1
  have q1 := strong64 s.contrastLevel
  have q2 := weak64 s.contrastLevel
  have main (a1 : (registry (F := 𝔻) rounds o).toneDeltaPair = none)
      (a2 : (registry (F := 𝔻) rounds o).background = some (fun _ => d))
      (a3 : (registry (F := 𝔻) rounds o).secondBackground = some (fun _ => x))
      (a4 : (registry (F := 𝔻) rounds o).contrastCurve = some (curve 4.5 7.0 11.0 21.0))
      (a5 : (registry (F := 𝔻) rounds o).isBackground = false)
      (b1 : (registry (F := 𝔻) rounds v).toneDeltaPair = none)
      (b2 : (registry (F := 𝔻) rounds v).background = some (fun _ => d))
      (b3 : (registry (F := 𝔻) rounds v).secondBackground = some (fun _ => x))
      (b4 : (registry (F := 𝔻) rounds v).contrastCurve = some (curve 3.0 4.5 7.0 11.0))
      (b5 : (registry (F := 𝔻) rounds v).isBackground = false) :
      (4.48 ≤ val (ratioOfTones tt tx) ∧ 4.48 ≤ val (ratioOfTones tt td)) ∧
      (¬ s.contrastLevel < 0.0 → 4.48 ≤ val (ratioOfTones tv tx) ∧ 4.48 ≤ val (ratioOfTones tv td)) ∧
      3 - 1 / 10 ^ 9 ≤ val (ratioOfTones tv tx) ∧ 3 - 1 / 10 ^ 9 ≤ val (ratioOfTones tv td) := by
    obtain ⟨m1, y1, y2, i, -, hy1, hy2, hi, rfl⟩ := dual_invF (registry rounds) s o k tt _ _ _ a1 a2 a3 a4 a5 h3
    obtain ⟨m2, z1, z2, j, -, hz1, hz2, hj, rfl⟩ := dual_invF (registry rounds) s v l tv _ _ _ b1 b2 b3 b4 b5 h4
    have ti := registry_ok hL rounds s hts hq o _ (fun y v hv => role_ok hL rounds s hts hq m1 y v hv) i hi
    have tj := registry_ok hL rounds s hts hq v _ (fun y v hv => role_ok hL rounds s hts hq m2 y v hv) j hj
    have := getTone_unique _ s hm hy1 h2; subst this
    have := getTone_unique _ s hm hy2 h1; subst this
    have := getTone_unique _ s hm hz1 hy1; subst this
    have := getTone_unique _ s hm hz2 hy2; subst this
    have fi := (adjusted_ok hL (decide (s.contrastLevel < 0.0)) r2.1 ti q1.1).1
    have fj := (adjusted_ok hL (decide (s.contrastLevel < 0.0)) r2.1 tj q2.1).1
    have one := dual_ge64 hL (k := 4.48) r2 r1 fi hap hside le_rfl q1.1
      (le_trans (by norm_num) q1.2) (le_trans (by norm_num) q1.2)
    have two (hc : ¬ s.contrastLevel < 0.0) := dual_ge64 hL (k := 4.48) r2 r1 fj hap hside le_rfl q2.1
      (le_trans (by norm_num) (q2.2.2 hc)) (le_trans (by norm_num) q2.2.1)
    have three := dual_ge64 hL (k := 3 - 1 / 10 ^ 9) r2 r1 fj hap hside (by norm_num) q2.1 q2.2.1
      (le_trans (by norm_num) q2.2.1)
    exact ⟨⟨one.2, one.1⟩, fun hc => ⟨(two hc).2, (two hc).1⟩, three.2, three.1⟩
  simp only [onFixed, List.mem_cons, Prod.mk.injEq, List.not_mem_nil, or_false] at hx
  rcases hx with ⟨rfl, rfl, rfl, rfl⟩ | ⟨rfl, rfl, rfl, rfl⟩ | ⟨rfl, rfl, rfl, rfl⟩ <;>
    exact main rfl rfl rfl rfl rfl rfl rfl rfl rfl rfl

/-- C80: in binary64, as drawn, text on a fixed role and on its dimmed version has a WCAG contrast of at least 4.2; the less
prominent text has it with contrast levels that are not negative, and 2.8 with negative ones. -/
theorem c80_binary64_fixed (hS : L.Sound) (s : DynamicScheme 𝔻) (hs : Usual s) (rounds : Nat) (x d o v : Role)
    (hx : (x, d, o, v) ∈ onFixed) (cx cd co cv : Int) (h1 : Drawn rounds s x cx) (h2 : Drawn rounds s d cd)
    (h3 : Drawn rounds s o co) (h4 : Drawn rounds s v cv) :
    (4.2 ≤ wcagContrast co cx ∧ 4.2 ≤ wcagContrast co cd) ∧
    (¬ s.contrastLevel < 0.0 → 4.2 ≤ wcagContrast cv cx ∧ 4.2 ≤ wcagContrast cv cd) ∧
    2.8 ≤ wcagContrast cv cx ∧ 2.8 ≤ wcagContrast cv cd := by
  obtain ⟨m, tx, htx, -⟩ := drawn_inv rounds s (unread_made s hs.either) x cx h1
  obtain ⟨n, td, htd, -⟩ := drawn_inv rounds s (unread_made s hs.either) d cd h2
  obtain ⟨k, tt, hto, -⟩ := drawn_inv rounds s (unread_made s hs.either) o co h3
  obtain ⟨l, tv, htv, -⟩ := drawn_inv rounds s (unread_made s hs.either) v cv h4
  obtain ⟨⟨a1, a2⟩, a3, a4, a5⟩ := c58_binary64_fixed_partial hS.pow s hs.either x d o v hx
    rounds m n k l tx td tt tv htx htd hto htv
  refine ⟨⟨drawn_contrast64 hS s hs rounds k m o x co cx tt tx _ h3 h1 hto htx ?_,
    drawn_contrast64 hS s hs rounds k n o d co cd tt td _ h3 h2 hto htd ?_⟩,
    fun hc => ⟨drawn_contrast64 hS s hs rounds l m v x cv cx tv tx _ h4 h1 htv htx ?_,
      drawn_contrast64 hS s hs rounds l n v d cv cd tv td _ h4 h2 htv htd ?_⟩,
    drawn_contrast64 hS s hs rounds l m v x cv cx tv tx _ h4 h1 htv htx ?_,
    drawn_contrast64 hS s hs rounds l n v d cv cd tv td _ h4 h2 htv htd ?_⟩
  · norm_num at a1 ⊢; linarith
  · norm_num at a2 ⊢; linarith
  · have := (a3 hc).1; norm_num at this ⊢; linarith
  · have := (a3 hc).2; norm_num at this ⊢; linarith
  · norm_num at a4 ⊢; linarith
  · norm_num at a5 ⊢; linarith

/-- The hypotheses are met: with some library, a fixed role, its dimmed version and the text on both can be drawn in a scheme
that the library makes. -/
example : ∃ (L : Libm) (s : DynamicScheme (F64 L)) (a b c d : Int), L.Sound ∧ Usual s ∧ s.isDark = true ∧
    Drawn 0 s .primaryFixed a ∧ Drawn 0 s .primaryFixedDim b ∧ Drawn 0 s .onPrimaryFixed c ∧ Drawn 0 s .onPrimaryFixedVariant d ∧
    (.primaryFixed, .primaryFixedDim, .onPrimaryFixed, .onPrimaryFixedVariant) ∈ onFixed := by
  obtain ⟨L, hS⟩ := sound_exists
  have hm : Made (Schemes.monochrome (Hct.fromInt 0xFF4285F4) true (-0.5 : F64 L)) := ⟨.monochrome, _, _, _, rfl⟩
  have go (r : Role) (h : ¬ NeedsSearch r) := c79_can_be_drawn (Schemes.monochrome (Hct.fromInt 0xFF4285F4) true (-0.5 : F64 L)) r (Or.inl h)
  obtain ⟨a, ha⟩ := go .primaryFixed (by simp [NeedsSearch])
  obtain ⟨b, hb⟩ := go .primaryFixedDim (by simp [NeedsSearch])
  obtain ⟨c, hc⟩ := go .onPrimaryFixed (by simp [NeedsSearch])
  obtain ⟨d, hd⟩ := go .onPrimaryFixedVariant (by simp [NeedsSearch])
  exact ⟨L, _, a, b, c, d, hS, .inl hm, rfl, ha 0, hb 0, hc 0, hd 0, by simp [onFixed]⟩

end Mcu.Props.Binary64
