import Verif.Lemmas.Evaluate
import Verif.Lemmas.Search
import Verif.Props.DynamicColor
import Verif.Props.Schemes

/-! The Material roles as dynamic colours. -/

namespace Mcu.Lemmas

open Contrast Props DynamicColor MathUtils Material

theorem registry_mono {F : Type} [Fl F] (lf : Nat) (s : DynamicScheme F) (r : Role) :
    MonoClosure ((registry lf r).tone s) := by
  have hmap (g h : Role → Option F) (hm : ∀ x v, g x = some v → h x = some v) (x : Role) (f : F → F) (v : F)
      (hg : (g x).map f = some v) : (h x).map f = some v := by
    obtain ⟨y, hy, rfl⟩ := Option.map_eq_some_iff.1 hg
    rw [hm x y hy]; rfl
  intro g h hm v hv
  cases r <;> first
    | exact hv
    | (simp only [registry, onPrimaryContainer, onSecondaryContainer, onTertiaryContainer] at hv ⊢
       split at hv
       · next hf =>
         rw [if_pos hf]; first | exact hv | exact hmap g h hm _ _ v hv
       · next hf =>
         rw [if_neg hf]
         first
         | exact hv
         | exact hmap g h hm _ _ v hv
         | (split at hv
            · next hf2 => rw [if_pos hf2]; exact hv
            · next hf2 => rw [if_neg hf2]; first | exact hv | exact hmap g h hm _ _ v hv))

/-- A search that may take longer changes no tone that is found already. -/
theorem registry_extends {F : Type} [Fl F] {m n : Nat} (h : m ≤ n) (s : DynamicScheme F) :
    Extends (registry m) (registry n) s := by
  refine ⟨fun r => ?_, fun r => ?_, fun r => ?_, fun r => ?_, fun r => ?_, fun r => ?_, fun r g g' hg v hv => ?_⟩
  iterate 6 cases r <;> rfl
  have hmono := registry_mono n s r g g' hg v
  by_cases hr : r = .secondaryContainer
  · subst hr
    apply hmono
    simp only [registry, secondaryContainer] at hv ⊢
    split at hv
    · next h1 => rw [if_pos h1]; exact hv
    · next h1 =>
      rw [if_neg h1]
      split at hv
      · next h2 => rw [if_pos h2]; exact hv
      · next h2 => rw [if_neg h2]; exact search_mono h _ _ _ _ v hv
  · apply hmono
    cases r <;> first | exact hv | exact absurd rfl hr

/-- The source colour and the key colours of a scheme have tones from 0 to 100. -/
structure TonesInRange (s : DynamicScheme ℝ) : Prop where
  source : 0 ≤ s.sourceColorHct.getTone ∧ s.sourceColorHct.getTone ≤ 100
  primary : 0 ≤ s.primaryPalette.keyColor.getTone ∧ s.primaryPalette.keyColor.getTone ≤ 100
  secondary : 0 ≤ s.secondaryPalette.keyColor.getTone ∧ s.secondaryPalette.keyColor.getTone ≤ 100
  tertiary : 0 ≤ s.tertiaryPalette.keyColor.getTone ∧ s.tertiaryPalette.keyColor.getTone ≤ 100
  neutral : 0 ≤ s.neutralPalette.keyColor.getTone ∧ s.neutralPalette.keyColor.getTone ≤ 100
  neutralVariant : 0 ≤ s.neutralVariantPalette.keyColor.getTone ∧ s.neutralVariantPalette.keyColor.getTone ≤ 100

theorem fixed_tone_range (p : TonalPalette ℝ) (t : ℝ) :
    0 ≤ (Dislike.fixIfDisliked (p.getHct t)).getTone ∧ (Dislike.fixIfDisliked (p.getHct t)).getTone ≤ 100 := by
  obtain ⟨n, hn⟩ : ∃ n, p.getHct t = Hct.fromInt n := by
    unfold TonalPalette.getHct
    split <;> exact ⟨_, rfl⟩
  obtain ⟨b, hb⟩ := fixIfDisliked_fromInt n
  rw [hn, hb]; exact c15_range b

theorem curve_range (a b c d l lo hi : ℝ) (hl : lo ≤ a ∧ lo ≤ b ∧ lo ≤ c ∧ lo ≤ d)
    (hh : a ≤ hi ∧ b ≤ hi ∧ c ≤ hi ∧ d ≤ hi) : lo ≤ (curve a b c d).get l ∧ (curve a b c d).get l ≤ hi :=
  c22_bounded (curve a b c d) l lo hi hl hh

theorem registry_range (lf : Nat) (s : DynamicScheme ℝ) (hs : TonesInRange s) (r : Role) (g : Role → Option ℝ)
    (v : ℝ) (h : (registry lf r).tone s g = some v) : 0 ≤ v ∧ v ≤ 100 := by
  have e90 : (90.0 : ℝ) = 90 := by norm_num
  have e30 : (30.0 : ℝ) = 30 := by norm_num
  have fg (x : Role) (hv : (g x).map (fun t => foregroundTone t 4.5) = some v) : 0 ≤ v ∧ v ≤ 100 := by
    obtain ⟨y, -, rfl⟩ := Option.map_eq_some_iff.1 hv
    exact c21_range _ _
  have lit (c : Prop) [Decidable c] (a b : ℝ) (ha : 0 ≤ a ∧ a ≤ 100) (hb : 0 ≤ b ∧ b ≤ 100)
      (hv : some (if c then a else b) = some v) : 0 ≤ v ∧ v ≤ 100 := by
    cases hv
    split
    · exact ha
    · exact hb
  cases r
  case primaryPaletteKeyColor => cases h; exact hs.primary
  case secondaryPaletteKeyColor => cases h; exact hs.secondary
  case tertiaryPaletteKeyColor => cases h; exact hs.tertiary
  case neutralPaletteKeyColor => cases h; exact hs.neutral
  case neutralVariantPaletteKeyColor => cases h; exact hs.neutralVariant
  case shadow => cases h; norm_num
  case scrim => cases h; norm_num
  case onSecondaryFixed => cases h; norm_num
  case surfaceDim => exact lit _ _ _ (by norm_num) (by apply curve_range <;> norm_num) h
  case surfaceBright => exact lit _ _ _ (by apply curve_range <;> norm_num) (by norm_num) h
  case surfaceContainerLowest => exact lit _ _ _ (by apply curve_range <;> norm_num) (by norm_num) h
  case surfaceContainerLow =>
    exact lit _ _ _ (by apply curve_range <;> norm_num) (by apply curve_range <;> norm_num) h
  case surfaceContainer =>
    exact lit _ _ _ (by apply curve_range <;> norm_num) (by apply curve_range <;> norm_num) h
  case surfaceContainerHigh =>
    exact lit _ _ _ (by apply curve_range <;> norm_num) (by apply curve_range <;> norm_num) h
  case surfaceContainerHighest =>
    exact lit _ _ _ (by apply curve_range <;> norm_num) (by apply curve_range <;> norm_num) h
  case primaryContainer =>
    simp only [registry, primaryContainer] at h
    split at h
    · cases h; exact hs.source
    · split at h <;> exact lit _ _ _ (by norm_num) (by norm_num) h
  case onPrimaryContainer =>
    simp only [registry, onPrimaryContainer] at h
    split at h
    · exact fg _ h
    · split at h <;> exact lit _ _ _ (by norm_num) (by norm_num) h
  case onSecondaryContainer =>
    simp only [registry, onSecondaryContainer] at h
    split at h
    · exact lit _ _ _ (by norm_num) (by norm_num) h
    · exact fg _ h
  case onTertiaryContainer =>
    simp only [registry, onTertiaryContainer] at h
    split at h
    · exact lit _ _ _ (by norm_num) (by norm_num) h
    · split at h
      · exact lit _ _ _ (by norm_num) (by norm_num) h
      · exact fg _ h
  case tertiaryContainer =>
    simp only [registry, tertiaryContainer] at h
    split at h
    · exact lit _ _ _ (by norm_num) (by norm_num) h
    · split at h
      · exact lit _ _ _ (by norm_num) (by norm_num) h
      · cases h; exact fixed_tone_range _ _
  case secondaryContainer =>
    simp only [registry, secondaryContainer, e30, e90] at h
    split at h
    · exact lit _ _ _ (by norm_num) (by norm_num) h
    · split at h
      · exact lit _ _ _ (by norm_num) (by norm_num) h
      · cases hd : s.isDark <;> simp only [hd, Bool.false_eq_true, if_false, if_true] at h
        · have := (search_range lf _ _ v).1 h
          exact ⟨this.1, by linarith⟩
        · have := (search_range lf _ _ v).2 h
          exact ⟨by linarith, this.2⟩
  case primary =>
    simp only [registry, primary] at h
    split at h <;> exact lit _ _ _ (by norm_num) (by norm_num) h
  case onPrimary =>
    simp only [registry, onPrimary] at h
    split at h <;> exact lit _ _ _ (by norm_num) (by norm_num) h
  case onSecondary =>
    simp only [registry, onSecondary] at h
    split at h <;> exact lit _ _ _ (by norm_num) (by norm_num) h
  case tertiary =>
    simp only [registry, tertiary] at h
    split at h <;> exact lit _ _ _ (by norm_num) (by norm_num) h
  case onTertiary =>
    simp only [registry, onTertiary] at h
    split at h <;> exact lit _ _ _ (by norm_num) (by norm_num) h
  all_goals exact lit _ _ _ (by norm_num) (by norm_num) h

theorem registry_delta (lf : Nat) (s : DynamicScheme ℝ) (r : Role) (p : DynamicScheme ℝ → ToneDeltaPair Role ℝ)
    (h : (registry lf r).toneDeltaPair = some p) : (p s).delta = 10 := by
  cases r <;> first
    | exact absurd (show none = some p from h) (fun h => nomatch h)
    | (cases h; norm_num)

end Mcu.Lemmas
