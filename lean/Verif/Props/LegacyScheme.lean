import Verif.Spec.LegacyScheme
import Verif.Props.Palettes
import Verif.Lemmas.Tones
import Verif.Props.Solver
import Verif.Lemmas.Wcag

/-! Property C65: the legacy light and dark schemes. -/

namespace Mcu.Props

open LegacySpec Contrast ColorUtils HctSolver Lemmas Spec

section
variable {F : Type} [Fl F]

/-- The legacy scheme of a core palette. -/
def legacy (dark : Bool) (p : CorePalette F) : LegacyScheme :=
  if dark then LegacyScheme.darkFromCorePalette p else LegacyScheme.lightFromCorePalette p

theorem answer_get (p : TonalPalette F) (s t : Int) : answer (p.get s).2 t = answer p t :=
  ((get_same p s).2.2.2.2 t).symm

/-- C65: each role of the legacy scheme of any core palette is what its documented palette answers for its
documented tone, although the palettes remember earlier reads. -/
theorem c65_table (dark : Bool) (p : CorePalette F) (r : Role) :
    r.color (legacy dark p) = ((r.source.of p).get (r.tone dark)).1 := by
  cases dark <;> cases r <;> simp only [legacy, if_true, Bool.false_eq_true, if_false, Role.color, Role.tone,
    Role.source, Role.entry, Source.of, LegacyScheme.lightFromCorePalette, LegacyScheme.darkFromCorePalette,
    get_fst, answer_get]

end

/-- The hue and chroma of the palettes of the legacy schemes of a seed: those of the core palette, or of the
content core palette. -/
noncomputable def seedPalette (content : Bool) (argb : Int) (src : Source) : ℝ × ℝ :=
  let h := (Cam16.fromInt argb : Cam16 ℝ).hue
  let c := (Cam16.fromInt argb : Cam16 ℝ).chroma
  match src with
  | .primary => (h, if content then c else max 48 c)
  | .secondary => (h, if content then c / 3 else 16)
  | .tertiary => (h + 60, if content then c / 2 else 24)
  | .neutral => (h, if content then min (c / 12) 4 else 4)
  | .neutralVariant => (h, if content then min (c / 6) 8 else 8)
  | .error => (25, 84)

/-- The four constructors of a legacy scheme. -/
def legacyOf (F : Type) [Fl F] (content dark : Bool) (argb : Int) : LegacyScheme :=
  match content, dark with
  | false, false => LegacyScheme.light F argb
  | false, true => LegacyScheme.dark F argb
  | true, false => LegacyScheme.lightContent F argb
  | true, true => LegacyScheme.darkContent F argb

/-- C65: for every seed, each role of the four legacy schemes is the colour with the seed palette's hue and chroma
and the documented tone. -/
theorem c65_seed (content dark : Bool) (argb : Int) (r : Role) :
    r.color (legacyOf ℝ content dark argb) =
      (Hct.fromHct (seedPalette content argb r.source).1 (seedPalette content argb r.source).2
        ((r.tone dark : Int) : ℝ)).toInt := by
  have hcore := c37_core argb
  have hcont := c37_content argb
  have key (p : CorePalette ℝ) (x y : ℝ) (h : BehavesLike (r.source.of p) x y) :
      r.color (legacy dark p) = (Hct.fromHct x y ((r.tone dark : Int) : ℝ)).toInt := by
    rw [c65_table]; exact h.2.2 [] _
  cases content
  · have e : legacyOf ℝ false dark argb = legacy dark (CorePalette.of argb : CorePalette ℝ) := by cases dark <;> rfl
    rw [e]
    apply key
    obtain ⟨h1, h2, h3, h4, h5, h6⟩ := hcore
    cases r.source <;> simpa [seedPalette, Source.of]
  · have e : legacyOf ℝ true dark argb = legacy dark (CorePalette.contentOf argb : CorePalette ℝ) := by cases dark <;> rfl
    rw [e]
    apply key
    obtain ⟨h1, h2, h3, h4, h5, h6⟩ := hcont
    cases r.source <;> simpa [seedPalette, Source.of]

theorem near_tones {hi lo t u k : ℝ} (ht : |t - hi| ≤ 2) (hu : |u - lo| ≤ 2) (hlo : 8 < lo + 2) (hgap : lo + 2 ≤ hi - 2)
    (hhi : hi ≤ 100) (h : k * (100 * ((lo + 2 + 16) / 116) ^ 3 + 5) ≤ 100 * ((hi - 2 + 16) / 116) ^ 3 + 5) :
    k ≤ ratioOfTones t u ∧ k ≤ ratioOfTones u t := by
  have h1 := abs_le.1 ht
  have h2 := abs_le.1 hu
  have h3 : k ≤ ratioOfTones (hi - 2) (lo + 2) := ratio_ge_cube hgap hlo (by linarith) h
  have h4 : k ≤ ratioOfTones t u := h3.trans (c17_monotone _ _ _ _ hgap (by linarith) (by linarith))
  exact ⟨h4, by rw [c17_symm]; exact h4⟩

/-- C65: a text role and the role it is drawn on have a contrast of at least 4.5 by their documented tones, and
even for all tones within 2 of them. -/
theorem c65_contrast (dark : Bool) (pair : Role × Role) (hp : pair ∈ textOn) (t u : ℝ)
    (ht : |t - (pair.1.tone dark : Int)| ≤ 2) (hu : |u - (pair.2.tone dark : Int)| ≤ 2) : 4.5 ≤ ratioOfTones t u := by
  simp only [textOn, List.mem_cons, List.not_mem_nil, or_false] at hp
  cases dark <;> rcases hp with rfl | rfl | rfl | rfl | rfl | rfl | rfl | rfl | rfl | rfl | rfl | rfl <;>
    simp only [Role.tone, Role.entry, if_true, Bool.false_eq_true, if_false, Int.cast_ofNat] at ht hu
  all_goals first
    | (refine (near_tones ht hu ?_ ?_ ?_ ?_).1 <;> norm_num; done)
    | (refine (near_tones hu ht ?_ ?_ ?_ ?_).2 <;> norm_num; done)

/-- C65: for every seed, each role of the four legacy schemes is drawn within 0.84 of its documented tone. -/
theorem c65_color_tone (content dark : Bool) (argb : Int) (r : Role) :
    |(lstarFromArgb (r.color (legacyOf ℝ content dark argb)) : ℝ) - (r.tone dark : Int)| ≤ 0.84 := by
  rw [c65_seed]
  refine c26_tone _ _ _ ?_ ?_ <;> cases dark <;> cases r <;> simp [Role.tone, Role.entry] <;> norm_num

/-- C65: hence, for every seed, the colours of a text role and of the role it is drawn on have a WCAG contrast of at
least 4.5. -/
theorem c65_color_contrast (content dark : Bool) (argb : Int) (pair : Role × Role) (hp : pair ∈ textOn) :
    4.5 ≤ wcagContrast (pair.1.color (legacyOf ℝ content dark argb)) (pair.2.color (legacyOf ℝ content dark argb)) := by
  rw [← ratio_eq_wcag]
  exact c65_contrast dark pair hp _ _ ((c65_color_tone content dark argb _).trans (by norm_num))
    ((c65_color_tone content dark argb _).trans (by norm_num))

example : (Role.onPrimary, Role.primary) ∈ textOn ∧ Role.onPrimary.tone false = 100 ∧
    Role.primary.tone false = 40 ∧ Role.onErrorContainer.tone true = 80 := by decide

end Mcu.Props
