import Verif.Lemmas.F64Cam
import Verif.Props.Binary64Roles
import Verif.Props.Binary64Search

/-! The colours roles are drawn with in IEEE-754 binary64: the palettes of the schemes are finite, and colours with nearly the
right tones have nearly the right contrast. -/

namespace Mcu.Lemmas

open Mcu.Ieee Props Props.Binary64 MathUtils ColorUtils HctSolver Spec Contrast DynamicColor Material

variable {L : Libm}

local notation "𝔻" => F64 L

/-- A finite hue, and a finite chroma that is at most 10⁵⁰. -/
def FinHC (h c : 𝔻) : Prop := Dbl.Fin h ∧ Dbl.Fin c ∧ Dbl.val c ≤ 10 ^ 50

theorem finHC_of {h c : 𝔻} {A B : ℝ} (hh : Bd h A) (hc : Bd c B) (hB : B ≤ 10 ^ 10) : FinHC h c := by
  obtain ⟨_, i, -⟩ := hh
  obtain ⟨v, j, hv⟩ := hc
  refine ⟨i.1, j.1, ?_⟩
  rw [j.2]
  have := (le_abs_self v).trans (hv.trans hB)
  exact this.trans (by norm_num)

theorem bd_sanitize {x : 𝔻} {B : ℝ} (h : Bd x B) : Bd (sanitizeDegreesDouble x) 360 := by
  obtain ⟨_, i, -⟩ := h
  obtain ⟨f, h0, h1, -⟩ := c06_binary64_partial x i.1
  exact ⟨_, ⟨f, rfl⟩, abs_le.2 ⟨by change -360 ≤ val _; linarith, h1⟩⟩

theorem bd_hue (hS : L.Sound) (argb : Int) : Bd (Hct.fromInt argb : Hct 𝔻).getHue 360 :=
  (cam64 hS.pow hS.dark hS.exp hS.trig hS.atan argb).1.bd _ (by norm_num) le_rfl

theorem bd_chroma (hS : L.Sound) (argb : Int) : Bd (Hct.fromInt argb : Hct 𝔻).getChroma (9.1 * 10 ^ 9) :=
  (cam64 hS.pow hS.dark hS.exp hS.trig hS.atan argb).2.1.bd _ (by norm_num) le_rfl

theorem bd_rotate {x : 𝔻} (hx : Bd x 360) : ∀ (l r : List 𝔻), (∀ a ∈ r, Bd a 400) → Bd (DynamicScheme.rotateLoop x l r) 360
  | [], r, _ => by unfold DynamicScheme.rotateLoop; exact hx
  | [_], r, _ => by unfold DynamicScheme.rotateLoop; exact hx
  | a :: b :: l, [], _ => by unfold DynamicScheme.rotateLoop; exact hx
  | a :: b :: l, c :: r, h => by
    unfold DynamicScheme.rotateLoop
    split
    · exact bd_sanitize (hx.add (h c (List.mem_cons_self)) 1000 (by norm_num) (by norm_num))
    · exact bd_rotate hx (b :: l) r fun a ha => h a (List.mem_cons_of_mem _ ha)

theorem bd_rotated {x : Hct 𝔻} (hx : Bd x.getHue 360) {l r : List 𝔻} (hr : ∀ a ∈ r, Bd a 400) {o : 𝔻}
    (h : DynamicScheme.getRotatedHue x l r = some o) : Bd o 360 := by
  unfold DynamicScheme.getRotatedHue at h
  simp only at h
  split at h
  · split at h
    · cases h
      exact bd_sanitize (hx.add (hr _ (List.mem_cons_self)) 1000 (by norm_num) (by norm_num))
    · cases h
      exact bd_rotate hx _ _ hr
  · cases h

/-- The hues and chromas of the palettes of a scheme are finite. -/
structure FinScheme (s : DynamicScheme 𝔻) : Prop where
  primary : FinHC s.primaryPalette.hue s.primaryPalette.chroma
  secondary : FinHC s.secondaryPalette.hue s.secondaryPalette.chroma
  tertiary : FinHC s.tertiaryPalette.hue s.tertiaryPalette.chroma
  neutral : FinHC s.neutralPalette.hue s.neutralPalette.chroma
  neutralVariant : FinHC s.neutralVariantPalette.hue s.neutralVariantPalette.chroma
  error : FinHC s.errorPalette.hue s.errorPalette.chroma

theorem bd_num (m e : ℕ) (v : ℝ) (hv : (OfScientific.ofScientific m true e : ℝ) = v) (h : |v| ≤ 390) :
    Bd (OfScientific.ofScientific m true e : 𝔻) 400 := bd_lit v hv 400 (by linarith) (by norm_num)

theorem fin_new (argb : Int) (v : Variant) (c : Option 𝔻) (d : Bool) {p1 p2 p3 p4 p5 : TonalPalette 𝔻}
    (h1 : FinHC p1.hue p1.chroma) (h2 : FinHC p2.hue p2.chroma) (h3 : FinHC p3.hue p3.chroma) (h4 : FinHC p4.hue p4.chroma)
    (h5 : FinHC p5.hue p5.chroma) : FinScheme (DynamicScheme.new argb v c d p1 p2 p3 p4 p5) :=
  ⟨h1, h2, h3, h4, h5, finHC_of (bd_num 250 1 25 (by norm_num) (by norm_num)) (bd_num 840 1 84 (by norm_num) (by norm_num)) (by norm_num)⟩

theorem bd_max {x y : 𝔻} {a b B : ℝ} (hx : Bd x a) (hy : Bd y b) (ha : a ≤ B) (hb : b ≤ B) : Bd (Fl.fmax x y) B := by
  obtain ⟨v, iv, hv⟩ := hx
  obtain ⟨w, iw, hw⟩ := hy
  refine ⟨_, iv.fmax iw, ?_⟩
  rcases max_choice v w with e | e <;> rw [e] <;> linarith

theorem bd_min {x y : 𝔻} {a b B : ℝ} (hx : Bd x a) (hy : Bd y b) (ha : a ≤ B) (hb : b ≤ B) : Bd (Fl.fmin x y) B := by
  obtain ⟨v, iv, hv⟩ := hx
  obtain ⟨w, iw, hw⟩ := hy
  refine ⟨_, iv.fmin iw, ?_⟩
  rcases min_choice v w with e | e <;> rw [e] <;> linarith

theorem finHC_standard (hS : L.Sound) {h : Hct 𝔻} (hs : Standard h) : FinHC h.getHue h.getChroma := by
  obtain ⟨n, rfl⟩ := hs
  exact finHC_of (bd_hue hS n) (bd_chroma hS n) (by norm_num)

theorem rotations_small : (∀ a ∈ (Schemes.vibrantSecondaryRotations : List 𝔻), Bd a 400) ∧
    (∀ a ∈ (Schemes.vibrantTertiaryRotations : List 𝔻), Bd a 400) ∧
    (∀ a ∈ (Schemes.expressiveSecondaryRotations : List 𝔻), Bd a 400) ∧
    (∀ a ∈ (Schemes.expressiveTertiaryRotations : List 𝔻), Bd a 400) := by
  refine ⟨?_, ?_, ?_, ?_⟩ <;>
  · intro a ha
    simp only [Schemes.vibrantSecondaryRotations, Schemes.vibrantTertiaryRotations, Schemes.expressiveSecondaryRotations,
      Schemes.expressiveTertiaryRotations, List.mem_cons, List.not_mem_nil, or_false] at ha
    rcases ha with rfl | rfl | rfl | rfl | rfl | rfl | rfl | rfl | rfl <;>
      exact bd_num _ _ _ rfl (by norm_num)

/-- Every scheme the library makes has finite palettes. -/
theorem fin_made (hS : L.Sound) (s : DynamicScheme 𝔻) (h : Made s) : FinScheme s := by
  obtain ⟨v, argb, d, c, h⟩ := h
  have hh := bd_hue hS argb
  have hc := bd_chroma hS argb
  have hsrc : Standard (Hct.fromInt argb : Hct 𝔻) := ⟨argb, rfl⟩
  have src := finHC_standard hS hsrc
  have lit {m e : ℕ} {v : ℝ} (hv : (OfScientific.ofScientific m true e : ℝ) = v) (h : |v| ≤ 390) : Bd (OfScientific.ofScientific m true e : 𝔻) 400 := bd_num m e v hv h
  have less : Bd (Fl.fmax ((Hct.fromInt argb : Hct 𝔻).getChroma - 32.0) ((Hct.fromInt argb : Hct 𝔻).getChroma * 0.5)) (9.9 * 10 ^ 9) := by
    refine bd_max (hc.sub (lit rfl (by norm_num)) (9.9 * 10 ^ 9) (by norm_num) (by norm_num)) (hc.mul (B := 9.9 * 10 ^ 9) (b := 1) ?_ (by norm_num) (by norm_num)) le_rfl le_rfl
    exact ⟨_, lhalf, by norm_num⟩
  have eighth : Bd ((Hct.fromInt argb : Hct 𝔻).getChroma / 8.0) (9.2 * 10 ^ 9) :=
    hc.div (in_lit (L := L) (m := 80) (s := true) (e := 1) 8 (by norm_num) (by norm_num [abs_le])) (by norm_num) _ (by norm_num) (by norm_num)
  have eighth4 : Bd ((Hct.fromInt argb : Hct 𝔻).getChroma / 8.0 + 4.0) (9.9 * 10 ^ 9) :=
    eighth.add (lit rfl (by norm_num)) _ (by norm_num) (by norm_num)
  have turn {m e : ℕ} {v : ℝ} (hv : (OfScientific.ofScientific m true e : ℝ) = v) (h : |v| ≤ 390) :
      Bd (sanitizeDegreesDouble ((Hct.fromInt argb : Hct 𝔻).getHue + OfScientific.ofScientific m true e)) 360 :=
    bd_sanitize (hh.add (lit hv h) 1000 (by norm_num) (by norm_num))
  have turn' {m e : ℕ} {v : ℝ} (hv : (OfScientific.ofScientific m true e : ℝ) = v) (h : |v| ≤ 390) :
      Bd (sanitizeDegreesDouble ((Hct.fromInt argb : Hct 𝔻).getHue - OfScientific.ofScientific m true e)) 360 :=
    bd_sanitize (hh.sub (lit hv h) 1000 (by norm_num) (by norm_num))
  have flat {m e : ℕ} {v : ℝ} (hv : (OfScientific.ofScientific m true e : ℝ) = v) (h : |v| ≤ 390) :
      FinHC (Hct.fromInt argb : Hct 𝔻).getHue (OfScientific.ofScientific m true e : 𝔻) := finHC_of hh (lit hv h) (by norm_num)
  have of {x : 𝔻} (hx : Bd x 360) {m e : ℕ} {v : ℝ} (hv : (OfScientific.ofScientific m true e : ℝ) = v) (h : |v| ≤ 390) :
      FinHC x (OfScientific.ofScientific m true e : 𝔻) := finHC_of hx (lit hv h) (by norm_num)
  obtain ⟨r1, r2, r3, r4⟩ := rotations_small (L := L)
  cases v
  case content =>
    simp only [make, Schemes.content, Option.bind_eq_bind, Option.bind_eq_some_iff] at h
    obtain ⟨l, hl, t, ht, h⟩ := h
    cases h
    exact fin_new _ _ _ _ src (finHC_of hh less (by norm_num))
      (finHC_standard hS (standard_fix ((keeps_analogous _ _).fresh hsrc hl t (List.mem_of_getLast? ht))))
      (finHC_of hh eighth (by norm_num)) (finHC_of hh eighth4 (by norm_num))
  case fidelity =>
    simp only [make, Schemes.fidelity, Option.bind_eq_bind, Option.bind_eq_some_iff] at h
    obtain ⟨t, ht, h⟩ := h
    cases h
    exact fin_new _ _ _ _ src (finHC_of hh less (by norm_num)) (finHC_standard hS (standard_fix (keeps_complement.fresh hsrc ht)))
      (finHC_of hh eighth (by norm_num)) (finHC_of hh eighth4 (by norm_num))
  case vibrant =>
    simp only [make, Schemes.vibrant, Option.bind_eq_bind, Option.bind_eq_some_iff] at h
    obtain ⟨a, ha, b, hb, h⟩ := h
    cases h
    exact fin_new _ _ _ _ (flat rfl (by norm_num)) (of (bd_rotated hh r1 ha) rfl (by norm_num))
      (of (bd_rotated hh r2 hb) rfl (by norm_num)) (flat rfl (by norm_num)) (flat rfl (by norm_num))
  case expressive =>
    simp only [make, Schemes.expressive, Option.bind_eq_bind, Option.bind_eq_some_iff] at h
    obtain ⟨a, ha, b, hb, h⟩ := h
    cases h
    have h15 : Bd ((Hct.fromInt argb : Hct 𝔻).getHue + 15.0) 1000 := hh.add (lit rfl (by norm_num)) 1000 (by norm_num) (by norm_num)
    exact fin_new _ _ _ _ (of (turn rfl (by norm_num)) rfl (by norm_num)) (of (bd_rotated hh r3 ha) rfl (by norm_num))
      (of (bd_rotated hh r4 hb) rfl (by norm_num)) (finHC_of h15 (lit rfl (by norm_num)) (by norm_num))
      (finHC_of h15 (lit rfl (by norm_num)) (by norm_num))
  case fruitSalad =>
    cases h
    exact fin_new _ _ _ _ (of (turn' rfl (by norm_num)) rfl (by norm_num)) (of (turn' rfl (by norm_num)) rfl (by norm_num))
      (flat rfl (by norm_num)) (flat rfl (by norm_num)) (flat rfl (by norm_num))
  case rainbow =>
    cases h
    exact fin_new _ _ _ _ (flat rfl (by norm_num)) (flat rfl (by norm_num)) (of (turn rfl (by norm_num)) rfl (by norm_num))
      (flat rfl (by norm_num)) (flat rfl (by norm_num))
  case tonalSpot =>
    cases h
    exact fin_new _ _ _ _ (flat rfl (by norm_num)) (flat rfl (by norm_num)) (of (turn rfl (by norm_num)) rfl (by norm_num))
      (flat rfl (by norm_num)) (flat rfl (by norm_num))
  all_goals
    cases h
    exact fin_new _ _ _ _ (flat rfl (by norm_num)) (flat rfl (by norm_num)) (flat rfl (by norm_num))
      (flat rfl (by norm_num)) (flat rfl (by norm_num))

/-- The palette of a role is one of the six. -/
theorem FinScheme.palette {s : DynamicScheme 𝔻} (h : FinScheme s) (rounds : Nat) (r : Role) :
    FinHC ((registry rounds r).palette s).hue ((registry rounds r).palette s).chroma := by
  obtain ⟨f, hf, -⟩ := c82_one_family r
  have e : (registry rounds r).palette s = f.palette s := by
    cases f <;> simp only [Family.roles, List.mem_cons, List.not_mem_nil, or_false] at hf
    · rcases hf with rfl | rfl | rfl | rfl | rfl | rfl | rfl | rfl | rfl | rfl | rfl <;> rfl
    · rcases hf with rfl | rfl | rfl | rfl | rfl | rfl | rfl | rfl | rfl <;> rfl
    · rcases hf with rfl | rfl | rfl | rfl | rfl | rfl | rfl | rfl | rfl <;> rfl
    · rcases hf with rfl | rfl | rfl | rfl <;> rfl
    · rcases hf with rfl | rfl | rfl | rfl | rfl | rfl | rfl | rfl | rfl | rfl | rfl | rfl | rfl | rfl | rfl | rfl <;> rfl
    · rcases hf with rfl | rfl | rfl | rfl | rfl <;> rfl
  rw [e]
  cases f
  exacts [h.primary, h.secondary, h.tertiary, h.error, h.neutral, h.neutralVariant]

/-- The solver with a tone that may be slightly out of range. -/
theorem solve_tone (hS : L.Sound) {h c t : 𝔻} (hc : FinHC h c) (ht : Dbl.Fin t) (h0 : -(2 / 10 ^ 5) ≤ Dbl.val t)
    (h1 : Dbl.val t ≤ 100 + 2 / 10 ^ 5) :
    |(lstarFromArgb (solveToInt h c t) : ℝ) - clampTone (Dbl.val t)| ≤ 0.8461 := by
  have near := (Ap.val_near (ap_lstarFromArgb hS.pow (solveToInt h c t))).2
  by_cases hin : 0 ≤ Dbl.val t ∧ Dbl.val t ≤ 100
  · have := c26_binary64 hS.pow hS.tail hS.trig hS.exp h c t hc.1 hc.2.1 hc.2.2 ht hin.1 hin.2
    rw [clampTone_of_mem hin.1 hin.2]
    change |_ - val t| ≤ _
    have := abs_le.1 this
    have near := abs_le.1 near
    rw [abs_le]
    norm_num at *
    constructor <;> linarith
  · have it : Is t (Dbl.val t) := ⟨ht, rfl⟩
    obtain ⟨w, iw, hw⟩ := ap_lit (L := L) (m := 1) (s := true) (e := 4) (v := 0.0001) rfl (by norm_num [abs_of_pos])
    change Is (0.0001 : 𝔻) w at iw
    obtain ⟨u, iu, hu⟩ := ap_lit (L := L) (m := 999999) (s := true) (e := 4) (v := 99.9999) rfl (by norm_num [abs_of_pos])
    change Is (99.9999 : 𝔻) u at iu
    have hw := abs_le.1 hw
    have hu := abs_le.1 hu
    have hρ : ρ = 1 / 10 ^ 12 := rfl
    rw [hρ] at hw hu
    have out : t < 0.0001 ∨ t > 99.9999 := by
      rw [it.lt_iff iw, gt_iff_lt, iu.lt_iff it]
      by_contra hn
      push Not at hn
      apply hin
      norm_num at *
      constructor <;> linarith
    have e : solveToInt h c t = argbFromLstar t := by
      unfold solveToInt
      rw [if_pos (.inr out)]
    rw [e]
    push Not at hin
    rcases lt_or_ge (Dbl.val t) 0 with hneg | hpos
    · rw [black64 it hneg.le (by norm_num at *; linarith), show clampTone (Dbl.val t) = 0 by
        unfold clampTone; rw [min_eq_right (by linarith), max_eq_left hneg.le]]
      rw [show (argbFromRgb 0 0 0 : Int) = 0xFF000000 by decide, c15_ignores_alpha _ 0 (by norm_num), lstar_black]
      norm_num
    · have h100 := hin hpos
      rw [white64 hS.pow it h100.le (by norm_num at *; linarith), show clampTone (Dbl.val t) = 100 by
        unfold clampTone; rw [min_eq_left h100.le, max_eq_right (by norm_num)]]
      rw [show (argbFromRgb 255 255 255 : Int) = 0xFFFFFFFF by decide, c15_ignores_alpha _ 0xFFFFFF (by norm_num), lstar_white]
      norm_num

/-! ### Contrast of colours whose tones are nearly right -/

/-- Changing a tone by at most 0.8461 changes the luminance, plus 5, by at most 3.26 %. -/
theorem y_close64 {t u : ℝ} (h0 : 0 ≤ t) (h : u ≤ t + 0.8461) : yFromLstar u + 5 ≤ 1.0326 * (yFromLstar t + 5) := by
  refine (add_le_add_left (c11_strictMono.1.monotone h) 5).trans ?_
  rcases le_or_gt t 8 with ht | ht
  · rw [y_line ht]
    rcases le_or_gt (t + 0.8461) 8 with hu | hu
    · rw [y_line hu]
      norm_num
      linarith
    · rw [y_cube hu]
      have e : ((t + 0.8461 + 16) / 116 : ℝ) ≤ 24 / 116 + 0.8461 / 116 := by norm_num; linarith
      have e0 : (0 : ℝ) ≤ (t + 0.8461 + 16) / 116 - 24 / 116 := by norm_num at hu ⊢; linarith
      generalize hw : ((t + 0.8461 + 16) / 116 : ℝ) - 24 / 116 = w at e0
      have ew : ((t + 0.8461 + 16) / 116 : ℝ) = w + 24 / 116 := by linarith
      have et : t = 116 * w + 8 - 0.8461 := by rw [← hw]; ring
      rw [ew, et]
      have w1 : w ≤ 0.8461 / 116 := by linarith
      norm_num at w1 ⊢
      nlinarith [mul_nonneg e0 e0, mul_nonneg e0 (sub_nonneg.2 w1), mul_nonneg (mul_nonneg e0 e0) (sub_nonneg.2 w1)]
  · rw [y_cube ht, y_cube (by norm_num; linarith)]
    generalize hw : ((t + 16) / 116 : ℝ) = w
    have hw0 : 24 / 116 < w := by rw [← hw]; linarith
    rw [show ((t + 0.8461 + 16) / 116 : ℝ) = w + 0.8461 / 116 by rw [← hw]; norm_num; ring]
    norm_num
    nlinarith [mul_nonneg (show (0 : ℝ) ≤ w + 1 / 4 by linarith) (sq_nonneg (w - 0.457)), sq_nonneg (w - 0.457),
      mul_nonneg (show (0 : ℝ) ≤ w by linarith) (sq_nonneg (w - 0.457))]

/-- If two tones, clamped, move by at most 0.8461, their contrast shrinks by less than 7 %. -/
theorem ratio_close64 {a b a' b' : ℝ} (ha' : 0 ≤ a' ∧ a' ≤ 100) (hb' : 0 ≤ b' ∧ b' ≤ 100)
    (h1 : |a' - clampTone a| ≤ 0.8461) (h2 : |b' - clampTone b| ≤ 0.8461) :
    ratioOfTones a b ≤ 1.0326 ^ 2 * ratioOfTones a' b' := by
  have main (a b a' b' : ℝ) (ha' : 0 ≤ a' ∧ a' ≤ 100) (hb' : 0 ≤ b' ∧ b' ≤ 100)
      (h1 : |a' - clampTone a| ≤ 0.8461) (h2 : |b' - clampTone b| ≤ 0.8461) (h : b ≤ a) :
      ratioOfTones a b ≤ 1.0326 ^ 2 * ratioOfTones a' b' := by
    have h1 := abs_le.1 h1
    have h2 := abs_le.1 h2
    obtain ⟨b0, b1⟩ := clampTone_range b
    have ya := y_close64 ha'.1 (show clampTone a ≤ a' + 0.8461 by linarith [h1.1])
    have yb := y_close64 b0 (show b' ≤ clampTone b + 0.8461 by linarith [h2.2])
    have p1 := (y_range ha'.1 ha'.2).1
    have p2 := (y_range b0 b1).1
    have p3 := (y_range hb'.1 hb'.2).1
    have hr := ratio_bound ha' hb'
    rw [ratioOfTones_of_le (clampTone_mono h)]
    generalize clampTone a = a at *
    generalize clampTone b = b at *
    calc (yFromLstar a + 5) / (yFromLstar b + 5) ≤ 1.0326 ^ 2 * ((yFromLstar a' + 5) / (yFromLstar b' + 5)) := by
          rw [← mul_div_assoc, div_le_div_iff₀ (by linarith) (by linarith)]
          calc (yFromLstar a + 5) * (yFromLstar b' + 5) ≤ (1.0326 * (yFromLstar a' + 5)) * (1.0326 * (yFromLstar b + 5)) := by
                apply mul_le_mul ya yb (by linarith); norm_num; linarith
            _ = _ := by ring
      _ ≤ _ := by
          apply mul_le_mul_of_nonneg_left hr; norm_num
  rcases le_total b a with h | h
  · exact main a b a' b' ha' hb' h1 h2 h
  · rw [c17_symm a b, c17_symm a' b']
    exact main b a b' a' hb' ha' h2 h1 h

theorem ratio_maxmin {a b : ℝ} : ratioOfTones a b =
    (max (yFromLstar (clampTone a)) (yFromLstar (clampTone b)) + 5) / (min (yFromLstar (clampTone a)) (yFromLstar (clampTone b)) + 5) := by
  rcases le_total b a with h | h
  · have := c11_strictMono.1.monotone (clampTone_mono h)
    rw [ratioOfTones_of_le (clampTone_mono h), max_eq_left this, min_eq_right this]
  · have := c11_strictMono.1.monotone (clampTone_mono h)
    rw [c17_symm, ratioOfTones_of_le (clampTone_mono h), max_eq_right this, min_eq_left this]

theorem clampTone_close (a b : ℝ) : |clampTone a - clampTone b| ≤ |a - b| := by
  unfold clampTone
  refine (abs_max_sub_max_le_max _ _ _ _).trans (max_le (by simp) ?_)
  refine (abs_min_sub_min_le_max _ _ _ _).trans (max_le (by simp) le_rfl)

/-- Tones that differ by at most 2·10⁻⁵ have ratios that differ by at most 0.00039. -/
theorem ratio_stable {a b a' b' : ℝ} (h1 : |a - a'| ≤ 2 / 10 ^ 5) (h2 : |b - b'| ≤ 2 / 10 ^ 5) :
    |ratioOfTones a b - ratioOfTones a' b'| ≤ 0.00039 := by
  have ylip (u v : ℝ) (h : |u - v| ≤ 2 / 10 ^ 5) : |yFromLstar (clampTone u) - yFromLstar (clampTone v)| ≤ 7 / 10 ^ 5 := by
    have hc := (clampTone_close u v).trans h
    obtain ⟨u0, u1⟩ := clampTone_range u
    obtain ⟨v0, v1⟩ := clampTone_range v
    have := labInvf_lipschitz (f := (clampTone u + 16) / 116) (g := (clampTone v + 16) / 116) (by norm_num; linarith) (by norm_num; linarith)
    rw [yFromLstar_eq, yFromLstar_eq, ← mul_sub, abs_mul, abs_of_pos (by norm_num : (0 : ℝ) < 100)]
    rw [show (clampTone u + 16) / 116 - (clampTone v + 16) / 116 = (clampTone u - clampTone v) / 116 by ring, abs_div,
      abs_of_pos (by norm_num : (0 : ℝ) < 116)] at this
    norm_num at hc ⊢
    linarith
  have hX := (abs_max_sub_max_le_max _ _ _ _).trans (max_le (ylip a a' h1) (ylip b b' h2))
  have hY := (abs_min_sub_min_le_max _ _ _ _).trans (max_le (ylip a a' h1) (ylip b b' h2))
  rw [ratio_maxmin, ratio_maxmin]
  have range (u : ℝ) : 0 ≤ yFromLstar (clampTone u) ∧ yFromLstar (clampTone u) ≤ 100 := y_range (clampTone_range u).1 (clampTone_range u).2
  have r1 := range a
  have r2 := range b
  have r3 := range a'
  have r4 := range b'
  generalize yFromLstar (clampTone a) = A at *
  generalize yFromLstar (clampTone b) = B at *
  generalize yFromLstar (clampTone a') = A' at *
  generalize yFromLstar (clampTone b') = B' at *
  have m0 : 0 ≤ min A B := le_min r1.1 r2.1
  have m1 : 0 ≤ min A' B' := le_min r3.1 r4.1
  have M0 : max A B ≤ 100 := max_le r1.2 r2.2
  have M1 : 0 ≤ max A' B' := r3.1.trans (le_max_left _ _)
  have M2 : max A' B' ≤ 100 := max_le r3.2 r4.2
  generalize max A B = X at *
  generalize min A B = Y at *
  generalize max A' B' = X' at *
  generalize min A' B' = Y' at *
  have hX := abs_le.1 hX
  have hY := abs_le.1 hY
  have q0 : 0 ≤ (X' + 5) / (Y' + 5) := div_nonneg (by linarith) (by linarith)
  have q1 : (X' + 5) / (Y' + 5) ≤ 21 := by rw [div_le_iff₀ (by linarith)]; linarith
  have e : X' + 5 = (X' + 5) / (Y' + 5) * (Y' + 5) := (div_mul_cancel₀ _ (by linarith)).symm
  generalize (X' + 5) / (Y' + 5) = q at *
  rw [abs_le]
  norm_num at *
  constructor
  · rw [← sub_nonneg]
    have : q - 39 / 100000 ≤ (X + 5) / (Y + 5) := by
      rw [le_div_iff₀ (by linarith)]
      nlinarith
    linarith
  · have : (X + 5) / (Y + 5) ≤ q + 39 / 100000 := by
      rw [div_le_iff₀ (by linarith)]
      nlinarith
    linarith

end Mcu.Lemmas
