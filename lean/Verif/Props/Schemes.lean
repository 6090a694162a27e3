import Verif.Spec.Schemes
import Verif.Props.Opaque
import Verif.Props.Temperature
import Verif.Model.Material

/-! Properties C61-C63: hue rotation tables and the scheme variants. -/

namespace Mcu.Props

open DynamicScheme SchemeSpec MathUtils ColorUtils TemperatureSpec Lemmas TemperatureCache

/-! ### C61 -/

section
variable {F : Type} [Fl F]

/-- C61: tables of different lengths are rejected, all others are accepted, for any number type. -/
theorem c61_rejects (src : Hct F) (hues rotations : List F) :
    getRotatedHue src hues rotations = none ↔ hues.length ≠ rotations.length := by
  unfold getRotatedHue
  by_cases h : hues.length = rotations.length
  · rw [if_pos h]
    refine ⟨fun h' => ?_, fun h' => absurd h h'⟩
    split at h' <;> cases h'
  · rw [if_neg h]
    exact ⟨fun _ => h, fun _ => rfl⟩

/-- C61: a table of one rotation is always applied. -/
theorem c61_single (src : Hct F) (hue rotation : F) :
    getRotatedHue src [hue] [rotation] = some (sanitizeDegreesDouble (src.getHue + rotation)) := rfl

end

theorem turned_sanitize (h off : ℝ) : Turned (sanitizeDegreesDouble (h + off)) h off := c06_sanitize_real _

theorem turned_zero {h : ℝ} (h0 : 0 ≤ h) (h1 : h < 360) : Turned h h 0 := ⟨h0, h1, 0, by simp⟩

theorem rotateLoop_first {F : Type} [Fl F] (x : F) (i : Nat) : ∀ (hues rotations : List F) (a b r : F),
    hues[i]? = some a → hues[i + 1]? = some b → rotations[i]? = some r → a < x → x < b →
    (∀ j, j < i → ∀ a' b', hues[j]? = some a' → hues[j + 1]? = some b' → ¬ (a' < x ∧ x < b')) →
    rotateLoop x hues rotations = sanitizeDegreesDouble (x + r) := by
  induction i with
  | zero =>
    intro hues rotations a b r ha hb hr h1 h2 _
    match hues, rotations, ha, hb, hr with
    | a' :: b' :: hs, r' :: rs, ha, hb, hr =>
      simp only [List.getElem?_cons_zero, Option.some.injEq, zero_add, List.getElem?_cons_succ] at ha hb hr
      subst ha; subst hb; subst hr
      simp only [rotateLoop, if_pos (And.intro h1 h2)]
  | succ i ih =>
    intro hues rotations a b r ha hb hr h1 h2 hj
    match hues, rotations, ha, hb, hr with
    | a' :: b' :: hs, r' :: rs, ha, hb, hr =>
      have h0 : ¬ (a' < x ∧ x < b') := hj 0 (by omega) a' b' rfl rfl
      simp only [rotateLoop, if_neg h0]
      simp only [List.getElem?_cons_succ] at ha hb hr
      exact ih _ _ a b r ha hb hr h1 h2 fun j hlt a'' b'' e1 e2 => hj (j + 1) (by omega) a'' b'' e1 e2

theorem rotateLoop_none {F : Type} [Fl F] (x : F) : ∀ (hues rotations : List F),
    (∀ j, ∀ a' b', hues[j]? = some a' → hues[j + 1]? = some b' → ¬ (a' < x ∧ x < b')) →
    rotateLoop x hues rotations = x := by
  intro hues
  induction hues with
  | nil => intro rotations _; rfl
  | cons a hs ih =>
    intro rotations hj
    match hs, rotations with
    | [], [] => rfl
    | [], _ :: _ => rfl
    | b :: hs, [] => rfl
    | b :: hs, r :: rs =>
      have h0 : ¬ (a < x ∧ x < b) := hj 0 a b rfl rfl
      simp only [rotateLoop, if_neg h0]
      exact ih rs fun j a'' b'' e1 e2 => hj (j + 1) a'' b'' e1 e2

theorem getRotatedHue_long {F : Type} [Fl F] (src : Hct F) (hues rotations : List F) (hl : hues.length = rotations.length)
    (h1 : hues.length ≠ 1) : getRotatedHue src hues rotations = some (rotateLoop src.getHue hues rotations) := by
  simp only [getRotatedHue, if_pos hl]
  match rotations, hl with
  | [], _ => rfl
  | [r], hl => exact absurd hl h1
  | _ :: _ :: _, _ => rfl

/-- C61: for increasing breakpoints, a hue strictly between two neighbouring breakpoints is turned by the rotation
listed with the lower one, and the answer is an angle in [0, 360). -/
theorem c61_interval (src : Hct ℝ) (hues rotations : List ℝ) (hl : hues.length = rotations.length)
    (hs : hues.Pairwise (· ≤ ·)) (i : Nat) (a b r : ℝ) (ha : hues[i]? = some a) (hb : hues[i + 1]? = some b)
    (hr : rotations[i]? = some r) (h1 : a < src.getHue) (h2 : src.getHue < b) :
    ∃ x, getRotatedHue src hues rotations = some x ∧ Turned x src.getHue r := by
  have hlen : i + 1 < hues.length := (List.getElem?_eq_some_iff.1 hb).1
  rw [getRotatedHue_long src hues rotations hl (by omega)]
  refine ⟨_, rfl, ?_⟩
  rw [rotateLoop_first src.getHue i hues rotations a b r ha hb hr h1 h2]
  · exact turned_sanitize _ _
  · intro j hj a' b' ea eb ⟨_, hlt⟩
    obtain ⟨hjb, eb'⟩ := List.getElem?_eq_some_iff.1 eb
    obtain ⟨hia, ea'⟩ := List.getElem?_eq_some_iff.1 ha
    have : b' ≤ a := by
      rw [← eb', ← ea']
      rcases Nat.lt_or_ge (j + 1) i with h | h
      · exact List.pairwise_iff_getElem.1 hs _ _ _ _ h
      · have e : j + 1 = i := by omega
        subst e; exact le_rfl
    linarith

/-- C61: for arbitrary (not necessarily increasing) breakpoints the first interval around the hue decides. -/
theorem c61_first_interval (src : Hct ℝ) (hues rotations : List ℝ) (hl : hues.length = rotations.length)
    (i : Nat) (a b r : ℝ) (ha : hues[i]? = some a) (hb : hues[i + 1]? = some b)
    (hr : rotations[i]? = some r) (h1 : a < src.getHue) (h2 : src.getHue < b)
    (hfirst : ∀ j, j < i → ∀ a' b', hues[j]? = some a' → hues[j + 1]? = some b' →
      ¬ (a' < src.getHue ∧ src.getHue < b')) :
    ∃ x, getRotatedHue src hues rotations = some x ∧ Turned x src.getHue r := by
  have hlen : i + 1 < hues.length := (List.getElem?_eq_some_iff.1 hb).1
  rw [getRotatedHue_long src hues rotations hl (by omega)]
  refine ⟨_, rfl, ?_⟩
  rw [rotateLoop_first src.getHue i hues rotations a b r ha hb hr h1 h2 hfirst]
  exact turned_sanitize _ _

/-- C61: a hue that is strictly inside no interval, for instance one that equals a breakpoint, is not turned
at all. -/
theorem c61_outside (src : Hct ℝ) (hues rotations : List ℝ) (hl : hues.length = rotations.length)
    (hlen : hues.length ≠ 1)
    (hno : ∀ j a b, hues[j]? = some a → hues[j + 1]? = some b → ¬ (a < src.getHue ∧ src.getHue < b)) :
    getRotatedHue src hues rotations = some src.getHue := by
  rw [getRotatedHue_long src hues rotations hl hlen, rotateLoop_none _ _ _ hno]

/-- C61: for every colour and every pair of tables of equal length the answer is an angle in [0, 360). -/
theorem c61_angle (argb : Int) (hues rotations : List ℝ) (hl : hues.length = rotations.length) :
    ∃ x, getRotatedHue (Hct.fromInt argb) hues rotations = some x ∧ 0 ≤ x ∧ x < 360 := by
  have hr : 0 ≤ (Hct.fromInt argb : Hct ℝ).getHue ∧ (Hct.fromInt argb : Hct ℝ).getHue < 360 := hue_range argb
  have loop (x : ℝ) (hx : 0 ≤ x ∧ x < 360) : ∀ (hues rotations : List ℝ),
      0 ≤ rotateLoop x hues rotations ∧ rotateLoop x hues rotations < 360 := by
    intro hues
    induction hues with
    | nil => intro _; exact hx
    | cons a hs ih =>
      intro rotations
      match hs, rotations with
      | [], [] => exact hx
      | [], _ :: _ => exact hx
      | b :: hs, [] => exact hx
      | b :: hs, r :: rs =>
        simp only [rotateLoop]
        split_ifs
        · exact ⟨(turned_sanitize _ _).1, (turned_sanitize _ _).2.1⟩
        · exact ih rs
  by_cases h1 : hues.length = 1
  · match hues, rotations, hl, h1 with
    | [h], [r], _, _ =>
      exact ⟨_, rfl, (turned_sanitize _ _).1, (turned_sanitize _ _).2.1⟩
  · rw [getRotatedHue_long _ hues rotations hl h1]
    exact ⟨_, rfl, loop _ hr hues rotations⟩

/-- A table meeting the hypotheses: hue 50 in (41, 61) of the vibrant table is turned by 15. -/
example (src : Hct ℝ) (h : src.getHue = 50) :
    ∃ x, getRotatedHue src Schemes.vibrantHues Schemes.vibrantSecondaryRotations = some x ∧
      Turned x 50 15 := by
  have := c61_interval src Schemes.vibrantHues Schemes.vibrantSecondaryRotations rfl
    (by simp only [Schemes.vibrantHues]; norm_num) 1 41.0 61.0 15.0 rfl rfl rfl (by rw [h]; norm_num) (by rw [h]; norm_num)
  rw [h, show (15.0 : ℝ) = 15 by norm_num] at this
  exact this

/-! ### C62 -/

/-- The colour has equal red, green and blue. -/
def Gray (argb : Int) : Prop :=
  redFromArgb argb = greenFromArgb argb ∧ greenFromArgb argb = blueFromArgb argb

theorem gray_solver (h t : ℝ) : Gray (HctSolver.solveToInt h 0.0 t) :=
  (c24_gray h 0.0 t (Or.inl (by norm_num))).2

/-- C62: for every seed, the colours of the five palettes of a monochrome scheme are gray, whether asked for by
integer tone, by fractional tone or as key colour, and whatever has been read before. -/
theorem c62_palettes (src : Hct ℝ) (dark : Bool) (contrast : ℝ) :
    let s := Schemes.monochrome src dark contrast
    ∀ p ∈ [s.primaryPalette, s.secondaryPalette, s.tertiaryPalette, s.neutralPalette, s.neutralVariantPalette],
    ∀ ops : List PaletteOp,
      (∀ t : Int, Gray ((afterReads p ops).get t).1) ∧
      (∀ t : ℝ, Gray ((afterReads p ops).getHct t).toInt) ∧
      Gray (afterReads p ops).keyColor.toInt := by
  intro s p hp ops
  have e : p = TonalPalette.of src.getHue 0.0 := by
    simpa [s, Schemes.monochrome, DynamicScheme.new] using hp
  subst e
  have hget (t : Int) : Gray ((afterReads (TonalPalette.of src.getHue (0.0 : ℝ)) ops).get t).1 := by
    rw [c32_history_independent]; exact gray_solver _ _
  refine ⟨hget, fun t => ?_, ?_⟩
  · rw [c33_characterisation]
    have hk := c32_reads_keep_parameters (TonalPalette.of src.getHue (0.0 : ℝ)) ops
    cases hc : (afterReads (TonalPalette.of src.getHue (0.0 : ℝ)) ops).cache.lookup (Fl.toI64 t) with
    | none =>
      rw [hk.1, hk.2.1]; exact gray_solver _ _
    | some a =>
      have := hget (Fl.toI64 t)
      rw [get_fst, answer, hc] at this
      exact this
  · rw [(c32_reads_keep_parameters _ ops).2.2]
    obtain ⟨⟨t, _, _, ht⟩, _⟩ := c36_at_least_tone_50 src.getHue (0.0 : ℝ)
    rw [ht]; exact gray_solver _ _

open Material in
/-- C62: every Material role of a monochrome scheme except the error roles is gray. -/
theorem c62_roles (src : Hct ℝ) (dark : Bool) (contrast : ℝ) (fuel loopFuel : Nat) (r : Role)
    (hr : r ≠ .error ∧ r ≠ .onError ∧ r ≠ .errorContainer ∧ r ≠ .onErrorContainer) (argb : Int)
    (h : roleArgb fuel loopFuel (Schemes.monochrome src dark contrast) r = some argb) : Gray argb := by
  have hp : (registry loopFuel r).palette (Schemes.monochrome src dark contrast) =
      TonalPalette.of src.getHue 0.0 := by
    obtain ⟨h1, h2, h3, h4⟩ := hr
    cases r <;> first | rfl | contradiction
  simp only [roleArgb, DynamicColor.freshHct, hp] at h
  cases ht : DynamicColor.getTone (registry loopFuel) (Schemes.monochrome src dark contrast) fuel r with
  | none => rw [ht] at h; cases h
  | some t =>
    rw [ht] at h
    cases h
    exact gray_solver _ _

/-- The gray of tone 50 is met and a colour that is not gray exists. -/
example : Gray 0xFF777777 ∧ ¬ Gray 0xFF777778 := by
  constructor
  · exact ⟨by decide, by decide⟩
  · rintro ⟨_, h⟩; revert h; decide

/-! ### C63 -/

theorem hasColors_of {x h off c c' : ℝ} (ht : Turned x h off) (hc : c = c') :
    HasColors (TonalPalette.of x c) h off c' := by
  subst hc
  exact ⟨ht, rfl, fun ops t => c32_history_independent x c ops t⟩

theorem hasColors_fromHct {o : Hct ℝ} {h off c' : ℝ} (ht : Turned o.getHue h off) (hc : o.getChroma = c') :
    HasColors (TonalPalette.fromHct o) h off c' := by
  subst hc
  exact ⟨ht, rfl, fun ops t => c32_history_independent_from_hct o ops t⟩

theorem turned_self (argb : Int) : Turned (Hct.fromInt argb : Hct ℝ).getHue (Hct.fromInt argb : Hct ℝ).getHue 0 :=
  turned_zero (hue_range argb).1 (hue_range argb).2

theorem turned_sanitize' {h off off' : ℝ} (e : off = off') : Turned (sanitizeDegreesDouble (h + off)) h off' := by
  subst e; exact turned_sanitize _ _

theorem records_new (argb : Int) (v : Variant) (dark : Bool) (c : ℝ) (p s t n nv : TonalPalette ℝ) :
    Records (DynamicScheme.new argb v (some c) dark p s t n nv) argb v dark c :=
  { source := rfl, hct := rfl, variant := rfl, isDark := rfl, level := rfl,
    error := hasColors_of ⟨by norm_num, by norm_num, 0, by norm_num⟩ (by norm_num) }

/-- C63: tonal spot. -/
theorem c63_tonal_spot (argb : Int) (dark : Bool) (c : ℝ) :
    let s := Schemes.tonalSpot (Hct.fromInt argb) dark c
    Records s argb .tonalSpot dark c ∧
      Documented s (Hct.fromInt argb : Hct ℝ).getHue 0 36 0 16 60 24 0 6 0 8 := by
  have z := turned_self argb
  exact ⟨records_new .., ⟨hasColors_of z (by norm_num), hasColors_of z (by norm_num),
    hasColors_of (turned_sanitize' (by norm_num)) (by norm_num), hasColors_of z (by norm_num),
    hasColors_of z (by norm_num)⟩⟩

/-- C63: rainbow. -/
theorem c63_rainbow (argb : Int) (dark : Bool) (c : ℝ) :
    let s := Schemes.rainbow (Hct.fromInt argb) dark c
    Records s argb .rainbow dark c ∧
      Documented s (Hct.fromInt argb : Hct ℝ).getHue 0 48 0 16 60 24 0 0 0 0 := by
  have z := turned_self argb
  exact ⟨records_new .., ⟨hasColors_of z (by norm_num), hasColors_of z (by norm_num),
    hasColors_of (turned_sanitize' (by norm_num)) (by norm_num), hasColors_of z (by norm_num),
    hasColors_of z (by norm_num)⟩⟩

/-- C63: neutral. -/
theorem c63_neutral (argb : Int) (dark : Bool) (c : ℝ) :
    let s := Schemes.neutral (Hct.fromInt argb) dark c
    Records s argb .neutral dark c ∧
      Documented s (Hct.fromInt argb : Hct ℝ).getHue 0 12 0 8 0 16 0 2 0 2 := by
  have z := turned_self argb
  exact ⟨records_new .., ⟨hasColors_of z (by norm_num), hasColors_of z (by norm_num),
    hasColors_of z (by norm_num), hasColors_of z (by norm_num), hasColors_of z (by norm_num)⟩⟩

/-- C63: monochrome. -/
theorem c63_monochrome (argb : Int) (dark : Bool) (c : ℝ) :
    let s := Schemes.monochrome (Hct.fromInt argb) dark c
    Records s argb .monochrome dark c ∧
      Documented s (Hct.fromInt argb : Hct ℝ).getHue 0 0 0 0 0 0 0 0 0 0 := by
  have z := turned_self argb
  exact ⟨records_new .., ⟨hasColors_of z (by norm_num), hasColors_of z (by norm_num),
    hasColors_of z (by norm_num), hasColors_of z (by norm_num), hasColors_of z (by norm_num)⟩⟩

/-- C63: fruit salad. -/
theorem c63_fruit_salad (argb : Int) (dark : Bool) (c : ℝ) :
    let s := Schemes.fruitSalad (Hct.fromInt argb) dark c
    Records s argb .fruitSalad dark c ∧
      Documented s (Hct.fromInt argb : Hct ℝ).getHue (-50) 48 (-50) 36 0 36 0 10 0 16 := by
  have z := turned_self argb
  have m : Turned (sanitizeDegreesDouble ((Hct.fromInt argb : Hct ℝ).getHue - 50.0))
      (Hct.fromInt argb : Hct ℝ).getHue (-50) := by
    rw [sub_eq_add_neg]; exact turned_sanitize' (by norm_num)
  exact ⟨records_new .., ⟨hasColors_of m (by norm_num), hasColors_of m (by norm_num),
    hasColors_of z (by norm_num), hasColors_of z (by norm_num), hasColors_of z (by norm_num)⟩⟩

/-- The tables of the vibrant variant. -/
theorem vibrant_rows (src : Hct ℝ) (row : ℝ × ℝ × ℝ × ℝ) (hrow : row ∈ vibrantTable)
    (h1 : row.1 < src.getHue) (h2 : src.getHue < row.2.1) :
    (∃ x, getRotatedHue src Schemes.vibrantHues Schemes.vibrantSecondaryRotations = some x ∧
      Turned x src.getHue row.2.2.1) ∧
    ∃ x, getRotatedHue src Schemes.vibrantHues Schemes.vibrantTertiaryRotations = some x ∧
      Turned x src.getHue row.2.2.2 := by
  have hs : (Schemes.vibrantHues : List ℝ).Pairwise (· ≤ ·) := by simp only [Schemes.vibrantHues]; norm_num
  have e1 : (Schemes.vibrantHues : List ℝ) = [0, 41, 61, 101, 131, 181, 251, 301, 360] := by
    simp only [Schemes.vibrantHues]; norm_num
  have e2 : (Schemes.vibrantSecondaryRotations : List ℝ) = [18, 15, 10, 12, 15, 18, 15, 12, 12] := by
    simp only [Schemes.vibrantSecondaryRotations]; norm_num
  have e3 : (Schemes.vibrantTertiaryRotations : List ℝ) = [35, 30, 20, 25, 30, 35, 30, 25, 25] := by
    simp only [Schemes.vibrantTertiaryRotations]; norm_num
  rw [e1] at hs ⊢
  rw [e2, e3]
  simp only [vibrantTable, List.mem_cons, List.not_mem_nil, or_false] at hrow
  rcases hrow with rfl | rfl | rfl | rfl | rfl | rfl | rfl | rfl
  · exact ⟨c61_interval _ _ _ (by rfl) hs 0 _ _ _ rfl rfl rfl h1 h2, c61_interval _ _ _ (by rfl) hs 0 _ _ _ rfl rfl rfl h1 h2⟩
  · exact ⟨c61_interval _ _ _ (by rfl) hs 1 _ _ _ rfl rfl rfl h1 h2, c61_interval _ _ _ (by rfl) hs 1 _ _ _ rfl rfl rfl h1 h2⟩
  · exact ⟨c61_interval _ _ _ (by rfl) hs 2 _ _ _ rfl rfl rfl h1 h2, c61_interval _ _ _ (by rfl) hs 2 _ _ _ rfl rfl rfl h1 h2⟩
  · exact ⟨c61_interval _ _ _ (by rfl) hs 3 _ _ _ rfl rfl rfl h1 h2, c61_interval _ _ _ (by rfl) hs 3 _ _ _ rfl rfl rfl h1 h2⟩
  · exact ⟨c61_interval _ _ _ (by rfl) hs 4 _ _ _ rfl rfl rfl h1 h2, c61_interval _ _ _ (by rfl) hs 4 _ _ _ rfl rfl rfl h1 h2⟩
  · exact ⟨c61_interval _ _ _ (by rfl) hs 5 _ _ _ rfl rfl rfl h1 h2, c61_interval _ _ _ (by rfl) hs 5 _ _ _ rfl rfl rfl h1 h2⟩
  · exact ⟨c61_interval _ _ _ (by rfl) hs 6 _ _ _ rfl rfl rfl h1 h2, c61_interval _ _ _ (by rfl) hs 6 _ _ _ rfl rfl rfl h1 h2⟩
  · exact ⟨c61_interval _ _ _ (by rfl) hs 7 _ _ _ rfl rfl rfl h1 h2, c61_interval _ _ _ (by rfl) hs 7 _ _ _ rfl rfl rfl h1 h2⟩

/-- The tables of the expressive variant. -/
theorem expressive_rows (src : Hct ℝ) (row : ℝ × ℝ × ℝ × ℝ) (hrow : row ∈ expressiveTable)
    (h1 : row.1 < src.getHue) (h2 : src.getHue < row.2.1) :
    (∃ x, getRotatedHue src Schemes.expressiveHues Schemes.expressiveSecondaryRotations = some x ∧
      Turned x src.getHue row.2.2.1) ∧
    ∃ x, getRotatedHue src Schemes.expressiveHues Schemes.expressiveTertiaryRotations = some x ∧
      Turned x src.getHue row.2.2.2 := by
  have hs : (Schemes.expressiveHues : List ℝ).Pairwise (· ≤ ·) := by simp only [Schemes.expressiveHues]; norm_num
  have e1 : (Schemes.expressiveHues : List ℝ) = [0, 21, 51, 121, 151, 191, 271, 321, 360] := by
    simp only [Schemes.expressiveHues]; norm_num
  have e2 : (Schemes.expressiveSecondaryRotations : List ℝ) = [45, 95, 45, 20, 45, 90, 45, 45, 45] := by
    simp only [Schemes.expressiveSecondaryRotations]; norm_num
  have e3 : (Schemes.expressiveTertiaryRotations : List ℝ) = [120, 120, 20, 45, 20, 15, 20, 120, 120] := by
    simp only [Schemes.expressiveTertiaryRotations]; norm_num
  rw [e1] at hs ⊢
  rw [e2, e3]
  simp only [expressiveTable, List.mem_cons, List.not_mem_nil, or_false] at hrow
  rcases hrow with rfl | rfl | rfl | rfl | rfl | rfl | rfl | rfl
  · exact ⟨c61_interval _ _ _ (by rfl) hs 0 _ _ _ rfl rfl rfl h1 h2, c61_interval _ _ _ (by rfl) hs 0 _ _ _ rfl rfl rfl h1 h2⟩
  · exact ⟨c61_interval _ _ _ (by rfl) hs 1 _ _ _ rfl rfl rfl h1 h2, c61_interval _ _ _ (by rfl) hs 1 _ _ _ rfl rfl rfl h1 h2⟩
  · exact ⟨c61_interval _ _ _ (by rfl) hs 2 _ _ _ rfl rfl rfl h1 h2, c61_interval _ _ _ (by rfl) hs 2 _ _ _ rfl rfl rfl h1 h2⟩
  · exact ⟨c61_interval _ _ _ (by rfl) hs 3 _ _ _ rfl rfl rfl h1 h2, c61_interval _ _ _ (by rfl) hs 3 _ _ _ rfl rfl rfl h1 h2⟩
  · exact ⟨c61_interval _ _ _ (by rfl) hs 4 _ _ _ rfl rfl rfl h1 h2, c61_interval _ _ _ (by rfl) hs 4 _ _ _ rfl rfl rfl h1 h2⟩
  · exact ⟨c61_interval _ _ _ (by rfl) hs 5 _ _ _ rfl rfl rfl h1 h2, c61_interval _ _ _ (by rfl) hs 5 _ _ _ rfl rfl rfl h1 h2⟩
  · exact ⟨c61_interval _ _ _ (by rfl) hs 6 _ _ _ rfl rfl rfl h1 h2, c61_interval _ _ _ (by rfl) hs 6 _ _ _ rfl rfl rfl h1 h2⟩
  · exact ⟨c61_interval _ _ _ (by rfl) hs 7 _ _ _ rfl rfl rfl h1 h2, c61_interval _ _ _ (by rfl) hs 7 _ _ _ rfl rfl rfl h1 h2⟩

/-- C63: vibrant, for source hues strictly inside one of the documented intervals. -/
theorem c63_vibrant (argb : Int) (dark : Bool) (c : ℝ) (row : ℝ × ℝ × ℝ × ℝ) (hrow : row ∈ vibrantTable)
    (h1 : row.1 < (Hct.fromInt argb : Hct ℝ).getHue) (h2 : (Hct.fromInt argb : Hct ℝ).getHue < row.2.1) :
    ∃ s, Schemes.vibrant (Hct.fromInt argb) dark c = some s ∧ Records s argb .vibrant dark c ∧
      Documented s (Hct.fromInt argb : Hct ℝ).getHue 0 200 row.2.2.1 24 row.2.2.2 32 0 10 0 12 := by
  have z := turned_self argb
  obtain ⟨⟨x, ex, hx⟩, ⟨y, ey, hy⟩⟩ := vibrant_rows _ row hrow h1 h2
  refine ⟨_, by simp only [Schemes.vibrant, ex, ey]; rfl, records_new .., ?_⟩
  exact ⟨hasColors_of z (by norm_num), hasColors_of hx (by norm_num), hasColors_of hy (by norm_num),
    hasColors_of z (by norm_num), hasColors_of z (by norm_num)⟩

/-- C63: for the vibrant variant and a source hue that is no documented interval's interior, that is 0 or a
breakpoint, secondary and tertiary hue are the source hue.  The scheme can always be built. -/
theorem c63_vibrant_breakpoints (argb : Int) (dark : Bool) (c : ℝ)
    (hno : ∀ row ∈ vibrantTable, ¬ (row.1 < (Hct.fromInt argb : Hct ℝ).getHue ∧
      (Hct.fromInt argb : Hct ℝ).getHue < row.2.1)) :
    ∃ s, Schemes.vibrant (Hct.fromInt argb) dark c = some s ∧ Records s argb .vibrant dark c ∧
      Documented s (Hct.fromInt argb : Hct ℝ).getHue 0 200 0 24 0 32 0 10 0 12 := by
  have z := turned_self argb
  have e1 : (Schemes.vibrantHues : List ℝ) = [0, 41, 61, 101, 131, 181, 251, 301, 360] := by
    simp only [Schemes.vibrantHues]; norm_num
  have hout : ∀ j a b, (Schemes.vibrantHues : List ℝ)[j]? = some a → (Schemes.vibrantHues : List ℝ)[j + 1]? = some b →
      ¬ (a < (Hct.fromInt argb : Hct ℝ).getHue ∧ (Hct.fromInt argb : Hct ℝ).getHue < b) := by
    rw [e1]
    intro j a b ha hb
    have hj : j + 1 < 9 := (List.getElem?_eq_some_iff.1 hb).1
    simp only [vibrantTable, List.mem_cons, List.not_mem_nil, or_false, forall_eq_or_imp, forall_eq] at hno
    obtain ⟨n0, n1, n2, n3, n4, n5, n6, n7⟩ := hno
    have : j = 0 ∨ j = 1 ∨ j = 2 ∨ j = 3 ∨ j = 4 ∨ j = 5 ∨ j = 6 ∨ j = 7 := by omega
    rcases this with rfl | rfl | rfl | rfl | rfl | rfl | rfl | rfl <;> cases ha <;> cases hb <;> assumption
  have ex := c61_outside (Hct.fromInt argb) Schemes.vibrantHues Schemes.vibrantSecondaryRotations rfl (by decide) hout
  have ey := c61_outside (Hct.fromInt argb) Schemes.vibrantHues Schemes.vibrantTertiaryRotations rfl (by decide) hout
  refine ⟨_, by simp only [Schemes.vibrant, ex, ey]; rfl, records_new .., ?_⟩
  exact ⟨hasColors_of z (by norm_num), hasColors_of z (by norm_num), hasColors_of z (by norm_num),
    hasColors_of z (by norm_num), hasColors_of z (by norm_num)⟩

/-- A palette whose colours are those of the hue `h` turned by `off`, although its recorded hue need not lie in
[0, 360). -/
def HasColorsModulo (p : TonalPalette ℝ) (h off chroma : ℝ) : Prop :=
  p.hue = h + off ∧ p.chroma = chroma ∧ ∀ x, Turned x h off →
  ∀ (ops : List PaletteOp) (t : Int), ((afterReads p ops).get t).1 = (Hct.fromHct x chroma (Fl.ofInt t)).toInt

theorem hasColorsModulo_of {h off off' c c' : ℝ} (ho : off = off') (hc : c = c') :
    HasColorsModulo (TonalPalette.of (h + off) c) h off' c' := by
  subst ho; subst hc
  refine ⟨rfl, rfl, fun x ⟨_, _, k, hk⟩ ops t => ?_⟩
  rw [c32_history_independent]
  subst hk
  exact (c24_hue_mod_360 _ _ _ _).symm

/-- C63 (partial): expressive, for source hues strictly inside one of the documented intervals.  The two neutral
palettes have the documented colours; that their hue is recorded as an angle in [0, 360) is missing, because it
is false (`c63_expressive_violated`). -/
theorem c63_expressive_partial (argb : Int) (dark : Bool) (c : ℝ) (row : ℝ × ℝ × ℝ × ℝ) (hrow : row ∈ expressiveTable)
    (h1 : row.1 < (Hct.fromInt argb : Hct ℝ).getHue) (h2 : (Hct.fromInt argb : Hct ℝ).getHue < row.2.1) :
    ∃ s, Schemes.expressive (Hct.fromInt argb) dark c = some s ∧ Records s argb .expressive dark c ∧
      HasColors s.primaryPalette (Hct.fromInt argb : Hct ℝ).getHue 240 40 ∧
      HasColors s.secondaryPalette (Hct.fromInt argb : Hct ℝ).getHue row.2.2.1 24 ∧
      HasColors s.tertiaryPalette (Hct.fromInt argb : Hct ℝ).getHue row.2.2.2 32 ∧
      HasColorsModulo s.neutralPalette (Hct.fromInt argb : Hct ℝ).getHue 15 8 ∧
      HasColorsModulo s.neutralVariantPalette (Hct.fromInt argb : Hct ℝ).getHue 15 12 := by
  obtain ⟨⟨x, ex, hx⟩, ⟨y, ey, hy⟩⟩ := expressive_rows _ row hrow h1 h2
  refine ⟨_, by simp only [Schemes.expressive, ex, ey]; rfl, records_new .., ?_⟩
  exact ⟨hasColors_of (turned_sanitize' (by norm_num)) (by norm_num), hasColors_of hx (by norm_num),
    hasColors_of hy (by norm_num), hasColorsModulo_of (by norm_num) (by norm_num),
    hasColorsModulo_of (by norm_num) (by norm_num)⟩

/-- C63 is violated by the expressive variant: for the colour #FF008B the hue of both neutral palettes is above
360. -/
theorem c63_expressive_violated (dark : Bool) (c : ℝ) :
    ∃ s, Schemes.expressive (Hct.fromInt 0xFFFF008B) dark c = some s ∧ 360 < s.neutralPalette.hue ∧
      360 < s.neutralVariantPalette.hue := by
  have hw := witness_hue
  obtain ⟨s, hs, _, _, _, _, hn, hnv⟩ := c63_expressive_partial 0xFFFF008B dark c (321, 360, 45, 120)
    (by simp [expressiveTable]) (by refine lt_trans ?_ hw.1; norm_num) hw.2
  have hlt : 359.5 < (Hct.fromInt 0xFFFF008B : Hct ℝ).getHue := hw.1
  have : (359.5 : ℝ) = 359 + 1/2 := by norm_num
  refine ⟨s, hs, ?_, ?_⟩
  · rw [hn.1]; linarith
  · rw [hnv.1]; linarith

/-- Every colour object the library makes stays one after moving it out of the disliked range. -/
theorem fixIfDisliked_fromInt (argb : Int) : ∃ b, Dislike.fixIfDisliked (Hct.fromInt argb : Hct ℝ) = Hct.fromInt b := by
  unfold Dislike.fixIfDisliked
  split
  · exact ⟨_, rfl⟩
  · exact ⟨_, rfl⟩

/-- The palettes the content and fidelity variants share. -/
structure DocumentedContent (s : DynamicScheme ℝ) (h k : ℝ) : Prop where
  primary : HasColors s.primaryPalette h 0 k
  secondary : HasColors s.secondaryPalette h 0 (max (k - 32) (k / 2))
  neutral : HasColors s.neutralPalette h 0 (k / 8)
  neutralVariant : HasColors s.neutralVariantPalette h 0 (k / 8 + 4)

theorem documentedContent_new (argb : Int) (v : Variant) (dark : Bool) (c : ℝ) (t : TonalPalette ℝ) :
    DocumentedContent (DynamicScheme.new argb v (some c) dark
      (TonalPalette.of (Hct.fromInt argb).getHue (Hct.fromInt argb).getChroma)
      (TonalPalette.of (Hct.fromInt argb).getHue
        (Fl.fmax ((Hct.fromInt argb).getChroma - 32.0) ((Hct.fromInt argb).getChroma * 0.5))) t
      (TonalPalette.of (Hct.fromInt argb).getHue ((Hct.fromInt argb).getChroma / 8.0))
      (TonalPalette.of (Hct.fromInt argb).getHue ((Hct.fromInt argb).getChroma / 8.0 + 4.0)))
      (Hct.fromInt argb : Hct ℝ).getHue (Hct.fromInt argb : Hct ℝ).getChroma := by
  have z := turned_self argb
  have e32 : (32.0 : ℝ) = 32 := by norm_num
  have e5 : (0.5 : ℝ) = 1 / 2 := by norm_num
  have e8 : (8.0 : ℝ) = 8 := by norm_num
  have e4 : (4.0 : ℝ) = 4 := by norm_num
  refine ⟨hasColors_of z rfl, hasColors_of z ?_, hasColors_of z ?_, hasColors_of z ?_⟩
  · rw [fl_fmax, e32, e5, mul_one_div]
  · rw [e8]
  · rw [e8, e4]

/-- C63: content.  It can be built exactly if the source hue is below 359.5; the tertiary palette is that of the
last of three analogous colours out of six divisions, moved out of the disliked range. -/
theorem c63_content (argb : Int) (dark : Bool) (c : ℝ) :
    let h := (Hct.fromInt argb : Hct ℝ).getHue
    let k := (Hct.fromInt argb : Hct ℝ).getChroma
    (Schemes.content (Hct.fromInt argb : Hct ℝ) dark c = none ↔ 359.5 ≤ h) ∧
    ∀ s, Schemes.content (Hct.fromInt argb) dark c = some s →
      Records s argb .content dark c ∧ DocumentedContent s h k ∧
      ∃ a b t, onFresh (Hct.fromInt argb : Hct ℝ) (TemperatureCache.analogous (some 3) (some 6)) = some [a, b, t] ∧
        HasColors s.tertiaryPalette (Dislike.fixIfDisliked t).getHue 0 (Dislike.fixIfDisliked t).getChroma := by
  intro h k
  have hrun (m : TemperatureCache.M ℝ (List (Hct ℝ))) :
      m.run' (TemperatureCache.new (Hct.fromInt argb)) = onFresh (Hct.fromInt argb) m := rfl
  have hiff := c42_analogous_panics_iff argb (some 3) (some 6) (by simp) (by simp)
  rcases lt_or_ge h 359.5 with hlt | hge
  · obtain ⟨offs, out, he, -, -, -, -, hlen, -, hk⟩ := c41_analogous argb hlt (some 3) (some 6) (by simp) (by simp)
    have hlen3 : out.length = 3 := by
      have : max 1 ((some (3 : Int)).getD 5) = 3 := by decide
      rw [this] at hlen; exact_mod_cast hlen
    match out, hlen3 with
    | [a, b, t], _ =>
      have hcontent : Schemes.content (Hct.fromInt argb) dark c = some (DynamicScheme.new argb .content (some c) dark
          (TonalPalette.of (Hct.fromInt argb).getHue (Hct.fromInt argb).getChroma)
          (TonalPalette.of (Hct.fromInt argb).getHue
            (Fl.fmax ((Hct.fromInt argb).getChroma - 32.0) ((Hct.fromInt argb).getChroma * 0.5)))
          (TonalPalette.fromHct (Dislike.fixIfDisliked t))
          (TonalPalette.of (Hct.fromInt argb).getHue ((Hct.fromInt argb).getChroma / 8.0))
          (TonalPalette.of (Hct.fromInt argb).getHue ((Hct.fromInt argb).getChroma / 8.0 + 4.0))) := by
        simp only [Schemes.content, hrun, he, Option.bind_eq_bind, Option.bind_some, List.getLast?_cons_cons,
          List.getLast?_singleton, c23_from_int]
      refine ⟨⟨fun hn => ?_, fun hge => absurd hlt (not_lt.2 hge)⟩, fun s hs => ?_⟩
      · rw [hcontent] at hn; cases hn
      · rw [hcontent] at hs
        cases hs
        refine ⟨records_new .., documentedContent_new .., a, b, t, he, hasColors_fromHct ?_ rfl⟩
        have ht := hk 2 (by simp) (by decide)
        obtain ⟨o, -, ho⟩ := Option.map_eq_some_iff.1 ht.symm
        obtain ⟨n, hn⟩ := fixIfDisliked_fromInt (Hct.toInt t)
        have et : t = Hct.fromInt (Hct.toInt t) := by rw [← ho]; rfl
        rw [← et] at hn
        rw [hn]; exact turned_self n
  · have hn : Schemes.content (Hct.fromInt argb : Hct ℝ) dark c = none := by
      simp only [Schemes.content, hrun, hiff.2 hge, Option.bind_eq_bind, Option.bind_none]
    refine ⟨⟨fun _ => hge, fun _ => hn⟩, fun s hs => ?_⟩
    rw [hn] at hs; cases hs

/-- The complement is a colour object as the library makes them. -/
theorem complement_fromInt {argb : Int} {t : Hct ℝ}
    (he : onFresh (Hct.fromInt argb : Hct ℝ) TemperatureCache.getComplement = some t) :
    t = Hct.fromInt t.toInt := by
  have hneg : ¬ ((-1.0 : ℝ) ≥ 0.0) := by norm_num
  obtain ⟨c, hc, hcm, _⟩ := coldest_spec (Hct.fromInt argb)
  obtain ⟨w, hw, hwm, _⟩ := warmest_spec (Hct.fromInt argb)
  rw [fresh_value (run_getComplement hneg), complement_value (input := Hct.fromInt argb) (hue_range argb) hc hw hcm hwm] at he
  split at he
  · rcases complementLoop_best _ _ _ _ _ _ _ _ _ _ he with ⟨h, _⟩ | ⟨_, _, _, _, _, h, _⟩
    · rw [h]; rfl
    · rw [h]; rfl
  · cases he

/-- C63: fidelity.  It can be built exactly if the complement of the source colour can be computed; the tertiary
palette is that of the complement, moved out of the disliked range. -/
theorem c63_fidelity (argb : Int) (dark : Bool) (c : ℝ) :
    let h := (Hct.fromInt argb : Hct ℝ).getHue
    let k := (Hct.fromInt argb : Hct ℝ).getChroma
    (Schemes.fidelity (Hct.fromInt argb : Hct ℝ) dark c = none ↔
      onFresh (Hct.fromInt argb : Hct ℝ) TemperatureCache.getComplement = none) ∧
    ∀ s, Schemes.fidelity (Hct.fromInt argb) dark c = some s →
      Records s argb .fidelity dark c ∧ DocumentedContent s h k ∧
      ∃ t, onFresh (Hct.fromInt argb : Hct ℝ) TemperatureCache.getComplement = some t ∧
        s.tertiaryPalette = TonalPalette.fromHct (Dislike.fixIfDisliked t) ∧
        HasColors s.tertiaryPalette (Dislike.fixIfDisliked t).getHue 0 (Dislike.fixIfDisliked t).getChroma := by
  intro h k
  have hrun (m : TemperatureCache.M ℝ (Hct ℝ)) :
      m.run' (TemperatureCache.new (Hct.fromInt argb)) = onFresh (Hct.fromInt argb) m := rfl
  cases he : onFresh (Hct.fromInt argb : Hct ℝ) TemperatureCache.getComplement with
  | none =>
    have hn : Schemes.fidelity (Hct.fromInt argb : Hct ℝ) dark c = none := by
      simp only [Schemes.fidelity, hrun, he, Option.bind_eq_bind, Option.bind_none]
    exact ⟨⟨fun _ => rfl, fun _ => hn⟩, fun s hs => by rw [hn] at hs; cases hs⟩
  | some t =>
    have hf : Schemes.fidelity (Hct.fromInt argb) dark c = some (DynamicScheme.new argb .fidelity (some c) dark
        (TonalPalette.of (Hct.fromInt argb).getHue (Hct.fromInt argb).getChroma)
        (TonalPalette.of (Hct.fromInt argb).getHue
          (Fl.fmax ((Hct.fromInt argb).getChroma - 32.0) ((Hct.fromInt argb).getChroma * 0.5)))
        (TonalPalette.fromHct (Dislike.fixIfDisliked t))
        (TonalPalette.of (Hct.fromInt argb).getHue ((Hct.fromInt argb).getChroma / 8.0))
        (TonalPalette.of (Hct.fromInt argb).getHue ((Hct.fromInt argb).getChroma / 8.0 + 4.0))) := by
      simp only [Schemes.fidelity, hrun, he, Option.bind_eq_bind, Option.bind_some, c23_from_int]
    refine ⟨⟨fun hn => ?_, fun hn => (by cases hn)⟩, fun s hs => ?_⟩
    · rw [hf] at hn; cases hn
    · rw [hf] at hs
      cases hs
      refine ⟨records_new .., documentedContent_new .., t, rfl, rfl, hasColors_fromHct ?_ rfl⟩
      obtain ⟨n, hn⟩ := fixIfDisliked_fromInt (Hct.toInt t)
      rw [← complement_fromInt he] at hn
      rw [hn]; exact turned_self n

end Mcu.Props
