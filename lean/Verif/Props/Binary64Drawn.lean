import Verif.Lemmas.F64Drawn

/-! Properties C16, C24, C26, C27, C76, C78, C79, C80 and C81 in IEEE-754 binary64: tones out of range, the coordinates of colours, and the
colours roles are drawn with. -/

namespace Mcu.Props.Binary64

open Mcu.Ieee MathUtils ColorUtils HctSolver Lemmas Spec Contrast DynamicColor Material

variable {L : Libm}

local notation "𝔻" => F64 L

/-- All assumptions on the math library can be met together: a library that rounds exact results satisfies them. -/
theorem sound_rounding : ∃ L : Libm, L.Sound ∧
    (∀ x y : Dbl, x.Fin → L.powf x y = Dbl.ofReal false (x.val ^ y.val)) ∧
    (∀ y x : Dbl, L.atan2 y x = Dbl.ofReal false (Complex.arg ⟨x.val, y.val⟩)) := by
  obtain ⟨L, ⟨h1, h2, h3, h4⟩, hp, ha⟩ := libm_rounding
  refine ⟨L, ⟨h1, h2, ?_, h3, h4, ?_⟩, hp, ha⟩
  · intro x y hx hy x0 x1 y0 y1
    rw [hp x y hx]
    have p0 : 0 ≤ x.val ^ y.val := Real.rpow_nonneg x0 _
    have p1 : x.val ^ y.val ≤ 1 := Real.rpow_le_one x0 (x1.trans (by norm_num)) (by norm_num at y0; linarith)
    obtain ⟨r1, -⟩ := rnd_ok (v := x.val ^ y.val) (by rw [abs_of_nonneg p0]; exact p1.trans (by norm_num))
    have hi := is_ofReal (L := L) false r1
    refine ⟨hi.1, ?_⟩
    rw [show (Dbl.ofReal false (x.val ^ y.val)).val = rnd (x.val ^ y.val) from hi.2]
    exact ⟨rnd_nonneg p0, rep1.rnd_le p1⟩
  · intro y x _ _
    rw [ha]
    have h := Complex.abs_arg_le_pi ⟨x.val, y.val⟩
    generalize Complex.arg ⟨x.val, y.val⟩ = a at h
    have hπ := Real.pi_lt_d6
    obtain ⟨r1, r2⟩ := rnd_ok (v := a) (by norm_num at hπ ⊢; linarith)
    have hi := is_ofReal (L := L) false r1
    refine ⟨hi.1, ?_⟩
    rw [show (Dbl.ofReal false a).val = rnd a from hi.2]
    have h := abs_le.1 h
    have r2 := abs_le.1 r2
    rw [show ρ = 1 / 10 ^ 12 from rfl] at r2
    rw [abs_le]
    norm_num at *
    constructor <;> linarith

theorem sound_exists : ∃ L : Libm, L.Sound :=
  let ⟨L, h, _⟩ := sound_rounding
  ⟨L, h⟩

/-! ## C16, C24 and C26: tones out of range -/

/-- C16 in binary64: tones that are not positive give black, tones from 100 give white (up to 2⁵³ in size). -/
theorem c16_binary64_saturates (hL : L.PowOk) (t : 𝔻) (ht : Fin t) (h : |val t| ≤ 2 ^ 53) :
    (val t ≤ 0 → argbFromLstar t = 0xFF000000) ∧ (100 ≤ val t → argbFromLstar t = 0xFFFFFFFF) := by
  have it : Is t (val t) := ⟨ht, rfl⟩
  exact ⟨fun h0 => black64 it h0 (abs_le.1 h).1, fun h1 => white64 hL it h1 (abs_le.1 h).2⟩

/-- C24 in binary64: for every hue and chroma, NaN and infinities included, the solver answers tones that are not positive
with black and tones from 100 with white. -/
theorem c24_binary64_black_white (hL : L.PowOk) (hue chroma t : 𝔻) (ht : Fin t) (h : |val t| ≤ 2 ^ 53) :
    (val t ≤ 0 → solveToInt hue chroma t = 0xFF000000) ∧ (100 ≤ val t → solveToInt hue chroma t = 0xFFFFFFFF) := by
  have it : Is t (val t) := ⟨ht, rfl⟩
  obtain ⟨w, iw, hw⟩ := ap_lit (L := L) (m := 1) (s := true) (e := 4) (v := 0.0001) rfl (by norm_num [abs_of_pos])
  change Is (0.0001 : 𝔻) w at iw
  obtain ⟨u, iu, hu⟩ := ap_lit (L := L) (m := 999999) (s := true) (e := 4) (v := 99.9999) rfl (by norm_num [abs_of_pos])
  change Is (99.9999 : 𝔻) u at iu
  have hw := abs_le.1 hw
  have hu := abs_le.1 hu
  have hρ : ρ = 1 / 10 ^ 12 := rfl
  rw [hρ] at hw hu
  obtain ⟨a, b⟩ := c16_binary64_saturates hL t ht h
  constructor
  · intro h0
    unfold solveToInt
    rw [if_pos (.inr (.inl (by rw [it.lt_iff iw]; norm_num at hw; linarith)))]
    exact a h0
  · intro h0
    unfold solveToInt
    rw [if_pos (.inr (.inr (by rw [gt_iff_lt, iu.lt_iff it]; norm_num at hu; linarith)))]
    exact b h0

example : ∃ (L : Libm) (t u : F64 L), L.PowOk ∧ Fin t ∧ val t = -5 ∧ |val t| ≤ 2 ^ 53 ∧ Fin u ∧ val u = 120 ∧ |val u| ≤ 2 ^ 53 := by
  obtain ⟨L, hL⟩ := powOk_exists
  have h1 := (l5 (L := L)).neg
  have h2 : Is (L := L) 120.0 120 := by simpa using lit (L := L) 1200 1 true 120 (by norm_num) (by norm_num)
  refine ⟨L, -5.0, 120.0, hL, h1.1, h1.2, ?_, h2.1, h2.2, ?_⟩
  · rw [show val (-5.0 : F64 L) = -5 from h1.2]; norm_num
  · rw [show val (120.0 : F64 L) = 120 from h2.2]; norm_num

/-- C26 in binary64: tones out of range are answered with the tone at the end of the range, up to 2·10⁻⁵. -/
theorem c26_binary64_clamped (hL : L.PowOk) (hue chroma t : 𝔻) (ht : Fin t) (h : |val t| ≤ 2 ^ 53) :
    (val t ≤ 0 → |val (lstarFromArgb (solveToInt hue chroma t) : 𝔻)| ≤ 2 / 10 ^ 5) ∧
    (100 ≤ val t → |val (lstarFromArgb (solveToInt hue chroma t) : 𝔻) - 100| ≤ 2 / 10 ^ 5) := by
  obtain ⟨a, b⟩ := c24_binary64_black_white hL hue chroma t ht h
  have near := (Ap.val_near (ap_lstarFromArgb hL (solveToInt hue chroma t))).2
  constructor <;> intro h0
  · rw [a h0] at near ⊢
    rwa [c15_ignores_alpha (F := ℝ) _ 0 (by norm_num), lstar_black, sub_zero] at near
  · rw [b h0] at near ⊢
    rwa [c15_ignores_alpha (F := ℝ) _ 0xFFFFFF (by norm_num), lstar_white] at near

/-! ## C27 -/

/-- C27 (partial): in binary64 the CAM16 coordinates of every colour are finite numbers that are not negative, and the hue is at most 360.
Missing: the hue may not be 360, as the assertion demands; it holds unless the hue is exactly 360. -/
theorem c27_binary64_partial (hS : L.Sound) (argb : Int) :
    let k : Cam16 𝔻 := Cam16.fromInt argb
    (∀ x ∈ [k.hue, k.chroma, k.j, k.q, k.m, k.s], Fin x ∧ 0 ≤ val x) ∧ val k.hue ≤ 360 ∧
      (Cam16.hueAssert k.hue ∨ val k.hue = 360) := by
  intro k
  obtain ⟨h, c, j, q, m, s⟩ := cam64 hS.pow hS.dark hS.exp hS.trig hS.atan argb
  have w {x : 𝔻} {B : ℝ} (hx : In x 0 B) : Fin x ∧ 0 ≤ val x := by
    obtain ⟨v, iv, h0, -⟩ := hx
    exact ⟨iv.1, by rw [show val x = v from iv.2]; exact h0⟩
  refine ⟨?_, ?_⟩
  · simp only [List.mem_cons, List.not_mem_nil, or_false, forall_eq_or_imp, forall_eq]
    exact ⟨w h, w c, w j, w q, w m, w s⟩
  · obtain ⟨v, iv, h0, h1⟩ := h
    rw [show val k.hue = v from iv.2]
    refine ⟨h1, ?_⟩
    rcases h1.lt_or_eq with hlt | heq
    · left
      refine ⟨?_, ?_⟩
      · exact (l0'.le_iff iv).2 h0
      · exact (iv.lt_iff l360).2 hlt
    · exact .inr heq

/-! ## C79 -/

/-- The schemes the library makes, and those assembled from palettes with finite hues and finite chromas up to 10⁵⁰. -/
def Usual (s : DynamicScheme 𝔻) : Prop := Made s ∨ (Assembled s ∧ FinScheme s)

theorem Usual.fin (hS : L.Sound) {s : DynamicScheme 𝔻} (h : Usual s) : FinScheme s := h.elim (fin_made hS s) And.right

theorem Usual.either {s : DynamicScheme 𝔻} (h : Usual s) : Made s ∨ Assembled s := h.imp_right And.left

theorem drawn_tone (hS : L.Sound) (s : DynamicScheme 𝔻) (hs : Usual s) (rounds n : Nat) (r : Role) (argb : Int) (t : 𝔻)
    (h : Drawn rounds s r argb) (ht : getTone (registry rounds) s n r = some t) :
    Opaque32 argb ∧ |(lstarFromArgb argb : ℝ) - clampTone (val t)| ≤ 0.8461 := by
  obtain ⟨fuel, t', ht', rfl⟩ := drawn_inv rounds s (unread_made s hs.either) r argb h
  have := getTone_unique _ s (registry_mono (F := 𝔻) rounds s) ht' ht
  subst this
  obtain ⟨f, h0, h1⟩ := c57_binary64 hS.pow s hs.either rounds fuel r t' ht'
  exact ⟨c14_solver _ _ _, solve_tone hS ((hs.fin hS).palette rounds r) f h0 h1⟩

/-- C79: in binary64, the colour a role is drawn with is opaque and its tone is the one computed for the role, up to 0.8462. -/
theorem c79_binary64 (hS : L.Sound) (s : DynamicScheme 𝔻) (hs : Usual s) (rounds n : Nat) (r : Role) (argb : Int) (t : 𝔻)
    (h : Drawn rounds s r argb) (ht : getTone (registry rounds) s n r = some t) :
    Opaque32 argb ∧ |val (lstarFromArgb argb : 𝔻) - val t| ≤ 0.8462 := by
  obtain ⟨ho, h1⟩ := drawn_tone hS s hs rounds n r argb t h ht
  obtain ⟨-, h2, h3⟩ := c57_binary64 hS.pow s hs.either rounds n r t ht
  have near := (Ap.val_near (ap_lstarFromArgb hS.pow argb)).2
  refine ⟨ho, ?_⟩
  have near := abs_le.1 near
  have h1 := abs_le.1 h1
  rw [abs_le]
  generalize val (lstarFromArgb argb : 𝔻) = z at *
  generalize (lstarFromArgb argb : ℝ) = z' at *
  rcases clampTone_cases (val t) with ⟨_, e⟩ | ⟨_, _, e⟩ | ⟨_, e⟩ <;> rw [e] at h1 <;> norm_num at * <;> constructor <;> linarith

/-! ## C76 -/

/-- C76: in binary64, drawn, each surface of a dark scheme is lighter than the one before, in a light scheme it is darker. -/
theorem c76_binary64_drawn (hS : L.Sound) (s : DynamicScheme 𝔻) (hs : Usual s) (rounds : Nat) (a b : Role) (ca cb : Int)
    (ha : Drawn rounds s a ca) (hb : Drawn rounds s b cb) :
    (s.isDark = true → (a, b) ∈ darkSurfaces.zip darkSurfaces.tail → relativeLuminance ca < relativeLuminance cb) ∧
    (s.isDark = false → (a, b) ∈ lightSurfaces.zip lightSurfaces.tail → relativeLuminance cb < relativeLuminance ca) := by
  obtain ⟨fa, ta, hta, -⟩ := drawn_inv rounds s (unread_made s hs.either) a ca ha
  obtain ⟨fb, tb, htb, -⟩ := drawn_inv rounds s (unread_made s hs.either) b cb hb
  have h1 := abs_le.1 (c79_binary64 hS s hs rounds fa a ca ta ha hta).2
  have h2 := abs_le.1 (c79_binary64 hS s hs rounds fb b cb tb hb htb).2
  have n1 := abs_le.1 (Ap.val_near (ap_lstarFromArgb hS.pow ca)).2
  have n2 := abs_le.1 (Ap.val_near (ap_lstarFromArgb hS.pow cb)).2
  have key (c d : Int) (h : (lstarFromArgb c : ℝ) < lstarFromArgb d) : relativeLuminance c < relativeLuminance d := by
    have := c11_strictMono.1 h
    rw [y_of_tone, y_of_tone] at this
    linarith
  norm_num at h1 h2 n1 n2
  constructor
  · intro hd hm
    have := c76_binary64_dark s hd a b hm rounds fa fb ta tb hta htb
    norm_num at this
    exact key _ _ (by linarith [h1.2, h2.1, n1.1, n2.2])
  · intro hd hm
    have := c76_binary64_light s hd a b hm rounds fa fb ta tb hta htb
    norm_num at this
    exact key _ _ (by linarith [h1.1, h2.2, n1.2, n2.1])

/-! ## C80 -/

theorem drawn_contrast64 (hS : L.Sound) (s : DynamicScheme 𝔻) (hs : Usual s) (rounds m n : Nat) (a b : Role) (ca cb : Int)
    (ta tb : 𝔻) (k : ℝ) (ha : Drawn rounds s a ca) (hb : Drawn rounds s b cb) (hta : getTone (registry rounds) s m a = some ta)
    (htb : getTone (registry rounds) s n b = some tb) (h : 1.0326 ^ 2 * k + 1 / 10 ^ 6 ≤ val (ratioOfTones ta tb)) :
    k ≤ wcagContrast ca cb := by
  have h1 := (drawn_tone hS s hs rounds m a ca ta ha hta).2
  have h2 := (drawn_tone hS s hs rounds n b cb tb hb htb).2
  have fa := (c57_binary64 hS.pow s hs.either rounds m a ta hta).1
  have fb := (c57_binary64 hS.pow s hs.either rounds n b tb htb).1
  have near := abs_le.1 (ratio_near (s := ta) (t := tb) ⟨fa, rfl⟩ ⟨fb, rfl⟩)
  have := ratio_close64 (c15_range _) (c15_range _) h1 h2
  rw [ratio_eq_wcag] at this
  change _ ≤ val _ - ratioOfTones (val ta) (val tb) ∧ val _ - ratioOfTones (val ta) (val tb) ≤ _ at near
  norm_num at h this near ⊢
  linarith

/-- C80: in binary64, as drawn, the text on an accent role or its container and on the inverse surface has a WCAG contrast of
at least 4.2, with every contrast level. -/
theorem c80_binary64_accents (hS : L.Sound) (s : DynamicScheme 𝔻) (hs : Usual s) (rounds : Nat) (x b : Role)
    (hx : (x, b) ∈ onAccents) (cx cb : Int) (h1 : Drawn rounds s x cx) (h2 : Drawn rounds s b cb) :
    4.2 ≤ wcagContrast cx cb := by
  obtain ⟨m, tx, htx, -⟩ := drawn_inv rounds s (unread_made s hs.either) x cx h1
  obtain ⟨n, tb, htb, -⟩ := drawn_inv rounds s (unread_made s hs.either) b cb h2
  refine drawn_contrast64 hS s hs rounds m n x b cx cb tx tb _ h1 h2 htx htb ?_
  have := c58_binary64_accents hS.pow s hs.either x b hx rounds m n tx tb htx htb
  norm_num at this ⊢
  linarith

/-- C80: in binary64, as drawn, text on any surface has a WCAG contrast of at least 4.2; the less prominent text has it with
contrast levels that are not negative, and 2.8 with negative ones. -/
theorem c80_binary64_surfaces (hS : L.Sound) (s : DynamicScheme 𝔻) (hs : Usual s) (rounds : Nat) (b : Role) (hb : b ∈ surfaces)
    (cx cv cb : Int) (h1 : Drawn rounds s .onSurface cx) (h2 : Drawn rounds s .onSurfaceVariant cv)
    (h3 : Drawn rounds s b cb) :
    4.2 ≤ wcagContrast cx cb ∧ (¬ s.contrastLevel < 0.0 → 4.2 ≤ wcagContrast cv cb) ∧ 2.8 ≤ wcagContrast cv cb := by
  obtain ⟨m, tx, htx, -⟩ := drawn_inv rounds s (unread_made s hs.either) _ cx h1
  obtain ⟨k, tv, htv, -⟩ := drawn_inv rounds s (unread_made s hs.either) _ cv h2
  obtain ⟨n, tb, htb, -⟩ := drawn_inv rounds s (unread_made s hs.either) b cb h3
  obtain ⟨a1, a2, a3⟩ := c58_binary64_surfaces hS.pow s b hb rounds m k n tx tv tb htx htv htb
  refine ⟨drawn_contrast64 hS s hs rounds m n _ b cx cb tx tb _ h1 h3 htx htb ?_,
    fun hc => drawn_contrast64 hS s hs rounds k n _ b cv cb tv tb _ h2 h3 htv htb ?_,
    drawn_contrast64 hS s hs rounds k n _ b cv cb tv tb _ h2 h3 htv htb ?_⟩
  · norm_num at a1 ⊢; linarith
  · have := a2 hc
    norm_num at this ⊢; linarith
  · norm_num at a3 ⊢; linarith

/-- C80: in binary64, as drawn, text on the background has a WCAG contrast of at least 4.2 with contrast levels that are not
negative, and of at least 2.8 with negative ones. -/
theorem c80_binary64_background (hS : L.Sound) (s : DynamicScheme 𝔻) (hs : Usual s) (rounds : Nat) (cx cb : Int)
    (h1 : Drawn rounds s .onBackground cx) (h2 : Drawn rounds s .background cb) :
    (¬ s.contrastLevel < 0.0 → 4.2 ≤ wcagContrast cx cb) ∧ 2.8 ≤ wcagContrast cx cb := by
  obtain ⟨m, tx, htx, -⟩ := drawn_inv rounds s (unread_made s hs.either) _ cx h1
  obtain ⟨n, tb, htb, -⟩ := drawn_inv rounds s (unread_made s hs.either) _ cb h2
  obtain ⟨a1, a2⟩ := c58_binary64_background hS.pow s rounds m n tx tb htx htb
  refine ⟨fun hc => drawn_contrast64 hS s hs rounds m n _ _ cx cb tx tb _ h1 h2 htx htb ?_,
    drawn_contrast64 hS s hs rounds m n _ _ cx cb tx tb _ h1 h2 htx htb ?_⟩
  · have := a1 hc
    norm_num at this ⊢; linarith
  · norm_num at a2 ⊢; linarith

/-- The hypotheses are met: with some library, text and surfaces can be drawn in a scheme that the library makes. -/
example : ∃ (L : Libm) (s : DynamicScheme (F64 L)) (a b c d : Int), L.Sound ∧ Usual s ∧ s.isDark = true ∧
    Drawn 0 s .onPrimary a ∧ Drawn 0 s .primary b ∧ Drawn 0 s .onSurface c ∧ Drawn 0 s .surfaceDim d ∧
    (.onPrimary, .primary) ∈ onAccents ∧ Role.surfaceDim ∈ surfaces := by
  obtain ⟨L, hS⟩ := sound_exists
  have hm : Made (Schemes.tonalSpot (Hct.fromInt 0xFF4285F4) true (0.5 : F64 L)) := ⟨.tonalSpot, _, _, _, rfl⟩
  obtain ⟨a, ha⟩ := c79_can_be_drawn (Schemes.tonalSpot (Hct.fromInt 0xFF4285F4) true (0.5 : F64 L)) .onPrimary (Or.inl (by simp [NeedsSearch]))
  obtain ⟨b, hb⟩ := c79_can_be_drawn (Schemes.tonalSpot (Hct.fromInt 0xFF4285F4) true (0.5 : F64 L)) .primary (Or.inl (by simp [NeedsSearch]))
  obtain ⟨c, hc⟩ := c79_can_be_drawn (Schemes.tonalSpot (Hct.fromInt 0xFF4285F4) true (0.5 : F64 L)) .onSurface (Or.inl (by simp [NeedsSearch]))
  obtain ⟨d, hd⟩ := c79_can_be_drawn (Schemes.tonalSpot (Hct.fromInt 0xFF4285F4) true (0.5 : F64 L)) .surfaceDim (Or.inl (by simp [NeedsSearch]))
  exact ⟨L, _, a, b, c, d, hS, .inl hm, rfl, ha 0, hb 0, hc 0, hd 0, by simp [onAccents], by simp [surfaces]⟩

/-! ## C81 -/

theorem solved_contrast64 (hS : L.Sound) {h1 c1 t1 h2 c2 t2 : 𝔻} (f1 : FinHC h1 c1) (f2 : FinHC h2 c2) (g1 : Fin t1)
    (g2 : Fin t2) (r1 : -(2 / 10 ^ 5) ≤ val t1 ∧ val t1 ≤ 100 + 2 / 10 ^ 5) (r2 : -(2 / 10 ^ 5) ≤ val t2 ∧ val t2 ≤ 100 + 2 / 10 ^ 5) :
    0.9378 * ratioOfTones (val t1) (val t2) ≤ wcagContrast (solveToInt h1 c1 t1) (solveToInt h2 c2 t2) := by
  have := ratio_close64 (c15_range _) (c15_range _) (solve_tone hS f1 g1 r1.1 r1.2) (solve_tone hS f2 g2 r2.1 r2.2)
  rw [ratio_eq_wcag] at this
  have p := (c17_range (val t1) (val t2)).1
  change ratioOfTones (val t1) (val t2) ≤ _ at this
  norm_num at this ⊢
  linarith

/-- C81: in binary64, the contrast computed for the tones of two colours is the WCAG contrast of the colours, up to 0.0004. -/
theorem c81_binary64_tone_contrast (hL : L.PowOk) (a b : Int) :
    |val (ratioOfTones (lstarFromArgb a : 𝔻) (lstarFromArgb b)) - wcagContrast a b| ≤ 0.0004 := by
  obtain ⟨f1, n1⟩ := Ap.val_near (ap_lstarFromArgb hL a)
  obtain ⟨f2, n2⟩ := Ap.val_near (ap_lstarFromArgb hL b)
  have h1 := abs_le.1 (ratio_near (s := (lstarFromArgb a : 𝔻)) (t := (lstarFromArgb b : 𝔻)) ⟨f1, rfl⟩ ⟨f2, rfl⟩)
  have h2 := abs_le.1 (ratio_stable n1 n2)
  rw [ratio_eq_wcag] at h2
  change _ ≤ val _ - ratioOfTones (val _) (val _) ∧ val _ - ratioOfTones (val _) (val _) ≤ _ at h1
  rw [abs_le]
  norm_num at *
  constructor <;> linarith

/-- C81: in binary64, the contrast of colours made from finite hues, finite chromas up to 10⁵⁰ and tones from 0 to 100 is at least 93.7 % of
the contrast computed for the tones asked for. -/
theorem c81_binary64_solved (hS : L.Sound) (h1 c1 t1 h2 c2 t2 : 𝔻) (f1 : Fin h1 ∧ Fin c1 ∧ val c1 ≤ 10 ^ 50)
    (f2 : Fin h2 ∧ Fin c2 ∧ val c2 ≤ 10 ^ 50) (g1 : Fin t1 ∧ 0 ≤ val t1 ∧ val t1 ≤ 100) (g2 : Fin t2 ∧ 0 ≤ val t2 ∧ val t2 ≤ 100) :
    0.937 * val (ratioOfTones t1 t2) ≤ wcagContrast (Hct.fromHct h1 c1 t1).toInt (Hct.fromHct h2 c2 t2).toInt := by
  have := solved_contrast64 hS f1 f2 g1.1 g2.1 ⟨by norm_num; linarith [g1.2.1], by norm_num; linarith [g1.2.2]⟩
    ⟨by norm_num; linarith [g2.2.1], by norm_num; linarith [g2.2.2]⟩
  have near := abs_le.1 (ratio_near (s := t1) (t := t2) ⟨g1.1, rfl⟩ ⟨g2.1, rfl⟩)
  change _ ≤ val _ - ratioOfTones (val t1) (val t2) ∧ val _ - ratioOfTones (val t1) (val t2) ≤ _ at near
  have p := (c17_range (val t1) (val t2)).1
  change _ ≤ wcagContrast (solveToInt h1 c1 t1) (solveToInt h2 c2 t2)
  norm_num at this near ⊢
  linarith

/-! ## C78 -/

theorem argb_tone (hL : L.PowOk) (a : Int) : Fin (lstarFromArgb a : 𝔻) ∧ -(2 / 10 ^ 5) ≤ val (lstarFromArgb a : 𝔻) ∧
    val (lstarFromArgb a : 𝔻) ≤ 100 + 2 / 10 ^ 5 := by
  obtain ⟨h1, h2, h3, -⟩ := c15_binary64 hL a
  exact ⟨h1, h2, h3⟩

theorem harmonized_fin (hS : L.Sound) (a b : Int) :
    FinHC (Blend.harmonizedHue (Hct.fromInt a : Hct 𝔻).getHue (Hct.fromInt b : Hct 𝔻).getHue) (Hct.fromInt a : Hct 𝔻).getChroma := by
  have ha := bd_hue hS a
  have hb := bd_hue hS b
  have h180 : Bd (180.0 : 𝔻) 400 := bd_num _ _ _ rfl (by norm_num)
  have habs {x : 𝔻} {B : ℝ} (h : Bd x B) : Bd (Fl.abs x) B := by
    obtain ⟨v, iv, hv⟩ := h
    exact ⟨_, iv.abs, by rwa [abs_abs]⟩
  have d : Bd (differenceDegrees (Hct.fromInt a : Hct 𝔻).getHue (Hct.fromInt b : Hct 𝔻).getHue) 2000 :=
    h180.sub (habs ((habs (ha.sub hb 721 (by norm_num) (by norm_num))).sub h180 1122 (by norm_num) (by norm_num))) _ (by norm_num) (by norm_num)
  have r : Bd (rotationDirection (Hct.fromInt a : Hct 𝔻).getHue (Hct.fromInt b : Hct 𝔻).getHue) 1 := by
    unfold rotationDirection
    dsimp only
    split
    · exact ⟨1, l1, by norm_num⟩
    · exact ⟨-1, l1.neg, by norm_num⟩
  have half : Bd (0.5 : 𝔻) 1 := ⟨_, lhalf, by norm_num⟩
  have m : Bd (Fl.fmin (differenceDegrees (Hct.fromInt a : Hct 𝔻).getHue (Hct.fromInt b : Hct 𝔻).getHue * 0.5) 15.0) 2001 :=
    bd_min (d.mul half 2001 (by norm_num) (by norm_num)) (bd_num _ _ _ rfl (by norm_num)) le_rfl (by norm_num)
  exact finHC_of (bd_sanitize (ha.add (m.mul r 2002 (by norm_num) (by norm_num)) 3000 (by norm_num) (by norm_num))) (bd_chroma hS a) (by norm_num)

/-- C78: in binary64, blending the hue of a colour towards another, by any amount (NaN and infinities included), and
harmonising it keep its tone, up to 0.8462. -/
theorem c78_binary64_tone (hS : L.Sound) (a b : Int) (amount : 𝔻) :
    |val (lstarFromArgb (Blend.hctHue a b amount) : 𝔻) - val (lstarFromArgb a : 𝔻)| ≤ 0.8462 ∧
    |val (lstarFromArgb (Blend.harmonize 𝔻 a b) : 𝔻) - val (lstarFromArgb a : 𝔻)| ≤ 0.8462 := by
  obtain ⟨f, h0, h1⟩ := argb_tone hS.pow a
  have main (h c : 𝔻) (hc : FinHC h c) :
      |val (lstarFromArgb (solveToInt h c (lstarFromArgb a)) : 𝔻) - val (lstarFromArgb a : 𝔻)| ≤ 0.8462 := by
    have s := abs_le.1 (solve_tone hS hc f h0 h1)
    have near := abs_le.1 (Ap.val_near (ap_lstarFromArgb hS.pow (solveToInt h c (lstarFromArgb a)))).2
    change _ ≤ _ - clampTone (val _) ∧ _ - clampTone (val _) ≤ _ at s
    generalize val (lstarFromArgb (solveToInt h c (lstarFromArgb a)) : 𝔻) = z at *
    generalize (lstarFromArgb (solveToInt h c (lstarFromArgb a)) : ℝ) = z' at *
    rw [abs_le]
    rcases clampTone_cases (val (lstarFromArgb a : 𝔻)) with ⟨_, e⟩ | ⟨_, _, e⟩ | ⟨_, e⟩ <;> rw [e] at s <;> norm_num at * <;>
      constructor <;> linarith
  exact ⟨main _ _ (finHC_of (bd_hue hS _) (bd_chroma hS a) (by norm_num)), main _ _ (harmonized_fin hS a b)⟩

/-- C78: in binary64, a harmonised or blended colour keeps at least 93 % of the contrast that the original colour has with
any other colour. -/
theorem c78_binary64_contrast (hS : L.Sound) (a b other : Int) (amount : 𝔻) :
    0.93 * wcagContrast a other ≤ wcagContrast (Blend.hctHue a b amount) other ∧
    0.93 * wcagContrast a other ≤ wcagContrast (Blend.harmonize 𝔻 a b) other := by
  obtain ⟨f, h0, h1⟩ := argb_tone hS.pow a
  have main (h c : 𝔻) (hc : FinHC h c) :
      0.93 * wcagContrast a other ≤ wcagContrast (solveToInt h c (lstarFromArgb a)) other := by
    have s := ratio_close64 (b := lstarFromArgb other) (c15_range _) (c15_range other) (solve_tone hS hc f h0 h1)
      (by rw [clampTone_of_mem (c15_range other).1 (c15_range other).2]; norm_num)
    have e := abs_le.1 (ratio_stable (b := (lstarFromArgb other : ℝ)) (b' := lstarFromArgb other)
      (Ap.val_near (ap_lstarFromArgb hS.pow a)).2 (by norm_num))
    have p := (c17_range (lstarFromArgb a) (lstarFromArgb other)).1
    rw [ratio_eq_wcag] at s e p
    change ratioOfTones (val _) _ ≤ _ at s
    norm_num at *
    linarith
  exact ⟨main _ _ (finHC_of (bd_hue hS _) (bd_chroma hS a) (by norm_num)), main _ _ (harmonized_fin hS a b)⟩

end Mcu.Props.Binary64
