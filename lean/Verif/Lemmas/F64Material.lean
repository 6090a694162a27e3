import Verif.Lemmas.F64Roles

/-! The tones of dynamic colours in IEEE-754 binary64. -/

namespace Mcu.Lemmas

open Mcu.Ieee Props Props.Binary64 MathUtils Contrast ColorUtils DynamicColor Material Spec

section inversion
variable {ι F : Type} [Fl F]

/-- The tone against one background: the wished tone if it has enough contrast, else a foreground tone. -/
def adjustedF (decreasing : Bool) (bg contrast initial : F) : F :=
  if decreasing then foregroundTone bg contrast else goodEnough bg initial contrast

theorem single_invF (env : ι → DynamicColor ι F) (s : DynamicScheme F) (r : ι) (fuel : Nat) (t : F)
    (g : DynamicScheme F → ι) (k : ContrastCurve F)
    (h0 : (env r).toneDeltaPair = none) (h1 : (env r).background = some g) (h2 : (env r).secondBackground = none)
    (h3 : (env r).contrastCurve = some k) (h4 : (env r).isBackground = false)
    (h : getTone env s fuel r = some t) :
    ∃ m b i, fuel = m + 1 ∧ getTone env s m (g s) = some b ∧ (env r).tone s (getTone env s m) = some i ∧
      t = adjustedF (decide (s.contrastLevel < 0.0)) b (k.get s.contrastLevel) i := by
  cases fuel with
  | zero => cases h
  | succ m =>
    simp only [getTone, h0, h1, h2, h3, h4, Option.bind_eq_bind, Option.bind_eq_some_iff, Option.some.injEq] at h
    obtain ⟨i, hi, b, hb, k', rfl, ht⟩ := h
    refine ⟨m, b, i, rfl, hb, hi, ?_⟩
    rw [← ht]
    simp [singleTone, adjustedF]

theorem dual_invF (env : ι → DynamicColor ι F) (s : DynamicScheme F) (r : ι) (fuel : Nat) (t : F)
    (g g2 : DynamicScheme F → ι) (k : ContrastCurve F)
    (h0 : (env r).toneDeltaPair = none) (h1 : (env r).background = some g) (h2 : (env r).secondBackground = some g2)
    (h3 : (env r).contrastCurve = some k) (h4 : (env r).isBackground = false)
    (h : getTone env s fuel r = some t) :
    ∃ m b b2 i, fuel = m + 1 ∧ getTone env s m (g s) = some b ∧ getTone env s m (g2 s) = some b2 ∧
      (env r).tone s (getTone env s m) = some i ∧
      t = dualTone b b2 (adjustedF (decide (s.contrastLevel < 0.0)) b (k.get s.contrastLevel) i) (k.get s.contrastLevel) := by
  cases fuel with
  | zero => cases h
  | succ m =>
    simp only [getTone, h0, h1, h2, h3, h4, Option.bind_eq_bind, Option.bind_eq_some_iff, Option.some.injEq] at h
    obtain ⟨i, hi, b, hb, k', rfl, b', hb', b2, hb2, ht⟩ := h
    rw [hb, Option.some.injEq] at hb'
    subst hb'
    refine ⟨m, b, b2, i, rfl, hb, hb2, hi, ?_⟩
    rw [← ht]
    simp [singleTone, adjustedF]

theorem plain_invF (env : ι → DynamicColor ι F) (s : DynamicScheme F) (r : ι) (fuel : Nat) (t : F)
    (h0 : (env r).toneDeltaPair = none) (h1 : (env r).background = none) (h : getTone env s fuel r = some t) :
    ∃ m, fuel = m + 1 ∧ (env r).tone s (getTone env s m) = some t := by
  cases fuel with
  | zero => cases h
  | succ m =>
    simp only [getTone, h0, h1, Option.bind_eq_bind, Option.bind_eq_some_iff, Option.some.injEq] at h
    obtain ⟨i, hi, rfl⟩ := h
    exact ⟨m, rfl, hi⟩

theorem paired_tonesF (env : ι → DynamicColor ι F) (s : DynamicScheme F) (p : ToneDeltaPair ι F)
    (hp : Paired env s p) (fuel : Nat) (a b : F) (ha : getTone env s (fuel + 1) p.roleA = some a)
    (hb : getTone env s (fuel + 1) p.roleB = some b) :
    ∃ (bg ia ib : F) (ka kb : ContrastCurve F), (env p.roleA).tone s (getTone env s fuel) = some ia ∧
      (env p.roleB).tone s (getTone env s fuel) = some ib ∧
      ((env p.roleA).background.bind fun g => getTone env s fuel (g s)) = some bg ∧
      (env p.roleA).contrastCurve = some ka ∧ (env p.roleB).contrastCurve = some kb ∧
      (aIsNearer p.polarity s.isDark = true →
        (a, b) = pairTones (decide (s.contrastLevel < 0.0)) bg (ka.get s.contrastLevel) (kb.get s.contrastLevel) ia ib p.delta
          (if s.isDark then 1.0 else -1.0) p.stayTogether) ∧
      (aIsNearer p.polarity s.isDark = false →
        (b, a) = pairTones (decide (s.contrastLevel < 0.0)) bg (kb.get s.contrastLevel) (ka.get s.contrastLevel) ib ia p.delta
          (if s.isDark then 1.0 else -1.0) p.stayTogether) := by
  obtain ⟨fa, hfa, hpa⟩ := Option.map_eq_some_iff.1 hp.declaredA
  obtain ⟨fb, hfb, hpb⟩ := Option.map_eq_some_iff.1 hp.declaredB
  simp only [getTone, hfa, hfb, hpa, hpb, Option.bind_eq_bind, Option.bind_eq_some_iff, Option.some.injEq] at ha hb
  obtain ⟨ba, hba, bga, hbga, nca, hnca, fca, hfca, nia, hnia, fia, hfia, ra⟩ := ha
  obtain ⟨bb, hbb, bgb, hbgb, ncb, hncb, fcb, hfcb, nib, hnib, fib, hfib, rb⟩ := hb
  have hbg : ba s = bb s := by
    have := hp.background
    rw [hba, hbb] at this
    exact Option.some.inj this
  rw [hbg, hbgb, Option.some.injEq] at hbga
  rw [hncb, Option.some.injEq] at hnca
  rw [hfcb, Option.some.injEq] at hfca
  rw [hnib, Option.some.injEq] at hnia
  rw [hfib, Option.some.injEq] at hfia
  subst hbga hnca hfca hnia hfia
  have hne := hp.names
  cases hc : aIsNearer p.polarity s.isDark
  · simp only [hc, Bool.false_eq_true, if_false] at *
    have hne' : ((env p.roleA).name == (env p.roleB).name) = false := by simpa using hne
    rw [hne'] at ra
    simp only [Bool.false_eq_true, if_false, beq_self_eq_true, if_true] at ra rb
    refine ⟨bgb, _, _, fcb, ncb, hfib, hnib,
      by rw [hba, Option.bind_some, hbg, hbgb], hfcb, hncb, by simp, fun _ => ?_⟩
    rw [← ra, ← rb]
  · simp only [hc, if_true] at *
    have hne' : ((env p.roleB).name == (env p.roleA).name) = false := by simpa using hne.symm
    rw [hne'] at rb
    simp only [Bool.false_eq_true, if_false, beq_self_eq_true, if_true] at ra rb
    refine ⟨bgb, _, _, ncb, fcb, hnib, hfib,
      by rw [hba, Option.bind_some, hbg, hbgb], hncb, hfcb, fun _ => ?_, by simp⟩
    rw [← ra, ← rb]

end inversion

variable {L : Libm}

local notation "𝔻" => F64 L

/-! ### The range of tones -/

/-- A curve is finite and stays between bounds of its control values, up to 10⁻⁹. -/
theorem curve_near {k : ContrastCurve 𝔻} (hk : CurveFin k) (x : 𝔻) : Fin (k.get x) ∧
    ∀ lo hi : ℝ, (lo ≤ val k.low ∧ lo ≤ val k.normal ∧ lo ≤ val k.medium ∧ lo ≤ val k.high) →
      (val k.low ≤ hi ∧ val k.normal ≤ hi ∧ val k.medium ≤ hi ∧ val k.high ≤ hi) →
      lo - 1 / 10 ^ 9 ≤ val (k.get x) ∧ val (k.get x) ≤ hi + 1 / 10 ^ 9 := by
  obtain ⟨v, hv, hd⟩ := ap_get k hk x
  refine ⟨hv.1, fun lo hi h1 h2 => ?_⟩
  have := c22_bounded (realCurve k) (levelOf x) lo hi h1 h2
  have hd := abs_le.1 hd
  rw [show val (k.get x) = v from hv.2]
  constructor <;> linarith

theorem curve_ratioOk {k : ContrastCurve 𝔻} (hk : RatioCurve k) (x : 𝔻) : RatioOk (k.get x) ∧
    ∀ lo hi : ℝ, (lo ≤ val k.low ∧ lo ≤ val k.normal ∧ lo ≤ val k.medium ∧ lo ≤ val k.high) →
      (val k.low ≤ hi ∧ val k.normal ≤ hi ∧ val k.medium ≤ hi ∧ val k.high ≤ hi) →
      lo - 1 / 10 ^ 9 ≤ val (k.get x) ∧ val (k.get x) ≤ hi + 1 / 10 ^ 9 := by
  have hb := curve_near hk.fin x
  refine ⟨⟨hb.1, curve_ge_one hk x, ?_⟩, hb.2⟩
  have := (hb.2 1 99 ⟨hk.low.2.1, hk.normal.2.1, hk.medium.2.1, hk.high.2.1⟩
    ⟨hk.low.2.2, hk.normal.2.2, hk.medium.2.2, hk.high.2.2⟩).2
  norm_num at this
  linarith

theorem adjusted_ok (hL : L.PowOk) (dec : Bool) {bg i k : 𝔻} (hb : Fin bg) (hi : ToneOk i) (hk : RatioOk k) :
    ToneOk (adjustedF dec bg k i) := by
  unfold adjustedF
  split
  · exact (fg_tone hL hb hk).ok
  · exact goodEnough_ok hL hb hi hk

theorem single_ok (hL : L.PowOk) (dec isBg : Bool) {bg i k : 𝔻} (hb : Fin bg) (hi : ToneOk i) (hk : RatioOk k) :
    ToneOk (singleTone dec isBg bg i k) := by
  have h := adjusted_ok hL dec hb hi hk
  have e : singleTone dec isBg bg i k = (if isBg ∧ (50.0 : 𝔻) ≤ adjustedF dec bg k i ∧ adjustedF dec bg k i < (60.0 : 𝔻) then
      if ratioOfTones 49.0 bg ≥ k then 49.0 else 60.0 else adjustedF dec bg k i) := rfl
  rw [e]
  split
  · split
    · exact (l49.tone (by norm_num) (by norm_num)).ok
    · exact (l60.tone (by norm_num) (by norm_num)).ok
  · exact h

theorem lighter_or (hL : L.PowOk) {bg r : 𝔻} (hb : Fin bg) (hr : RatioOk r) : Is (lighter bg r) (-1) ∨ Tone (lighter bg r) := by
  by_cases ho : val bg < 0 ∨ 100 < val bg
  · left
    have hc : bg < (0.0 : 𝔻) ∨ bg > (100.0 : 𝔻) := by
      rcases ho with h | h
      · left; rw [(is_of bg hb).lt_iff l0]; exact h
      · right; rw [gt_iff_lt, l100.lt_iff (is_of bg hb)]; exact h
    simp only [lighter, if_pos hc]; exact lm1
  · push Not at ho
    by_cases hv : val (lighter bg r) = -1
    · exact Or.inl (fin_of_neg hv)
    · obtain ⟨a, b, c, -⟩ := c18_binary64_sound hL bg r hb hr.1 ho.1 ho.2 hr.2.1 hr.2.2 hv
      exact Or.inr ⟨a, b, c⟩

theorem darker_or (hL : L.PowOk) {bg r : 𝔻} (hb : Fin bg) (hr : RatioOk r) : Is (darker bg r) (-1) ∨ Tone (darker bg r) := by
  by_cases ho : val bg < 0 ∨ 100 < val bg
  · left
    have hc : bg < (0.0 : 𝔻) ∨ bg > (100.0 : 𝔻) := by
      rcases ho with h | h
      · left; rw [(is_of bg hb).lt_iff l0]; exact h
      · right; rw [gt_iff_lt, l100.lt_iff (is_of bg hb)]; exact h
    simp only [darker, if_pos hc]; exact lm1
  · push Not at ho
    by_cases hv : val (darker bg r) = -1
    · exact Or.inl (fin_of_neg hv)
    · obtain ⟨a, b, c, -⟩ := c19_binary64_sound hL bg r hb hr.1 ho.1 ho.2 hr.2.1 hv
      exact Or.inr ⟨a, b, c⟩

theorem fin_fmax {x y : 𝔻} (hx : Fin x) (hy : Fin y) : Fin (Fl.fmax x y) ∧ Fin (Fl.fmin x y) :=
  ⟨((is_of x hx).fmax (is_of y hy)).1, ((is_of x hx).fmin (is_of y hy)).1⟩

theorem dual_ok (hL : L.PowOk) {b1 b2 i k : 𝔻} (h1 : Fin b1) (h2 : Fin b2) (hi : ToneOk i) (hk : RatioOk k) :
    ToneOk (dualTone b1 b2 i k) := by
  have hu := lighter_or hL (fin_fmax h1 h2).1 hk
  have hd := darker_or hL (fin_fmax h1 h2).2 hk
  have t0 : ToneOk (0.0 : 𝔻) := (l0.tone le_rfl (by norm_num)).ok
  have t100 : ToneOk (100.0 : 𝔻) := (l100.tone (by norm_num) le_rfl).ok
  have sel {x y : 𝔻} (hx : Is x (-1) ∨ Tone x) (hy : ToneOk y) : ToneOk (if x < (0.0 : 𝔻) then y else x) := by
    split
    · exact hy
    · next h =>
      rcases hx with hx | hx
      · exact absurd ((hx.lt_iff l0).2 (by norm_num)) h
      · exact hx.ok
  simp only [dualTone]
  generalize lighter (Fl.fmax b1 b2) k = u at *
  generalize darker (Fl.fmin b1 b2) k = v at *
  have ne {x : 𝔻} (hx : Is x (-1) ∨ Tone x) (h : (x != (-1.0 : 𝔻)) = true) : ToneOk x := by
    rcases hx with hx | hx
    · rw [bne, (hx.beq_iff lm1).2 rfl] at h; cases h
    · exact hx.ok
  split
  · exact hi
  · split
    · exact sel hu t100
    · split
      · next a ha =>
        split at ha
        · next c1 =>
          split at ha
          · cases ha
          · cases ha; exact ne hu c1
        · split at ha
          · next c2 => cases ha; exact ne hd c2
          · cases ha
      · exact sel hd t0

/-- The tones of a set of dynamic colours are in range if the tones wished for are. -/
theorem getTone_ok (hL : L.PowOk) {ι : Type} (env : ι → DynamicColor ι 𝔻) (s : DynamicScheme 𝔻)
    (hc : ∀ r (g : ι → Option 𝔻), (∀ x v, g x = some v → ToneOk v) → ∀ v, (env r).tone s g = some v → ToneOk v)
    (hk : ∀ r k, (env r).contrastCurve = some k → RatioCurve k)
    (hp : ∀ r p, (env r).toneDeltaPair = some p → Is (p s).delta 10) (fuel : Nat) :
    ∀ r t, getTone env s fuel r = some t → ToneOk t := by
  induction fuel with
  | zero => intro r t h; cases h
  | succ k ih =>
    intro r t h
    rw [getTone] at h
    cases hq : (env r).toneDeltaPair with
    | some p =>
      simp only [hq, Option.bind_eq_bind, Option.bind_eq_some_iff, Option.some.injEq] at h
      obtain ⟨b, hb, bg, hbg, nc, hnc, fc, hfc, ni, hni, fi, hfi, ht⟩ := h
      have h1 := hc _ _ ih _ hni
      have h2 := hc _ _ ih _ hfi
      have hdir : Is (if s.isDark then (1.0 : 𝔻) else -1.0) (if s.isDark then 1 else -1) := by
        cases s.isDark
        · exact lm1
        · exact l1
      rw [← ht]
      have hr := fun dec => pair64 hL dec (p s).stayTogether (ih _ _ hbg).1 (curve_ratioOk (hk _ _ hnc) s.contrastLevel).1
        (curve_ratioOk (hk _ _ hfc) s.contrastLevel).1 h1 h2 (hp r p hq) hdir (by cases s.isDark <;> simp)
      simp only [Spread] at hr
      generalize ((env r).name == _) = amNearer
      cases amNearer
      · exact (hr _).1.2.1
      · exact (hr _).1.1
    | none =>
      simp only [hq, Option.bind_eq_bind, Option.bind_eq_some_iff] at h
      obtain ⟨i, hi, h⟩ := h
      have hi := hc _ _ ih _ hi
      cases hb : (env r).background with
      | none => simp only [hb, Option.some.injEq] at h; rw [← h]; exact hi
      | some b =>
        simp only [hb, Option.bind_eq_some_iff] at h
        obtain ⟨bg, hbg, k, hk', h⟩ := h
        have hkk := (curve_ratioOk (hk _ _ hk') s.contrastLevel).1
        have h1 := single_ok hL (decide (s.contrastLevel < 0.0)) (env r).isBackground (ih _ _ hbg).1 hi hkk
        cases hs : (env r).secondBackground with
        | none => simp only [hs, Option.some.injEq] at h; rw [← h]; exact h1
        | some b2 =>
          simp only [hs, Option.bind_eq_some_iff, Option.some.injEq] at h
          obtain ⟨x, hx, y, hy, h⟩ := h
          rw [← h]; exact dual_ok hL (ih _ _ hx).1 (ih _ _ hy).1 h1 hkk

/-! ### The Material roles -/

theorem tone_lit {m e : ℕ} {s : Bool} (h : 0 ≤ (OfScientific.ofScientific m s e : ℝ) ∧ (OfScientific.ofScientific m s e : ℝ) ≤ 100) :
    Tone (OfScientific.ofScientific m s e : 𝔻) := by
  have hi := is_lit (L := L) (m := m) (e := e) (s := s) rfl (by
    rw [abs_of_nonneg h.1]
    refine h.2.trans (le_trans (b := (2 : ℝ) ^ 10) (by norm_num) (pow_le_pow_right₀ (by norm_num) (by norm_num))))
  exact hi.tone (rnd_nonneg h.1) (rep100.rnd_le h.2)

theorem ratio_lit {m e : ℕ} {s : Bool} (h : 1 ≤ (OfScientific.ofScientific m s e : ℝ) ∧ (OfScientific.ofScientific m s e : ℝ) ≤ 99) :
    Fin (OfScientific.ofScientific m s e : 𝔻) ∧ 1 ≤ val (OfScientific.ofScientific m s e : 𝔻) ∧
      val (OfScientific.ofScientific m s e : 𝔻) ≤ 99 := by
  have hi := is_lit (L := L) (m := m) (e := e) (s := s) rfl (by
    rw [abs_of_nonneg (by linarith [h.1])]
    refine h.2.trans (le_trans (b := (2 : ℝ) ^ 10) (by norm_num) (pow_le_pow_right₀ (by norm_num) (by norm_num))))
  have r99 : Rep 99 := by simpa using rep_int (n := 99) (by norm_num)
  refine ⟨hi.1, ?_, ?_⟩
  · rw [show val (OfScientific.ofScientific m s e : 𝔻) = _ from hi.2]; exact rep1.le_rnd h.1
  · rw [show val (OfScientific.ofScientific m s e : 𝔻) = _ from hi.2]; exact r99.rnd_le h.2

theorem curve_tone {a b c d : 𝔻} (ha : Tone a) (hb : Tone b) (hc : Tone c) (hd : Tone d) (x : 𝔻) :
    ToneOk ((curve a b c d).get x) := by
  have f {t : 𝔻} (h : Tone t) : Fin t ∧ |val t| ≤ 100 := ⟨h.1, by rw [abs_of_nonneg h.2.1]; exact h.2.2⟩
  obtain ⟨h1, h2⟩ := curve_near (k := curve a b c d) ⟨f ha, f hb, f hc, f hd⟩ x
  have := h2 0 100 ⟨ha.2.1, hb.2.1, hc.2.1, hd.2.1⟩ ⟨ha.2.2, hb.2.2, hc.2.2, hd.2.2⟩
  norm_num at this
  refine ⟨h1, ?_, ?_⟩ <;> norm_num <;> linarith

/-- The source colour and the key colours of a scheme have tones from 0 to 100, up to 2·10⁻⁵. -/
structure TonesOk (s : DynamicScheme 𝔻) : Prop where
  source : ToneOk s.sourceColorHct.getTone
  primary : ToneOk s.primaryPalette.keyColor.getTone
  secondary : ToneOk s.secondaryPalette.keyColor.getTone
  tertiary : ToneOk s.tertiaryPalette.keyColor.getTone
  neutral : ToneOk s.neutralPalette.keyColor.getTone
  neutralVariant : ToneOk s.neutralVariantPalette.keyColor.getTone

theorem fixed_tone_ok (hL : L.PowOk) (p : TonalPalette 𝔻) (t : 𝔻) : ToneOk (Dislike.fixIfDisliked (p.getHct t)).getTone := by
  obtain ⟨n, hn⟩ : ∃ n, Dislike.fixIfDisliked (p.getHct t) = Hct.fromInt n := by
    unfold Dislike.fixIfDisliked
    split
    · exact ⟨_, rfl⟩
    · unfold TonalPalette.getHct
      split <;> exact ⟨_, rfl⟩
  obtain ⟨h1, h2, h3, -⟩ := c15_binary64 hL n
  rw [hn]
  exact ⟨h1, h2, h3⟩

/-- What is needed of the search for a tone with enough chroma, which decides on the secondary container of the fidelity
and content variants. -/
def SearchOk (lf : Nat) (s : DynamicScheme 𝔻) : Prop :=
  isFidelity s = true → ∀ v, findDesiredChromaByTone lf s.secondaryPalette.hue s.secondaryPalette.chroma
    (if s.isDark then 30.0 else 90.0) (if s.isDark then false else true) = some v → ToneOk v

theorem registry_ok (hL : L.PowOk) (lf : Nat) (s : DynamicScheme 𝔻) (hs : TonesOk s) (hq : SearchOk lf s) (r : Role)
    (g : Role → Option 𝔻) (hg : ∀ x v, g x = some v → ToneOk v)
    (v : 𝔻) (h : (registry lf r).tone s g = some v) : ToneOk v := by
  have r45 : RatioOk (4.5 : 𝔻) := by
    have := ratio_lit (L := L) (m := 45) (s := true) (e := 1) (by norm_num)
    exact ⟨this.1, this.2.1, by linarith [this.2.2]⟩
  have fg (x : Role) (hv : (g x).map (fun t => foregroundTone t 4.5) = some v) : ToneOk v := by
    obtain ⟨y, hy, rfl⟩ := Option.map_eq_some_iff.1 hv
    exact (fg_tone hL (hg x y hy).1 r45).ok
  have lit (c : Prop) [Decidable c] (a b : 𝔻) (ha : ToneOk a) (hb : ToneOk b)
      (hv : some (if c then a else b) = some v) : ToneOk v := by
    cases hv
    split
    · exact ha
    · exact hb
  cases r
  case primaryPaletteKeyColor => cases h; exact hs.primary
  case secondaryPaletteKeyColor => cases h; exact hs.secondary
  case tertiaryPaletteKeyColor => cases h; exact hs.tertiary
  case neutralPaletteKeyColor => cases h; exact hs.neutral
  case neutralVariantPaletteKeyColor => cases h; exact hs.neutralVariant
  case shadow => cases h; exact (tone_lit (by norm_num)).ok
  case scrim => cases h; exact (tone_lit (by norm_num)).ok
  case onSecondaryFixed => cases h; exact (tone_lit (by norm_num)).ok
  case surfaceDim => exact lit _ _ _ (tone_lit (by norm_num)).ok (by apply curve_tone <;> exact tone_lit (by norm_num)) h
  case surfaceBright => exact lit _ _ _ (by apply curve_tone <;> exact tone_lit (by norm_num)) (tone_lit (by norm_num)).ok h
  case surfaceContainerLowest =>
    exact lit _ _ _ (by apply curve_tone <;> exact tone_lit (by norm_num)) (tone_lit (by norm_num)).ok h
  case surfaceContainerLow =>
    exact lit _ _ _ (by apply curve_tone <;> exact tone_lit (by norm_num)) (by apply curve_tone <;> exact tone_lit (by norm_num)) h
  case surfaceContainer =>
    exact lit _ _ _ (by apply curve_tone <;> exact tone_lit (by norm_num)) (by apply curve_tone <;> exact tone_lit (by norm_num)) h
  case surfaceContainerHigh =>
    exact lit _ _ _ (by apply curve_tone <;> exact tone_lit (by norm_num)) (by apply curve_tone <;> exact tone_lit (by norm_num)) h
  case surfaceContainerHighest =>
    exact lit _ _ _ (by apply curve_tone <;> exact tone_lit (by norm_num)) (by apply curve_tone <;> exact tone_lit (by norm_num)) h
  case primaryContainer =>
    simp only [registry, primaryContainer] at h
    split at h
    · cases h; exact hs.source
    · split at h <;> exact lit _ _ _ (tone_lit (by norm_num)).ok (tone_lit (by norm_num)).ok h
  case onPrimaryContainer =>
    simp only [registry, onPrimaryContainer] at h
    split at h
    · exact fg _ h
    · split at h <;> exact lit _ _ _ (tone_lit (by norm_num)).ok (tone_lit (by norm_num)).ok h
  case onSecondaryContainer =>
    simp only [registry, onSecondaryContainer] at h
    split at h
    · exact lit _ _ _ (tone_lit (by norm_num)).ok (tone_lit (by norm_num)).ok h
    · exact fg _ h
  case onTertiaryContainer =>
    simp only [registry, onTertiaryContainer] at h
    split at h
    · exact lit _ _ _ (tone_lit (by norm_num)).ok (tone_lit (by norm_num)).ok h
    · split at h
      · exact lit _ _ _ (tone_lit (by norm_num)).ok (tone_lit (by norm_num)).ok h
      · exact fg _ h
  case tertiaryContainer =>
    simp only [registry, tertiaryContainer] at h
    split at h
    · exact lit _ _ _ (tone_lit (by norm_num)).ok (tone_lit (by norm_num)).ok h
    · split at h
      · exact lit _ _ _ (tone_lit (by norm_num)).ok (tone_lit (by norm_num)).ok h
      · cases h; exact fixed_tone_ok hL _ _
  case secondaryContainer =>
    simp only [registry, secondaryContainer] at h
    split at h
    · exact lit _ _ _ (tone_lit (by norm_num)).ok (tone_lit (by norm_num)).ok h
    · split at h
      · exact lit _ _ _ (tone_lit (by norm_num)).ok (tone_lit (by norm_num)).ok h
      · next hf => exact hq (by simpa using hf) v h
  case primary =>
    simp only [registry, primary] at h
    split at h <;> exact lit _ _ _ (tone_lit (by norm_num)).ok (tone_lit (by norm_num)).ok h
  case onPrimary =>
    simp only [registry, onPrimary] at h
    split at h <;> exact lit _ _ _ (tone_lit (by norm_num)).ok (tone_lit (by norm_num)).ok h
  case onSecondary =>
    simp only [registry, onSecondary] at h
    split at h <;> exact lit _ _ _ (tone_lit (by norm_num)).ok (tone_lit (by norm_num)).ok h
  case tertiary =>
    simp only [registry, tertiary] at h
    split at h <;> exact lit _ _ _ (tone_lit (by norm_num)).ok (tone_lit (by norm_num)).ok h
  case onTertiary =>
    simp only [registry, onTertiary] at h
    split at h <;> exact lit _ _ _ (tone_lit (by norm_num)).ok (tone_lit (by norm_num)).ok h
  all_goals exact lit _ _ _ (tone_lit (by norm_num)).ok (tone_lit (by norm_num)).ok h

theorem registry_curve (lf : Nat) (r : Role) (k : ContrastCurve 𝔻) (h : (registry lf r).contrastCurve = some k) :
    RatioCurve k := by
  cases r <;> first
    | exact absurd (show none = some k from h) (fun h => nomatch h)
    | (cases h; constructor <;> exact ratio_lit (by norm_num))

theorem registry_delta64 (lf : Nat) (s : DynamicScheme 𝔻) (r : Role) (p : DynamicScheme 𝔻 → ToneDeltaPair Role 𝔻)
    (h : (registry lf r).toneDeltaPair = some p) : Is (p s).delta 10 := by
  cases r <;> first
    | exact absurd (show none = some p from h) (fun h => nomatch h)
    | (cases h; exact l10)

theorem registry_pairedF {F : Type} [Fl F] (rounds : Nat) (s : DynamicScheme F) (x : Role)
    (f : DynamicScheme F → ToneDeltaPair Role F)
    (h : (registry rounds x).toneDeltaPair = some f) : Paired (registry rounds) s (f s) := by
  cases x <;> first
    | exact absurd (show none = some f from h) (fun h => nomatch h)
    | (cases h
       exact ⟨rfl, rfl, rfl, of_decide_eq_false rfl⟩)

/-- Every tone of every Material role. -/
theorem role_ok (hL : L.PowOk) (lf : Nat) (s : DynamicScheme 𝔻) (hs : TonesOk s) (hq : SearchOk lf s) (fuel : Nat) (r : Role)
    (t : 𝔻) (h : getTone (registry lf) s fuel r = some t) : ToneOk t :=
  getTone_ok hL (registry lf) s (fun r g hg v hv => registry_ok hL lf s hs hq r g hg v hv)
    (fun r k hk => registry_curve lf r k hk) (fun r p hp => registry_delta64 lf s r p hp) fuel r t h

end Mcu.Lemmas
