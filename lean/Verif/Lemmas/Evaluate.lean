import Verif.Lemmas.DynamicColor

/-! Evaluating the tone of a dynamic colour: more nested calls do no harm, results are in range, and what the result
is for a colour drawn on one or on two backgrounds. -/

namespace Mcu.Lemmas

open Contrast Props DynamicColor MathUtils

section mono
variable {ι F : Type} [Fl F]

/-- A tone closure that is asked again with more tones known gives the same answer. -/
def MonoClosure (t : (ι → Option F) → Option F) : Prop :=
  ∀ g h : ι → Option F, (∀ x v, g x = some v → h x = some v) → ∀ v, t g = some v → t h = some v

theorem getTone_succ (env : ι → DynamicColor ι F) (s : DynamicScheme F)
    (hm : ∀ r, MonoClosure ((env r).tone s)) (fuel : Nat) :
    ∀ r t, getTone env s fuel r = some t → getTone env s (fuel + 1) r = some t := by
  induction fuel with
  | zero => intro r t h; cases h
  | succ k ih =>
    intro r t h
    rw [getTone] at h ⊢
    cases hp : (env r).toneDeltaPair with
    | some p =>
      simp only [hp, Option.bind_eq_bind, Option.bind_eq_some_iff] at h ⊢
      obtain ⟨b, hb, bg, hbg, nc, hnc, fc, hfc, ni, hni, fi, hfi, ht⟩ := h
      exact ⟨b, hb, bg, ih _ _ hbg, nc, hnc, fc, hfc, ni, hm _ _ _ ih _ hni, fi, hm _ _ _ ih _ hfi, ht⟩
    | none =>
      simp only [hp, Option.bind_eq_bind, Option.bind_eq_some_iff] at h ⊢
      obtain ⟨i, hi, h⟩ := h
      refine ⟨i, hm _ _ _ ih _ hi, ?_⟩
      cases hb : (env r).background with
      | none => simp only [hb] at h ⊢; exact h
      | some b =>
        simp only [hb, Option.bind_eq_some_iff] at h ⊢
        obtain ⟨bg, hbg, k, hk, h⟩ := h
        refine ⟨bg, ih _ _ hbg, k, hk, ?_⟩
        cases hs : (env r).secondBackground with
        | none => simp only [hs] at h ⊢; exact h
        | some b2 =>
          simp only [hs, Option.bind_eq_some_iff] at h ⊢
          obtain ⟨x, hx, y, hy, h⟩ := h
          exact ⟨x, ih _ _ hx, y, ih _ _ hy, h⟩

theorem getTone_mono (env : ι → DynamicColor ι F) (s : DynamicScheme F)
    (hm : ∀ r, MonoClosure ((env r).tone s)) {m n : Nat} (h : m ≤ n) (r : ι) (t : F)
    (ht : getTone env s m r = some t) : getTone env s n r = some t := by
  induction h with
  | refl => exact ht
  | step _ ih => exact getTone_succ env s hm _ r t ih

/-- Two evaluations that both succeed agree. -/
theorem getTone_unique (env : ι → DynamicColor ι F) (s : DynamicScheme F)
    (hm : ∀ r, MonoClosure ((env r).tone s)) {m n : Nat} {r : ι} {t u : F}
    (ht : getTone env s m r = some t) (hu : getTone env s n r = some u) : t = u := by
  have h1 := getTone_mono env s hm (le_max_left m n) r t ht
  have h2 := getTone_mono env s hm (le_max_right m n) r u hu
  exact Option.some.inj (h1.symm.trans h2)

/-- Two sets of colours that differ in their tone closures only, those of the second answering whenever those of the
first do, with the same tone. -/
structure Extends (e1 e2 : ι → DynamicColor ι F) (s : DynamicScheme F) : Prop where
  name : ∀ r, (e2 r).name = (e1 r).name
  isBackground : ∀ r, (e2 r).isBackground = (e1 r).isBackground
  background : ∀ r, (e2 r).background = (e1 r).background
  secondBackground : ∀ r, (e2 r).secondBackground = (e1 r).secondBackground
  contrastCurve : ∀ r, (e2 r).contrastCurve = (e1 r).contrastCurve
  toneDeltaPair : ∀ r, (e2 r).toneDeltaPair = (e1 r).toneDeltaPair
  tone : ∀ r (g h : ι → Option F), (∀ x v, g x = some v → h x = some v) → ∀ v, (e1 r).tone s g = some v →
    (e2 r).tone s h = some v

theorem getTone_extends {e1 e2 : ι → DynamicColor ι F} {s : DynamicScheme F} (he : Extends e1 e2 s) (fuel : Nat) :
    ∀ r t, getTone e1 s fuel r = some t → getTone e2 s fuel r = some t := by
  induction fuel with
  | zero => intro r t h; cases h
  | succ k ih =>
    intro r t h
    rw [getTone] at h ⊢
    simp only [he.name, he.isBackground, he.background, he.secondBackground, he.contrastCurve, he.toneDeltaPair]
    cases hp : (e1 r).toneDeltaPair with
    | some p =>
      simp only [hp, Option.bind_eq_bind, Option.bind_eq_some_iff] at h ⊢
      obtain ⟨b, hb, bg, hbg, nc, hnc, fc, hfc, ni, hni, fi, hfi, ht⟩ := h
      exact ⟨b, hb, bg, ih _ _ hbg, nc, hnc, fc, hfc, ni, he.tone _ _ _ ih _ hni, fi, he.tone _ _ _ ih _ hfi, ht⟩
    | none =>
      simp only [hp, Option.bind_eq_bind, Option.bind_eq_some_iff] at h ⊢
      obtain ⟨i, hi, h⟩ := h
      refine ⟨i, he.tone _ _ _ ih _ hi, ?_⟩
      cases hb : (e1 r).background with
      | none => simp only [hb] at h ⊢; exact h
      | some b =>
        simp only [hb, Option.bind_eq_some_iff] at h ⊢
        obtain ⟨bg, hbg, k, hk, h⟩ := h
        refine ⟨bg, ih _ _ hbg, k, hk, ?_⟩
        cases hs : (e1 r).secondBackground with
        | none => simp only [hs] at h ⊢; exact h
        | some b2 =>
          simp only [hs, Option.bind_eq_some_iff] at h ⊢
          obtain ⟨x, hx, y, hy, h⟩ := h
          exact ⟨x, ih _ _ hx, y, ih _ _ hy, h⟩

/-- What colour `r` needs when it is evaluated: the colours it asks about belong to the set `P` and have a lower rank,
and the closures and contrast curves it uses exist and succeed if those colours have tones. -/
def Evaluable (env : ι → DynamicColor ι F) (s : DynamicScheme F) (rank : ι → Nat) (P : ι → Prop) (r : ι) : Prop :=
  let below (x : ι) : Prop := P x ∧ rank x < rank r
  let answers (t : (ι → Option F) → Option F) : Prop :=
    ∀ g : ι → Option F, (∀ x, below x → (g x).isSome) → (t g).isSome
  match (env r).toneDeltaPair with
  | some p => (∃ b, (env r).background = some b ∧ below (b s)) ∧
      (∀ x, x = (p s).roleA ∨ x = (p s).roleB → (env x).contrastCurve.isSome ∧ answers ((env x).tone s))
  | none => answers ((env r).tone s) ∧
      ∀ b, (env r).background = some b → below (b s) ∧ (env r).contrastCurve.isSome ∧
        ∀ b2, (env r).secondBackground = some b2 → below (b2 s)

/-- If the colours of `P` only need colours of `P` of lower rank, they all have tones, and nested calls are no deeper
than the rank. -/
theorem getTone_total (env : ι → DynamicColor ι F) (s : DynamicScheme F) (rank : ι → Nat) (P : ι → Prop)
    (h : ∀ r, P r → Evaluable env s rank P r) (fuel : Nat) :
    ∀ r, P r → rank r < fuel → (getTone env s fuel r).isSome := by
  induction fuel with
  | zero => intro r _ h; omega
  | succ k ih =>
    intro r hr hk
    have hb : ∀ x, P x ∧ rank x < rank r → (getTone env s k x).isSome := fun x hx => ih x hx.1 (by omega)
    have he := h r hr
    simp only [Evaluable] at he
    rw [getTone]
    cases hp : (env r).toneDeltaPair with
    | some p =>
      simp only [hp] at he ⊢
      obtain ⟨⟨b, hbg, hbel⟩, hx⟩ := he
      obtain ⟨bg, hbg'⟩ := Option.isSome_iff_exists.1 (hb _ hbel)
      have hx' : ∀ c : Bool, ((env (if c then (p s).roleA else (p s).roleB)).contrastCurve.isSome ∧
          ((env (if c then (p s).roleA else (p s).roleB)).tone s (getTone env s k)).isSome) ∧
          ((env (if c then (p s).roleB else (p s).roleA)).contrastCurve.isSome ∧
          ((env (if c then (p s).roleB else (p s).roleA)).tone s (getTone env s k)).isSome) := by
        intro c
        have ha := hx _ (Or.inl rfl)
        have hb2 := hx _ (Or.inr rfl)
        cases c
        · exact ⟨⟨hb2.1, hb2.2 _ hb⟩, ha.1, ha.2 _ hb⟩
        · exact ⟨⟨ha.1, ha.2 _ hb⟩, hb2.1, hb2.2 _ hb⟩
      have := hx' (aIsNearer (p s).polarity s.isDark)
      simp only [Option.isSome_iff_exists] at this
      obtain ⟨⟨⟨c1, h1⟩, t1, h2⟩, ⟨c2, h3⟩, t2, h4⟩ := this
      simp only [hbg, Option.bind_eq_bind, Option.bind_some, hbg', h1, h2, h3, h4, Option.isSome_some]
    | none =>
      simp only [hp] at he ⊢
      obtain ⟨ha, hx⟩ := he
      obtain ⟨i, hi⟩ := Option.isSome_iff_exists.1 (ha _ hb)
      simp only [hi, Option.bind_eq_bind, Option.bind_some]
      cases hbg : (env r).background with
      | none => rfl
      | some b =>
        obtain ⟨h1, h2, h3⟩ := hx b hbg
        obtain ⟨bg, hbg'⟩ := Option.isSome_iff_exists.1 (hb _ h1)
        obtain ⟨c, hc⟩ := Option.isSome_iff_exists.1 h2
        simp only [hbg', hc, Option.bind_some]
        cases hs : (env r).secondBackground with
        | none => rfl
        | some b2 =>
          obtain ⟨x, hx⟩ := Option.isSome_iff_exists.1 (hb _ (h3 b2 hs))
          simp only [hx, Option.bind_some]
          rfl

end mono

section real
variable {ι : Type}

theorem singleTone_range (dec isBg : Bool) (bg t k : ℝ) (h : 0 ≤ t ∧ t ≤ 100) :
    0 ≤ singleTone dec isBg bg t k ∧ singleTone dec isBg bg t k ≤ 100 := by
  have hx : singleTone dec isBg bg t k = adjusted dec bg k t ∨ singleTone dec isBg bg t k = 49 ∨
      singleTone dec isBg bg t k = 60 := by
    have e : singleTone dec isBg bg t k = if isBg ∧ 50.0 ≤ adjusted dec bg k t ∧ adjusted dec bg k t < 60.0 then
        if ratioOfTones 49.0 bg ≥ k then 49.0 else 60.0 else adjusted dec bg k t := rfl
    rw [e]
    generalize adjusted dec bg k t = x
    by_cases h1 : isBg ∧ 50.0 ≤ x ∧ x < 60.0
    · right
      rw [if_pos h1]
      by_cases h2 : ratioOfTones 49.0 bg ≥ k
      · left; rw [if_pos h2]; norm_num
      · right; rw [if_neg h2]; norm_num
    · left; rw [if_neg h1]
  rcases hx with e | e | e <;> rw [e]
  · exact adjusted_range _ _ _ _ h
  · norm_num
  · norm_num

theorem dualTone_range (b1 b2 t k : ℝ) (h : 0 ≤ t ∧ t ≤ 100) :
    0 ≤ dualTone b1 b2 t k ∧ dualTone b1 b2 t k ≤ 100 := by
  have e0 : (0.0 : ℝ) = 0 := by norm_num
  have e1 : (-1.0 : ℝ) = -1 := by norm_num
  have e2 : (100.0 : ℝ) = 100 := by norm_num
  simp only [dualTone, e0, e1, e2]
  have hl := c18_answer (Fl.fmax b1 b2) k
  have hd := c19_answer (Fl.fmin b1 b2) k
  generalize lighter (Fl.fmax b1 b2) k = l at *
  generalize darker (Fl.fmin b1 b2) k = d at *
  have safe (x c : ℝ) (hx : x = -1 ∨ (0 ≤ x ∧ x ≤ 100)) (hc : 0 ≤ c ∧ c ≤ 100) :
      0 ≤ (if x < 0 then c else x) ∧ (if x < 0 then c else x) ≤ 100 := by
    split
    · exact hc
    · next hn =>
      rcases hx with rfl | hx
      · norm_num at hn
      · exact hx
  split
  · exact h
  · split
    · exact safe l 100 hl (by norm_num)
    · have hfin := safe d 0 hd (by norm_num)
      rcases hl with rfl | hl <;> rcases hd with rfl | hd
      · simp
      · have : (d != -1) = true := by
          rw [bne_iff_ne]; intro h; linarith [hd.1]
        simp [this]
        exact hd
      · have : (l != -1) = true := by
          rw [bne_iff_ne]; intro h; linarith [hl.1]
        simp [this]
        exact hl
      · have h1 : (d != -1) = true := by
          rw [bne_iff_ne]; intro h; linarith [hd.1]
        have h2 : (l != -1) = true := by
          rw [bne_iff_ne]; intro h; linarith [hl.1]
        simp only [h1, h2, if_true, List.cons_append, List.nil_append]
        exact hfin

theorem pair_range (dec : Bool) (bg nc fc ni fi d : ℝ) (dark together : Bool) (hn : 0 ≤ ni ∧ ni ≤ 100)
    (hf : 0 ≤ fi ∧ fi ≤ 100) (hd : 0 ≤ d ∧ d ≤ 40) :
    let r := pairTones dec bg nc fc ni fi d (if dark then 1 else -1) together
    (0 ≤ r.1 ∧ r.1 ≤ 100) ∧ (0 ≤ r.2 ∧ r.2 ≤ 100) := by
  cases dark
  · have hx := pair_light dec bg nc fc ni fi d together hn hf ⟨hd.1, by linarith⟩
    simp only [Bool.false_eq_true, if_false] at hx ⊢
    have h0 := hx.2.2.2.1 (by linarith)
    refine ⟨⟨?_, ?_⟩, ?_, ?_⟩ <;> linarith [hx.1, hx.2.2.2.2]
  · have hx := pair_dark dec bg nc fc ni fi d together hn hf ⟨hd.1, by linarith⟩
    simp only [if_true] at hx ⊢
    have h0 := hx.2.2.2.1 hd.2
    refine ⟨⟨?_, ?_⟩, ?_, ?_⟩ <;> linarith [hx.1, hx.2.2.2.2]

/-- Tones are in range if the tones asked for are. -/
theorem getTone_range (env : ι → DynamicColor ι ℝ) (s : DynamicScheme ℝ)
    (hc : ∀ r (g : ι → Option ℝ), (∀ x v, g x = some v → 0 ≤ v ∧ v ≤ 100) →
      ∀ v, (env r).tone s g = some v → 0 ≤ v ∧ v ≤ 100)
    (hp : ∀ r p, (env r).toneDeltaPair = some p → 0 ≤ (p s).delta ∧ (p s).delta ≤ 40) (fuel : Nat) :
    ∀ r t, getTone env s fuel r = some t → 0 ≤ t ∧ t ≤ 100 := by
  have e1 : (1.0 : ℝ) = 1 := by norm_num
  induction fuel with
  | zero => intro r t h; cases h
  | succ k ih =>
    intro r t h
    rw [getTone] at h
    cases hq : (env r).toneDeltaPair with
    | some p =>
      simp only [hq, Option.bind_eq_bind, Option.bind_eq_some_iff, Option.some.injEq, e1] at h
      obtain ⟨b, hb, bg, hbg, nc, hnc, fc, hfc, ni, hni, fi, hfi, ht⟩ := h
      have h1 := hc _ _ ih _ hni
      have h2 := hc _ _ ih _ hfi
      obtain ⟨d0, d1⟩ := hp r p hq
      rw [← ht]
      have hr := fun dec => pair_range dec bg (nc.get s.contrastLevel) (fc.get s.contrastLevel) ni fi (p s).delta
        s.isDark (p s).stayTogether h1 h2 ⟨d0, d1⟩
      generalize ((env r).name == _) = amNearer
      cases amNearer
      · exact (hr _).2
      · exact (hr _).1
    | none =>
      simp only [hq, Option.bind_eq_bind, Option.bind_eq_some_iff] at h
      obtain ⟨i, hi, h⟩ := h
      have hi := hc _ _ ih _ hi
      cases hb : (env r).background with
      | none => simp only [hb, Option.some.injEq] at h; rw [← h]; exact hi
      | some b =>
        simp only [hb, Option.bind_eq_some_iff] at h
        obtain ⟨bg, hbg, k, hk, h⟩ := h
        have h1 := singleTone_range (decide (s.contrastLevel < 0.0)) (env r).isBackground bg i (k.get s.contrastLevel) hi
        cases hs : (env r).secondBackground with
        | none => simp only [hs, Option.some.injEq] at h; rw [← h]; exact h1
        | some b2 =>
          simp only [hs, Option.bind_eq_some_iff, Option.some.injEq] at h
          obtain ⟨x, hx, y, hy, h⟩ := h
          rw [← h]; exact dualTone_range _ _ _ _ h1

/-- A colour that is drawn on one background. -/
theorem single_inv (env : ι → DynamicColor ι ℝ) (s : DynamicScheme ℝ) (r : ι) (fuel : Nat) (t : ℝ)
    (g : DynamicScheme ℝ → ι) (k : ContrastCurve ℝ)
    (h0 : (env r).toneDeltaPair = none) (h1 : (env r).background = some g) (h2 : (env r).secondBackground = none)
    (h3 : (env r).contrastCurve = some k) (h4 : (env r).isBackground = false)
    (h : getTone env s fuel r = some t) :
    ∃ m b i, fuel = m + 1 ∧ getTone env s m (g s) = some b ∧ (env r).tone s (getTone env s m) = some i ∧
      t = adjusted (decide (s.contrastLevel < 0)) b (k.get s.contrastLevel) i := by
  have e0 : (0.0 : ℝ) = 0 := by norm_num
  cases fuel with
  | zero => cases h
  | succ m =>
    simp only [getTone, h0, h1, h2, h3, h4, Option.bind_eq_bind, Option.bind_eq_some_iff, Option.some.injEq, e0] at h
    obtain ⟨i, hi, b, hb, k', rfl, ht⟩ := h
    refine ⟨m, b, i, rfl, hb, hi, ?_⟩
    rw [← ht]
    simp [singleTone, adjusted]

/-- A colour that is drawn on two backgrounds. -/
theorem dual_inv (env : ι → DynamicColor ι ℝ) (s : DynamicScheme ℝ) (r : ι) (fuel : Nat) (t : ℝ)
    (g g2 : DynamicScheme ℝ → ι) (k : ContrastCurve ℝ)
    (h0 : (env r).toneDeltaPair = none) (h1 : (env r).background = some g) (h2 : (env r).secondBackground = some g2)
    (h3 : (env r).contrastCurve = some k) (h4 : (env r).isBackground = false)
    (h : getTone env s fuel r = some t) :
    ∃ m b b2 i, fuel = m + 1 ∧ getTone env s m (g s) = some b ∧ getTone env s m (g2 s) = some b2 ∧
      (env r).tone s (getTone env s m) = some i ∧
      t = dualTone b b2 (adjusted (decide (s.contrastLevel < 0)) b (k.get s.contrastLevel) i) (k.get s.contrastLevel) := by
  have e0 : (0.0 : ℝ) = 0 := by norm_num
  cases fuel with
  | zero => cases h
  | succ m =>
    simp only [getTone, h0, h1, h2, h3, h4, Option.bind_eq_bind, Option.bind_eq_some_iff, Option.some.injEq, e0] at h
    obtain ⟨i, hi, b, hb, k', rfl, b', hb', b2, hb2, ht⟩ := h
    rw [hb, Option.some.injEq] at hb'
    subst hb'
    refine ⟨m, b, b2, i, rfl, hb, hb2, hi, ?_⟩
    rw [← ht]
    simp [singleTone, adjusted]

/-- A colour without a background. -/
theorem plain_inv (env : ι → DynamicColor ι ℝ) (s : DynamicScheme ℝ) (r : ι) (fuel : Nat) (t : ℝ)
    (h0 : (env r).toneDeltaPair = none) (h1 : (env r).background = none) (h : getTone env s fuel r = some t) :
    ∃ m, fuel = m + 1 ∧ (env r).tone s (getTone env s m) = some t := by
  cases fuel with
  | zero => cases h
  | succ m =>
    simp only [getTone, h0, h1, Option.bind_eq_bind, Option.bind_eq_some_iff, Option.some.injEq] at h
    obtain ⟨i, hi, rfl⟩ := h
    exact ⟨m, rfl, hi⟩

end real
end Mcu.Lemmas
