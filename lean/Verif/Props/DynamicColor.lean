import Verif.Lemmas.DynamicColor

/-! Property C55: tone delta pairs. -/

namespace Mcu.Props

open DynamicColor Lemmas Spec

section
variable {ι : Type}

/-- The tones of both colours of a pair, evaluated with the same number of nested calls. -/
theorem paired_tones (env : ι → DynamicColor ι ℝ) (s : DynamicScheme ℝ) (p : ToneDeltaPair ι ℝ)
    (hp : Paired env s p) (fuel : Nat) (a b : ℝ) (ha : getTone env s (fuel + 1) p.roleA = some a)
    (hb : getTone env s (fuel + 1) p.roleB = some b) :
    ∃ (bg na nb ia ib : ℝ), (env p.roleA).tone s (getTone env s fuel) = some ia ∧
      (env p.roleB).tone s (getTone env s fuel) = some ib ∧
      ((env p.roleA).background.bind fun g => getTone env s fuel (g s)) = some bg ∧
      ((env p.roleA).contrastCurve.map fun k => k.get s.contrastLevel) = some na ∧
      ((env p.roleB).contrastCurve.map fun k => k.get s.contrastLevel) = some nb ∧
      (aIsNearer p.polarity s.isDark = true →
        (a, b) = pairTones (decide (s.contrastLevel < 0)) bg na nb ia ib p.delta (if s.isDark then 1 else -1) p.stayTogether) ∧
      (aIsNearer p.polarity s.isDark = false →
        (b, a) = pairTones (decide (s.contrastLevel < 0)) bg nb na ib ia p.delta (if s.isDark then 1 else -1) p.stayTogether) := by
  have e0 : (0.0 : ℝ) = 0 := by norm_num
  have e1 : (1.0 : ℝ) = 1 := by norm_num
  obtain ⟨fa, hfa, hpa⟩ := Option.map_eq_some_iff.1 hp.declaredA
  obtain ⟨fb, hfb, hpb⟩ := Option.map_eq_some_iff.1 hp.declaredB
  simp only [getTone, hfa, hfb, hpa, hpb, Option.bind_eq_bind, Option.bind_eq_some_iff, Option.some.injEq, e0, e1] at ha hb
  obtain ⟨ba, hba, bga, hbga, nca, hnca, fca, hfca, nia, hnia, fia, hfia, ra⟩ := ha
  obtain ⟨bb, hbb, bgb, hbgb, ncb, hncb, fcb, hfcb, nib, hnib, fib, hfib, rb⟩ := hb
  have hbg : ba s = bb s := by
    have := hp.background
    rw [hba, hbb] at this
    exact Option.some.inj this
  rw [hbg, hbgb, Option.some.injEq] at hbga
  rw [hncb, Option.some.injEq] at hnca
  rw [hfcb, Option.some.injEq] at hfca
  rw [hnib, Option.some.injEq] at hnia
  rw [hfib, Option.some.injEq] at hfia
  subst hbga hnca hfca hnia hfia
  have hne := hp.names
  cases hc : aIsNearer p.polarity s.isDark
  · simp only [hc, Bool.false_eq_true, if_false] at *
    have hne' : ((env p.roleA).name == (env p.roleB).name) = false := by simpa using hne
    rw [hne'] at ra
    simp only [Bool.false_eq_true, if_false, beq_self_eq_true, if_true] at ra rb
    refine ⟨bgb, fcb.get s.contrastLevel, ncb.get s.contrastLevel, _, _, hfib, hnib,
      by rw [hba, Option.bind_some, hbg, hbgb], by rw [hfcb]; rfl, by rw [hncb]; rfl, by simp, fun _ => ?_⟩
    rw [← ra, ← rb]
  · simp only [hc, if_true] at *
    have hne' : ((env p.roleB).name == (env p.roleA).name) = false := by simpa using hne.symm
    rw [hne'] at rb
    simp only [Bool.false_eq_true, if_false, beq_self_eq_true, if_true] at ra rb
    refine ⟨bgb, ncb.get s.contrastLevel, fcb.get s.contrastLevel, _, _, hnib, hfib,
      by rw [hba, Option.bind_some, hbg, hbgb], by rw [hncb]; rfl, by rw [hfcb]; rfl, fun _ => ?_, by simp⟩
    rw [← ra, ← rb]

/-- C55: for every set of dynamic colours, every scheme and every pair two of them declare, with any distance from
0 to 100, any polarity, sticking together or not: if the colours ask for tones from 0 to 100, then their final
tones keep the declared distance in the declared order, and neither lies in [50, 60). -/
theorem c55_distance (env : ι → DynamicColor ι ℝ) (s : DynamicScheme ℝ) (p : ToneDeltaPair ι ℝ)
    (hp : Paired env s p) (hd : 0 ≤ p.delta ∧ p.delta ≤ 100) (fuel : Nat) (a b : ℝ)
    (hia : ∀ t, (env p.roleA).tone s (getTone env s fuel) = some t → 0 ≤ t ∧ t ≤ 100)
    (hib : ∀ t, (env p.roleB).tone s (getTone env s fuel) = some t → 0 ≤ t ∧ t ≤ 100)
    (ha : getTone env s (fuel + 1) p.roleA = some a) (hb : getTone env s (fuel + 1) p.roleB = some b) :
    Apart p.polarity s.isDark p.delta a b ∧ ¬ Awkward a ∧ ¬ Awkward b := by
  obtain ⟨bg, na, nb, ia, ib, ea, eb, -, -, -, h1, h2⟩ := paired_tones env s p hp fuel a b ha hb
  have ra := hia ia ea
  have rb := hib ib eb
  cases hs : s.isDark <;> cases hpol : p.polarity <;>
    simp [hs, hpol, aIsNearer] at h1 h2 <;>
    first
    | (have hx := pair_light (decide (s.contrastLevel < 0)) bg na nb ia ib p.delta p.stayTogether ra rb hd
       simp only [← h1] at hx; exact ⟨hx.1, hx.2.1, hx.2.2.1⟩)
    | (have hx := pair_light (decide (s.contrastLevel < 0)) bg nb na ib ia p.delta p.stayTogether rb ra hd
       simp only [← h2] at hx; exact ⟨hx.1, hx.2.2.1, hx.2.1⟩)
    | (have hx := pair_dark (decide (s.contrastLevel < 0)) bg na nb ia ib p.delta p.stayTogether ra rb hd
       simp only [← h1] at hx; exact ⟨hx.1, hx.2.1, hx.2.2.1⟩)
    | (have hx := pair_dark (decide (s.contrastLevel < 0)) bg nb na ib ia p.delta p.stayTogether rb ra hd
       simp only [← h2] at hx; exact ⟨hx.1, hx.2.2.1, hx.2.1⟩)

/-- C55: if the distance is at most 40, the final tones are in range. -/
theorem c55_range (env : ι → DynamicColor ι ℝ) (s : DynamicScheme ℝ) (p : ToneDeltaPair ι ℝ)
    (hp : Paired env s p) (hd : 0 ≤ p.delta ∧ p.delta ≤ 40) (fuel : Nat) (a b : ℝ)
    (hia : ∀ t, (env p.roleA).tone s (getTone env s fuel) = some t → 0 ≤ t ∧ t ≤ 100)
    (hib : ∀ t, (env p.roleB).tone s (getTone env s fuel) = some t → 0 ≤ t ∧ t ≤ 100)
    (ha : getTone env s (fuel + 1) p.roleA = some a) (hb : getTone env s (fuel + 1) p.roleB = some b) :
    (0 ≤ a ∧ a ≤ 100) ∧ (0 ≤ b ∧ b ≤ 100) := by
  obtain ⟨bg, na, nb, ia, ib, ea, eb, -, -, -, h1, h2⟩ := paired_tones env s p hp fuel a b ha hb
  have ra := hia ia ea
  have rb := hib ib eb
  have hd' : 0 ≤ p.delta ∧ p.delta ≤ 100 := ⟨hd.1, by linarith⟩
  have hd9 : p.delta ≤ 49 := by linarith
  cases hc : aIsNearer p.polarity s.isDark
  · have h := h2 hc
    cases hs : s.isDark <;> simp only [hs, if_true, if_false, Bool.false_eq_true] at h
    · have hx := pair_light (decide (s.contrastLevel < 0)) bg nb na ib ia p.delta p.stayTogether rb ra hd'
      simp only [← h] at hx
      have := hx.2.2.2.1 hd9
      refine ⟨⟨?_, ?_⟩, ?_, ?_⟩ <;> linarith [hx.1, hx.2.2.2.2]
    · have hx := pair_dark (decide (s.contrastLevel < 0)) bg nb na ib ia p.delta p.stayTogether rb ra hd'
      simp only [← h] at hx
      have := hx.2.2.2.1 hd.2
      refine ⟨⟨?_, ?_⟩, ?_, ?_⟩ <;> linarith [hx.1, hx.2.2.2.2]
  · have h := h1 hc
    cases hs : s.isDark <;> simp only [hs, if_true, if_false, Bool.false_eq_true] at h
    · have hx := pair_light (decide (s.contrastLevel < 0)) bg na nb ia ib p.delta p.stayTogether ra rb hd'
      simp only [← h] at hx
      have := hx.2.2.2.1 hd9
      refine ⟨⟨?_, ?_⟩, ?_, ?_⟩ <;> linarith [hx.1, hx.2.2.2.2]
    · have hx := pair_dark (decide (s.contrastLevel < 0)) bg na nb ia ib p.delta p.stayTogether ra rb hd'
      simp only [← h] at hx
      have := hx.2.2.2.1 hd.2
      refine ⟨⟨?_, ?_⟩, ?_, ?_⟩ <;> linarith [hx.1, hx.2.2.2.2]

end
end Mcu.Props
