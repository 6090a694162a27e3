import Verif.Lemmas.SelfClose

/-! The search finds every colour of the gamut, for all ranges of luminance. -/

namespace Mcu.Lemmas

open Real Set Mcu.HctSolver Mcu.ColorUtils Mcu.MathUtils Mcu.Spec

macro "bin" : tactic => `(tactic| (
  refine ⟨by norm_num, ?_, by norm_num, by norm_num, by norm_num, by norm_num, by norm_num, by norm_num, by norm_num⟩
  refine le_trans ?_ (Real.sum_le_exp_of_nonneg (by norm_num) 11)
  norm_num [Finset.sum_range_succ, Nat.factorial]))

theorem bin0 : Bin (4.39 + 1e-7) 0.74 5.091 0.100001 := by bin
theorem bin01 : Bin (2.82 + 1e-7) 0.52 3.1282 1.00001 := by bin
theorem bin1 : Bin (2.225 + 1e-7) 0.4 2.4104 4.0001 := by bin
theorem bin4 : Bin (1.934 + 1e-7) 0.33 2.066 16.001 := by bin
theorem bin16 : Bin (1.648 + 1e-7) 0.25 1.7326 64.001 := by bin
theorem bin64 : Bin (1.462 + 1e-7) 0.19 1.5187 100 := by bin
theorem binR : Bin (1.349 + 1e-7) 0.15 1.391 64.001 := by bin
theorem binB : Bin (1.419 + 1e-7) 0.175 1.4697 64.001 := by bin
theorem binB7 : Bin (1.419 + 1e-7) 0.175 1.4697 16.001 := by bin

namespace Aim

variable {R : Ray} {w v0 j y r g b : ℝ} (A : Aim R w v0 j y r g b)
include A

/-- Where the search can end. -/
def Found (R : Ray) (v0 j y r g b : ℝ) : Prop := ∃ plo phi, Setup R y (log j) v0 plo phi ∧ ∀ v, Steps R y 4 v0 v →
  v ∈ Icc (log j) v0 ∧ (1.9e-10 * y ≤ R.ch0 v ∧ 1.9e-10 * y ≤ R.ch1 v ∧ 1.9e-10 * y ≤ R.ch2 v) ∧ Good (R.ch0 v) r ∧ Good (R.ch1 v) g ∧ Good (R.ch2 v) b

omit A in
theorem make_found {plo phi U4 : ℝ} (S : Setup R y (log j) v0 plo phi) (E : ∀ v, Steps R y 4 v0 v → Ends R v0 j y v U4)
    (hg : ∀ v, Ends R v0 j y v U4 → Good (R.ch0 v) r ∧ Good (R.ch1 v) g ∧ Good (R.ch2 v) b) : Found R v0 j y r g b :=
  ⟨plo, phi, S, fun v st => ⟨(E v st).mem, ⟨(E v st).c0, (E v st).c1, (E v st).c2⟩, hg v (E v st)⟩⟩

theorem found_dark (hy : y ≤ 0.100001) : Found R v0 j y r g b := by
  have lo := A.lo
  have y1 := A.y100
  have eY := (abs_le.1 A.Y1).2
  obtain ⟨phi, S, E⟩ := A.ends (lo := 0.002) bin0 (A.upper (R2 := 4.39) (by norm_num) (by norm_num)
    ((A.inside (lo := 0.002) (by norm_num at *; linarith) (by norm_num)).guess0 (by norm_num at *; linarith))) hy (by norm_num at *; linarith) le_rfl
    (fun v hv => hv.fast0) (by norm_num) (by norm_num) (w1 := 0.3061026) (w2 := 0.0775043) (w3 := 0.0130721) (U4 := 0.0018934)
    (by norm_num [contract]) (by norm_num [contract]) (by norm_num [contract]) (by norm_num [contract])
  exact make_found S E (fun v E => E.good_dark A hy (by norm_num) (by norm_num) (by norm_num))

theorem found_01 (hl : 0.100001 ≤ y) (hy : y ≤ 1.00001) : Found R v0 j y r g b := by
  have lo := A.lo
  have y1 := A.y100
  have eY := (abs_le.1 A.Y1).2
  obtain ⟨phi, S, E⟩ := A.ends (lo := 0.002) bin01 (A.upper (R2 := 2.82) (by norm_num) (by norm_num)
    ((A.inside (lo := 0.1) (by norm_num at *; linarith) (by norm_num)).guess01 (by norm_num at *; linarith))) hy (by norm_num at *; linarith) le_rfl
    (fun v hv => hv.fast0) (by norm_num) (by norm_num) (w1 := 0.172794) (w2 := 0.0352327) (w3 := 0.0053917) (U4 := 0.0007657)
    (by norm_num [contract]) (by norm_num [contract]) (by norm_num [contract]) (by norm_num [contract])
  exact make_found S E (fun v E => E.good_dark A hy (by norm_num) (by norm_num) (by norm_num))

/-- A component is below the largest code, or is full. -/
def Code (l : ℝ) : Prop := l ≤ 99.2 ∨ l = 100

omit A in
theorem Code.le {l k : ℝ} (h : Code l) (hl : l ≤ k) (hk : k < 100) : l ≤ 99.2 := by
  rcases h with h | h
  · exact h
  · linarith

theorem r_le : 0.2126 * r ≤ 1.000001 * y := by
  have := (abs_le.1 A.lum).1; have := A.y0; have := A.r0; have := A.g0; have := A.b0; norm_num at *; linarith
theorem g_le : 0.7152 * g ≤ 1.000001 * y := by
  have := (abs_le.1 A.lum).1; have := A.y0; have := A.r0; have := A.g0; have := A.b0; norm_num at *; linarith
theorem b_le : 0.0722 * b ≤ 1.000001 * y := by
  have := (abs_le.1 A.lum).1; have := A.y0; have := A.r0; have := A.g0; have := A.b0; norm_num at *; linarith

theorem found_1 (hl : 1.00001 ≤ y) (hy : y ≤ 4.0001) : Found R v0 j y r g b := by
  have lo := A.lo
  have y1 := A.y100
  have eY := (abs_le.1 A.Y1).2
  have := A.r_le; have := A.g_le; have := A.b_le
  obtain ⟨phi, S, E⟩ := A.ends (lo := 0.002) bin1 (A.upper (R2 := 2.225) (by norm_num) (by norm_num)
    ((A.inside (lo := 1) (by norm_num at *; linarith) (by norm_num)).guess1 (by norm_num at *; linarith))) hy (by norm_num at *; linarith) le_rfl
    (fun v hv => hv.fast0) (by norm_num) (by norm_num) (w1 := 0.1151681) (w2 := 0.0210285) (w3 := 0.0031076) (U4 := 0.0004387)
    (by norm_num [contract]) (by norm_num [contract]) (by norm_num [contract]) (by norm_num [contract])
  exact make_found S E (fun v E => E.good_late A hy (by norm_num) (by norm_num) (by norm_num) (.inl (by norm_num at *; linarith)) (.inl (by norm_num at *; linarith))
    (.inl (by norm_num at *; linarith)))

/-- Blue is full: the luminance is at least 7.22. -/
theorem found_b7 (hb : b = 100) (hr : Code r) (hg : Code g) (hy : y ≤ 16.001) : Found R v0 j y r g b := by
  have lo := A.lo
  have y1 := A.y100
  have eY := abs_le.1 A.Y1
  have e0 := abs_le.1 A.e0; have e1 := abs_le.1 A.e1; have e2 := abs_le.1 A.e2
  have r1 := A.r_le; have g1 := A.g_le; have b1 := A.b_le
  have r2 := A.r1; have g2 := A.g1
  have hr' := hr.le (k := 80) (by norm_num at *; linarith) (by norm_num)
  have hg' := hg.le (k := 80) (by norm_num at *; linarith) (by norm_num)
  obtain ⟨phi, S, E⟩ := A.ends (lo := 7) binB7 (A.upper (R2 := 1.419) (by norm_num) (by norm_num)
    ((A.inside (lo := 7) (by norm_num at *; linarith) (by norm_num)).guess_b (by norm_num at *; linarith [eY.2]) (by norm_num at *; linarith [e0.2])
      (by norm_num at *; linarith [e1.2]) (by norm_num at *; linarith [e2.2]) (by norm_num at *; linarith [e2.1]))) hy (by norm_num at *; linarith) (by norm_num)
    (fun v hv => hv.fast7) (by norm_num) (by norm_num) (w1 := 0.0324881) (w2 := 0.0042285) (w3 := 0.0005039) (U4 := 0.0000594)
    (by norm_num [contract]) (by norm_num [contract]) (by norm_num [contract]) (by norm_num [contract])
  exact make_found S E (fun v E => E.good_late A hy (by norm_num) (by norm_num) (by norm_num) (.inl hr') (.inl hg')
    (.inr (.inr ⟨by norm_num at *; linarith [eY.1], by norm_num at *; linarith, by norm_num⟩)))

theorem found_4 (hr : Code r) (hg : Code g) (hb : Code b) (hl : 4.0001 ≤ y) (hy : y ≤ 16.001) : Found R v0 j y r g b := by
  rcases hb with hb | hb
  swap
  · exact A.found_b7 hb hr hg hy
  have lo := A.lo
  have y1 := A.y100
  have eY := (abs_le.1 A.Y1).2
  have r1 := A.r_le; have g1 := A.g_le; have b1 := A.b_le
  have hr' := hr.le (k := 80) (by norm_num at *; linarith) (by norm_num)
  have hg' := hg.le (k := 80) (by norm_num at *; linarith) (by norm_num)
  obtain ⟨phi, S, E⟩ := A.ends (lo := 0.002) bin4 (A.upper (R2 := 1.934) (by norm_num) (by norm_num)
    ((A.inside (lo := 4) (by norm_num at *; linarith) (by norm_num)).guess4 (by norm_num at *; linarith))) hy (by norm_num at *; linarith) le_rfl
    (fun v hv => hv.fast0) (by norm_num) (by norm_num) (w1 := 0.0864713) (w2 := 0.0148712) (w3 := 0.0021639) (U4 := 0.0003048)
    (by norm_num [contract]) (by norm_num [contract]) (by norm_num [contract]) (by norm_num [contract])
  exact make_found S E (fun v E => E.good_late A hy (by norm_num) (by norm_num) (by norm_num) (.inl hr') (.inl hg') (.inl hb))

theorem found_16 (hr : Code r) (hg : Code g) (hb : Code b) (hl : 16.001 ≤ y) (hy : y ≤ 64.001) : Found R v0 j y r g b := by
  have lo := A.lo
  have y1 := A.y100
  have eY := abs_le.1 A.Y1
  have e0 := abs_le.1 A.e0; have e1 := abs_le.1 A.e1; have e2 := abs_le.1 A.e2
  have r1 := A.r_le; have g1 := A.g_le; have b1 := A.b_le
  have r2 := A.r1; have g2 := A.g1; have b2 := A.b1
  have hg' := hg.le (k := 90) (by norm_num at *; linarith) (by norm_num)
  have hY : R.Y (log j) ≥ 16 := by norm_num at *; linarith [eY.1]
  have hY7 : R.Y (log j) ≥ 7 := by linarith
  have I := A.inside (lo := 16) (by norm_num at *; linarith) (by norm_num)
  rcases hr with hr | hr
  · rcases hb with hb | hb
    · obtain ⟨phi, S, E⟩ := A.ends (lo := 16) bin16 (A.upper (R2 := 1.648) (by norm_num) (by norm_num)
        (I.guess16 (by norm_num at *; linarith [eY.2]))) hy (by norm_num at *; linarith) (by norm_num)
        (fun v hv => hv.fast16) (by norm_num) (by norm_num) (w1 := 0.0522532) (w2 := 0.0068293) (w3 := 0.0007698) (U4 := 0.000085)
        (by norm_num [contract]) (by norm_num [contract]) (by norm_num [contract]) (by norm_num [contract])
      exact make_found S E (fun v E => E.good_late A hy (by norm_num) (by norm_num) (by norm_num) (.inl hr) (.inl hg') (.inl hb))
    · obtain ⟨phi, S, E⟩ := A.ends (lo := 16) binB (A.upper (R2 := 1.419) (by norm_num) (by norm_num)
        ((I.mono (by norm_num : (7 : ℝ) ≤ 16)).guess_b (by norm_num at *; linarith [eY.2]) (by norm_num at *; linarith [e0.2])
        (by norm_num at *; linarith [e1.2]) (by norm_num at *; linarith [e2.2]) (by norm_num at *; linarith [e2.1]))) hy (by norm_num at *; linarith) (by norm_num)
        (fun v hv => hv.fast16) (by norm_num) (by norm_num) (w1 := 0.0313791) (w2 := 0.0038418) (w3 := 0.0004285) (U4 := 0.0000473)
        (by norm_num [contract]) (by norm_num [contract]) (by norm_num [contract]) (by norm_num [contract])
      exact make_found S E (fun v E => E.good_late A hy (by norm_num) (by norm_num) (by norm_num) (.inl hr) (.inl hg') (.inr (.inl ⟨hY7, by norm_num⟩)))
  · obtain ⟨phi, S, E⟩ := A.ends (lo := 16) binR (A.upper (R2 := 1.349) (by norm_num) (by norm_num)
      (I.guess_r (by norm_num at *; linarith [eY.2]) (by norm_num at *; linarith [e0.2])
      (by norm_num at *; linarith [e1.2]) (by norm_num at *; linarith [e2.2]) (by norm_num at *; linarith [e0.1]))) hy (by norm_num at *; linarith) (by norm_num)
      (fun v hv => hv.fast16) (by norm_num) (by norm_num) (w1 := 0.0254112) (w2 := 0.0030511) (w3 := 0.0003394) (U4 := 0.0000375)
      (by norm_num [contract]) (by norm_num [contract]) (by norm_num [contract]) (by norm_num [contract])
    exact make_found S E (fun v E => E.good_late A hy (by norm_num) (by norm_num) (by norm_num) (.inr ⟨hY, by norm_num⟩) (.inl hg') (.inr (.inl ⟨hY7, by norm_num⟩)))

theorem found_64 (hl : 64.001 ≤ y) : Found R v0 j y r g b := by
  have lo := A.lo
  have y1 := A.y100
  have eY := abs_le.1 A.Y1
  have hY : R.Y (log j) ≥ 64 := by norm_num at *; linarith [eY.1]
  obtain ⟨phi, S, E⟩ := A.ends (lo := 64) bin64 (A.upper (R2 := 1.462) (by norm_num) (by norm_num)
    ((A.inside (lo := 64) (by norm_num at *; linarith) (by norm_num)).guess64 (by norm_num at *; linarith [eY.2]))) y1 (by norm_num at *; linarith) (by norm_num)
    (fun v hv => hv.fast64) (by norm_num) (by norm_num) (w1 := 0.0340145) (w2 := 0.0039526) (w3 := 0.0004115) (U4 := 0.0000423)
    (by norm_num [contract]) (by norm_num [contract]) (by norm_num [contract]) (by norm_num [contract])
  exact make_found S E (fun v E => E.good_late A y1 (by norm_num) (by norm_num) (by norm_num) (.inr ⟨by linarith, by norm_num⟩) (.inr ⟨hY, by norm_num⟩)
    (.inr (.inl ⟨by linarith, by norm_num⟩)))

/-- The search finds the colour. -/
theorem found (hr : Code r) (hg : Code g) (hb : Code b) : Found R v0 j y r g b := by
  rcases le_total y 0.100001 with h1 | h1
  · exact A.found_dark h1
  rcases le_total y 1.00001 with h2 | h2
  · exact A.found_01 h1 h2
  rcases le_total y 4.0001 with h3 | h3
  · exact A.found_1 h2 h3
  rcases le_total y 16.001 with h4 | h4
  · exact A.found_4 hr hg hb h3 h4
  rcases le_total y 64.001 with h5 | h5
  · exact A.found_16 hr hg hb h4 h5
  · exact A.found_64 h5

end Aim

end Mcu.Lemmas
