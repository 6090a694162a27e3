import Verif.Lemmas.SelfSearch

/-! How far from the colour the search ends, in each component. -/

namespace Mcu.Lemmas

open Real Set Mcu.HctSolver Mcu.ColorUtils Mcu.MathUtils Mcu.Spec

namespace Aim

/-- A component that is found well enough. -/
structure Good (L l : ℝ) : Prop where
  lo : l - 2e-7 ≤ L
  hi : L ≤ l + 0.0147 + 0.001 * l
  top : L ≤ 100.0099

/-- The same, with room for rounding. -/
structure Fair (L l : ℝ) : Prop where
  lo : l - 1e-6 ≤ L
  hi : L ≤ l + 0.0148 + 0.001 * l
  top : L ≤ 100.01

theorem Good.fair {X L l : ℝ} (g : Good X l) (h : |L - X| ≤ 1e-7) : Fair L l := by
  have := abs_le.1 h
  have := g.lo; have := g.hi; have := g.top
  constructor <;> norm_num at * <;> linarith

variable {R : Ray} {w v0 j y r g b : ℝ}

namespace Ends

variable {v U4 : ℝ} (E : Ends R v0 j y v U4)
include E

theorem sub {w : ℝ} (hw : w ∈ Icc (log j) v) : w ∈ Icc (log j) (v0) := ⟨hw.1, hw.2.trans E.mem.2⟩
theorem ins' {w : ℝ} (hw : w ∈ Icc (log j) v) : R.Inside w (R.Y (log j)) := (E.beg.path w (E.sub hw)).1
theorem ins {w : ℝ} (hw : w ∈ Icc (log j) v) : R.Inside w 0.002 := (E.ins' hw).mono E.beg.lo

theorem Ypos {w : ℝ} (hw : w ∈ Icc (log j) v) : 0 < R.Y w := lt_of_lt_of_le (by norm_num) (E.ins hw).lo

theorem n0 : 0 ≤ R.ch0 v := (mul_nonneg (by norm_num) E.y0.le).trans E.c0
theorem n1 : 0 ≤ R.ch1 v := (mul_nonneg (by norm_num) E.y0.le).trans E.c1
theorem n2 : 0 ≤ R.ch2 v := (mul_nonneg (by norm_num) E.y0.le).trans E.c2

/-- Everything rises up to the end. -/
theorem mono {w : ℝ} (hw : w ∈ Icc (log j) v) : R.ch0 w ≤ R.ch0 v ∧ R.ch1 w ≤ R.ch1 v ∧
    R.ch2 w ≤ R.ch2 v ∧ R.Y w ≤ R.Y v := by
  have sub' (x) (hx : x ∈ Icc w v) : x ∈ Icc (log j) v := ⟨hw.1.trans hx.1, hx.2⟩
  have z (x : ℝ) : HasDerivAt (fun _ : ℝ => (0 : ℝ)) 0 x := hasDerivAt_const x 0
  have n (x) (hx : x ∈ Icc w v) : 0 ≤ 0.1 * R.Y x := by have := E.Ypos (sub' x hx); positivity
  have a0 := Ray.diff_le hw.2 (fun x _ => z x) (fun x hx => (E.ins (sub' x hx)).hasDerivAt_ch0) (fun x hx => (n x hx).trans (E.ins (sub' x hx)).rise0)
  have a1 := Ray.diff_le hw.2 (fun x _ => z x) (fun x hx => (E.ins (sub' x hx)).hasDerivAt_ch1) (fun x hx => (n x hx).trans (E.ins (sub' x hx)).rise1)
  have a2 := Ray.diff_le hw.2 (fun x _ => z x) (fun x hx => (E.ins (sub' x hx)).hasDerivAt_ch2) (fun x hx => (n x hx).trans (E.ins (sub' x hx)).rise2)
  refine ⟨by linarith, by linarith, by linarith, ?_⟩
  rw [Ray.Y_eq, Ray.Y_eq]
  norm_num at *; linarith

/-- A component whose derivative is bounded. -/
theorem step {f f' : ℝ → ℝ} {K : ℝ} (hf : ∀ w ∈ Icc (log j) v, HasDerivAt f (f' w) w) (hK : ∀ w ∈ Icc (log j) v, f' w ≤ K) :
    f v - f (log j) ≤ K * (v - log j) := by
  have := Ray.diff_le (f := f) (f' := f') (g := fun w => K * w) (g' := fun _ => K) E.mem.1 hf (fun w _ => by
    simpa using (hasDerivAt_id w).const_mul K) hK
  linarith

theorem stepY : R.Y v - R.Y (log j) ≤ 2.2 * R.Y v * (v - log j) :=
  E.step (fun w hw => (E.ins hw).hasDerivAt_Y) (fun w hw => by have := (E.ins hw).slow; have := (E.mono hw).2.2.2; norm_num at *; linarith)
theorem step0 : R.ch0 v - R.ch0 (log j) ≤ (2.2 * R.ch0 v + 1.7 * R.Y v) * (v - log j) :=
  E.step (fun w hw => (E.ins hw).hasDerivAt_ch0) (fun w hw => by
    have := (E.ins hw).steep0; have := (E.mono hw).2.2.2; have := (E.mono hw).1; norm_num at *; linarith)
theorem step1 : R.ch1 v - R.ch1 (log j) ≤ (2.2 * R.ch1 v + 2.4 * R.Y v) * (v - log j) :=
  E.step (fun w hw => (E.ins hw).hasDerivAt_ch1) (fun w hw => by
    have := (E.ins hw).steep1; have := (E.mono hw).2.2.2; have := (E.mono hw).2.1; norm_num at *; linarith)
theorem step2 : R.ch2 v - R.ch2 (log j) ≤ (2.2 * R.ch2 v + 0.8 * R.Y v) * (v - log j) :=
  E.step (fun w hw => (E.ins hw).hasDerivAt_ch2) (fun w hw => by
    have := (E.ins hw).steep2; have := (E.mono hw).2.2.2; have := (E.mono hw).2.2.1; norm_num at *; linarith)

theorem full0 (h1 : 16 ≤ R.Y (log j)) (h2 : 0.97 * R.Y v ≤ R.ch0 (log j)) :
    R.ch0 v - R.ch0 (log j) ≤ 2.2 * R.ch0 v * (v - log j) :=
  E.step (fun w hw => (E.ins hw).hasDerivAt_ch0) (fun w hw => by
    have m := E.mono hw
    have := ((E.ins' hw).mono h1).full_r (E.cap w hw) (by have := (E.beg.path w (E.sub hw)).2.1; have := m.2.2.2; norm_num at *; linarith)
    norm_num at *; linarith [m.1])
theorem full1 (h1 : 64 ≤ R.Y (log j)) (h2 : 0.97 * R.Y v ≤ R.ch1 (log j)) :
    R.ch1 v - R.ch1 (log j) ≤ 2.2 * R.ch1 v * (v - log j) :=
  E.step (fun w hw => (E.ins hw).hasDerivAt_ch1) (fun w hw => by
    have m := E.mono hw
    have := ((E.ins' hw).mono h1).full_g (E.cap w hw) (by have := (E.beg.path w (E.sub hw)).2.2.1; have := m.2.2.2; norm_num at *; linarith)
    norm_num at *; linarith [m.2.1])
theorem full2 (h1 : 7 ≤ R.Y (log j)) (h2 : 0.97 * R.Y v ≤ R.ch2 (log j)) :
    R.ch2 v - R.ch2 (log j) ≤ 2 * R.ch2 v * (v - log j) :=
  E.step (fun w hw => (E.ins hw).hasDerivAt_ch2) (fun w hw => by
    have m := E.mono hw
    have := ((E.ins' hw).mono h1).full_b (E.cap w hw) (by have := (E.beg.path w (E.sub hw)).2.2.2; have := m.2.2.2; norm_num at *; linarith)
    norm_num at *; linarith [m.2.2.1])
theorem most2 (h1 : 7 ≤ R.Y (log j)) (h2 : 4.5 * R.Y v ≤ R.ch2 (log j)) :
    R.ch2 v - R.ch2 (log j) ≤ 1.5 * R.ch2 v * (v - log j) :=
  E.step (fun w hw => (E.ins hw).hasDerivAt_ch2) (fun w hw => by
    have m := E.mono hw
    have := ((E.ins' hw).mono h1).most_b (E.cap w hw) (by have := (E.beg.path w (E.sub hw)).2.2.2; have := m.2.2.2; norm_num at *; linarith)
    norm_num at *; linarith [m.2.2.1])

theorem lower (A : Aim R w v0 j y r g b) : r - 2e-7 ≤ R.ch0 v ∧ g - 2e-7 ≤ R.ch1 v ∧ b - 2e-7 ≤ R.ch2 v := by
  have m := E.mono (left_mem_Icc.2 E.mem.1)
  have e0 := abs_le.1 A.e0; have e1 := abs_le.1 A.e1; have e2 := abs_le.1 A.e2
  have := A.y100
  norm_num at *
  refine ⟨?_, ?_, ?_⟩ <;> linarith [e0.1, e1.1, e2.1, m.1, m.2.1, m.2.2.1]

/-- A small change of luminance. -/
theorem good_small (A : Aim R w v0 j y r g b) (hd : R.Y v - R.Y (log j) ≤ 0.00201) :
    Good (R.ch0 v) r ∧ Good (R.ch1 v) g ∧ Good (R.ch2 v) b := by
  obtain ⟨m0, m1, m2, -⟩ := E.mono (left_mem_Icc.2 E.mem.1)
  obtain ⟨l0, l1, l2⟩ := E.lower A
  have e0 := (abs_le.1 A.e0).2; have e1 := (abs_le.1 A.e1).2; have e2 := (abs_le.1 A.e2).2
  have := A.y100
  have d := Ray.diff_le E.mem.1 (fun w hw => (E.ins hw).hasDerivAt_ch2) (fun w hw => (E.ins hw).hasDerivAt_Y.const_mul 4.9) (fun w hw => (E.ins hw).blue)
  have hd' := hd
  rw [Ray.Y_eq, Ray.Y_eq] at hd'
  have := A.r0; have := A.r1; have := A.g0; have := A.g1; have := A.b0; have := A.b1
  refine ⟨⟨l0, ?_, ?_⟩, ⟨l1, ?_, ?_⟩, ⟨l2, ?_, ?_⟩⟩ <;> norm_num at * <;> linarith

omit E in
/-- The arithmetic of one component. -/
theorem good_of {L l l1 Yv m u U yh : ℝ} (hs : L - l1 ≤ (2.2 * L + m * Yv) * u) (hu : u ≤ U) (hL : 0 ≤ L) (hY : 0 ≤ Yv) (hm : 0 ≤ m) (hm1 : m ≤ 2.4)
    (hU : U ≤ 0.00044) (hU0 : 0 ≤ U) (hYv : Yv ≤ 1.002 * yh) (hyh : 2.4 * yh * U ≤ 0.0139) (hl : l1 ≤ l + 1e-7) (l100 : l ≤ 100) : L ≤ l + 0.0147 + 0.001 * l := by
  have s1 : (2.2 * L + m * Yv) * u ≤ (2.2 * L + m * Yv) * U := mul_le_mul_of_nonneg_left hu (by positivity)
  have s2 : m * Yv * U ≤ 1.002 * 0.0139 := by
    have : m * Yv * U ≤ 2.4 * (1.002 * yh) * U := by gcongr
    linarith
  have s3 : L * U ≤ L * 0.00044 := mul_le_mul_of_nonneg_left hU hL
  have s4 : L - l1 ≤ 2.2 * (L * 0.00044) + 1.002 * 0.0139 := by
    have : (2.2 * L + m * Yv) * U = 2.2 * (L * U) + m * Yv * U := by ring
    norm_num at *; linarith
  norm_num at *; linarith

/-- The luminance at the end. -/
theorem Yend (A : Aim R w v0 j y r g b) {U : ℝ} (hu : v - log j ≤ U) (hU : U ≤ 0.00044) : R.Y v ≤ 1.001 * y := by
  have hY := E.Ypos (right_mem_Icc.2 E.mem.1)
  have s := E.stepY
  have eY := (abs_le.1 A.Y1).2
  have : 2.2 * R.Y v * (v - log j) ≤ 2.2 * R.Y v * 0.00044 := mul_le_mul_of_nonneg_left (hu.trans hU) (by positivity)
  have := A.y0
  norm_num at *; linarith

theorem good_hi (A : Aim R w v0 j y r g b) {yh : ℝ} (hu : v - log j ≤ U4) (hy : y ≤ yh) (hU0 : 0 ≤ U4) (hU : U4 ≤ 0.00044) (hm : 2.4 * yh * U4 ≤ 0.0139) :
    R.ch0 v ≤ r + 0.0147 + 0.001 * r ∧ R.ch1 v ≤ g + 0.0147 + 0.001 * g ∧ R.ch2 v ≤ b + 0.0147 + 0.001 * b := by
  have hY := E.Ypos (right_mem_Icc.2 E.mem.1)
  have e0 := (abs_le.1 A.e0).2; have e1 := (abs_le.1 A.e1).2; have e2 := (abs_le.1 A.e2).2
  have y1 := A.y100
  have hYv : R.Y v ≤ 1.002 * yh := by
    have := E.Yend A hu hU; have := A.y0; norm_num at *; linarith
  exact ⟨good_of E.step0 hu E.n0 hY.le (by norm_num) (by norm_num) hU hU0 hYv hm (by norm_num at *; linarith) A.r1,
    good_of E.step1 hu E.n1 hY.le (by norm_num) (by norm_num) hU hU0 hYv hm (by norm_num at *; linarith) A.g1,
    good_of E.step2 hu E.n2 hY.le (by norm_num) (by norm_num) hU hU0 hYv hm (by norm_num at *; linarith) A.b1⟩

omit E in
theorem top_of {L l : ℝ} (hi : L ≤ l + 0.0147 + 0.001 * l) (h : l ≤ 99.2) : L ≤ 100.0099 := by norm_num at *; linarith

omit E in
theorem top_full {L l1 m u U : ℝ} (hs : L - l1 ≤ m * L * u) (hu : u ≤ U) (hL : 0 ≤ L) (hm : 0 ≤ m) (hmU : m * U ≤ 0.000095)
    (hl : l1 ≤ 100 + 1e-7) : L ≤ 100.0099 := by
  have : m * L * u ≤ m * L * U := mul_le_mul_of_nonneg_left hu (by positivity)
  have : L * (m * U) ≤ L * 0.000095 := mul_le_mul_of_nonneg_left hmU hL
  have e : m * L * U = L * (m * U) := by ring
  norm_num at *; linarith

/-- The end of the search after at most four rounds, when the luminance is large. -/
theorem good_late (A : Aim R w v0 j y r g b) {yh : ℝ} (hy : y ≤ yh) (hU0 : 0 ≤ U4) (hU : U4 ≤ 0.00044) (hm : 2.4 * yh * U4 ≤ 0.0139)
    (hr : r ≤ 99.2 ∨ R.Y (log j) ≥ 16 ∧ 2.2 * U4 ≤ 0.000095)
    (hg : g ≤ 99.2 ∨ R.Y (log j) ≥ 64 ∧ 2.2 * U4 ≤ 0.000095)
    (hb : b ≤ 99.2 ∨ R.Y (log j) ≥ 7 ∧ 2 * U4 ≤ 0.000095 ∨ R.Y (log j) ≥ 7 ∧ y ≤ 17 ∧ 1.5 * U4 ≤ 0.000095) :
    Good (R.ch0 v) r ∧ Good (R.ch1 v) g ∧ Good (R.ch2 v) b := by
  rcases E.close with hd | hu
  · exact E.good_small A hd
  obtain ⟨h0, h1, h2⟩ := E.good_hi A hu hy hU0 hU hm
  obtain ⟨l0, l1, l2⟩ := E.lower A
  have e0 := abs_le.1 A.e0; have e1 := abs_le.1 A.e1; have e2 := abs_le.1 A.e2
  have y1 := A.y100
  have yl := A.lo
  have hY := E.Yend A hu hU
  have r1 := A.r1; have g1 := A.g1; have b1 := A.b1
  refine ⟨⟨l0, h0, ?_⟩, ⟨l1, h1, ?_⟩, ⟨l2, h2, ?_⟩⟩
  · rcases hr with hr | ⟨ha, hb⟩
    · exact top_of h0 hr
    · rcases le_total r 99.2 with hr | hr
      · exact top_of h0 hr
      · exact top_full (E.full0 ha (by norm_num at *; linarith [e0.1])) hu E.n0 (by norm_num) hb (by norm_num at *; linarith [e0.2])
  · rcases hg with hg | ⟨ha, hb⟩
    · exact top_of h1 hg
    · rcases le_total g 99.2 with hr | hr
      · exact top_of h1 hr
      · exact top_full (E.full1 ha (by norm_num at *; linarith [e1.1])) hu E.n1 (by norm_num) hb (by norm_num at *; linarith [e1.2])
  · rcases le_total b 99.2 with hr | hr
    · exact top_of h2 hr
    rcases hb with hg | ⟨ha, hb⟩ | ⟨ha, hy, hb⟩
    · exact top_of h2 hg
    · exact top_full (E.full2 ha (by norm_num at *; linarith [e2.1])) hu E.n2 (by norm_num) hb (by norm_num at *; linarith [e2.2])
    · exact top_full (E.most2 ha (by norm_num at *; linarith [e2.1])) hu E.n2 (by norm_num) hb (by norm_num at *; linarith [e2.2])

/-- The same when the luminance is small. -/
theorem good_dark (A : Aim R w v0 j y r g b) {yh : ℝ} (hy : y ≤ yh) (hU0 : 0 ≤ U4) (hU : U4 ≤ 0.002) (hm : 2.4 * yh * U4 ≤ 0.002) :
    Good (R.ch0 v) r ∧ Good (R.ch1 v) g ∧ Good (R.ch2 v) b := by
  rcases E.close with hd | hu
  · exact E.good_small A hd
  have hY := E.Ypos (right_mem_Icc.2 E.mem.1)
  have s := E.stepY
  have eY := (abs_le.1 A.Y1).2
  have k1 : 2.2 * R.Y v * (v - log j) ≤ 2.2 * R.Y v * U4 := mul_le_mul_of_nonneg_left hu (by positivity)
  have k2 : 2.2 * R.Y v * U4 ≤ 2.2 * R.Y v * 0.002 := mul_le_mul_of_nonneg_left hU (by positivity)
  have y0 := A.y0
  have k3 : R.Y v ≤ 1.005 * yh := by norm_num at *; linarith
  have k4 : R.Y v * U4 ≤ 1.005 * yh * U4 := mul_le_mul_of_nonneg_right k3 hU0
  refine E.good_small A ?_
  norm_num at *; linarith

end Ends

end Aim

end Mcu.Lemmas
