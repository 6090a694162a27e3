import Verif.Lemmas.CoverFacts
import Mathlib.Analysis.Calculus.Deriv.Slope
import Mathlib.Topology.Order.IntermediateValue

/-! From a colour of the gamut upwards all components rise. -/

namespace Mcu.Lemmas

open Real Set

namespace Ray

variable {R : Ray}

/-- Above a colour near the gamut all colours are. -/
theorem upward (h : R.Ok) {v1 v : ℝ} (h1 : v1 ≤ v) (hd1 : 0 < R.den v1)
    (n1 : NearGamut (R.Ar v1) (R.Ag v1) (R.Ab v1)) : 0 < R.den v ∧ NearGamut (R.Ar v) (R.Ag v) (R.Ab v) := by
  have t1 := T_anti h h1
  have hT := T_pos h v; have hT1 := T_pos h v1
  have hP := P_pos h v; have hP1 := P_pos h v1
  have q1 := P_mono h h1
  have hp1 := h.p1
  have hd : 0 < R.den v := by
    unfold den at *
    rcases le_total 0 R.d with hd | hd
    · positivity
    · nlinarith
  refine ⟨hd, ?_⟩
  have e (x : ℝ) (hx : 0 < R.P x) : R.gam x / R.P x = 23 * (1 + 0.305 / R.P x) * (R.T x / R.den x) := by
    unfold gam; field_simp
  have s1 : R.gam v / R.P v ≤ R.gam v1 / R.P v1 := by
    rw [e _ hP1, e _ hP]
    have e1 : 0.305 / R.P v ≤ 0.305 / R.P v1 := div_le_div_of_nonneg_left (by norm_num) hP1 q1
    have e2 : R.T v / R.den v ≤ R.T v1 / R.den v1 := by
      rw [div_le_div_iff₀ hd hd1]
      unfold den
      nlinarith
    have : 0 < 0.305 / R.P v := by positivity
    exact mul_le_mul (by linarith) e2 (by positivity) (by positivity)
  have s0 : 0 ≤ R.gam v / R.P v := by rw [e _ hP]; positivity
  have lin (α β γ : ℝ) (a0 : 0 ≤ α + β + γ) (a1 : 0 ≤ α * R.Ar v1 + β * R.Ag v1 + γ * R.Ab v1) :
      0 ≤ α * R.Ar v + β * R.Ag v + γ * R.Ab v := by
    have hAB (x : ℝ) (hx : 0 < R.P x) : α * R.Ar x + β * R.Ag x + γ * R.Ab x = R.P x * ((α + β + γ) * 460 / 1403 +
        (α * (451 * R.c + 288 * R.s) + β * (-891 * R.c - 261 * R.s) + γ * (-220 * R.c - 6300 * R.s)) / 1403 * (R.gam x / R.P x)) := by
      unfold Ar Ag Ab
      field_simp
      ring
    rw [hAB _ hP1] at a1
    rw [hAB _ hP]
    generalize (α * (451 * R.c + 288 * R.s) + β * (-891 * R.c - 261 * R.s) + γ * (-220 * R.c - 6300 * R.s)) / 1403 = B at *
    have b1 := nonneg_of_mul_nonneg_right a1 hP1
    have b0 : 0 ≤ (α + β + γ) * 460 / 1403 := by positivity
    generalize (α + β + γ) * 460 / 1403 = A at *
    refine mul_nonneg hP.le ?_
    rcases le_total 0 B with hB | hB
    · positivity
    · nlinarith
  have c1 := lin 1 (-0.91) 0 (by norm_num) (by linarith [n1.r_lo])
  have c2 := lin (-1) 1.353 0 (by norm_num) (by linarith [n1.r_hi])
  have c3 := lin 0 (-0.47) 1 (by norm_num) (by linarith [n1.b_lo])
  have c4 := lin 0 2.66 (-1) (by norm_num) (by linarith [n1.b_hi])
  refine ⟨?_, by linarith, by linarith, by linarith, by linarith⟩
  have e := achromatic_eq (R := R) v
  unfold achromatic at e
  norm_num at *; linarith

theorem Here.up {v1 v : ℝ} (h : R.Here v1) (h1 : v1 ≤ v) (hp : R.P v ≤ 40) : R.Here v :=
  have := upward h.ok h1 h.den h.near
  ⟨h.ok, this.2, this.1, hp⟩

/-- A function with positive derivative is larger soon. -/
theorem soon {f : ℝ → ℝ} {v D : ℝ} (h : HasDerivAt f D v) (hD : 0 < D) : ∀ᶠ w in nhdsWithin v (Ioi v), f v < f w := by
  have h1 := (hasDerivWithinAt_iff_tendsto_slope' (s := Ioi v) (by simp)).1 h.hasDerivWithinAt
  filter_upwards [h1.eventually (lt_mem_nhds hD), self_mem_nhdsWithin] with w hw hv
  rw [slope_def_field] at hw
  have : 0 < w - v := sub_pos.2 hv
  rw [lt_div_iff₀ this] at hw
  linarith

/-- Where the path begins. -/
structure Begin (R : Ray) (v1 v0 : ℝ) : Prop where
  here : R.Here v1
  le : v1 ≤ v0
  P40 : R.P v0 ≤ 40
  g0 : 0 ≤ R.ch0 v1 + 0.000001 * R.Y v1
  g1 : 0 ≤ R.ch1 v1 + 0.000001 * R.Y v1
  g2 : 0 ≤ R.ch2 v1 + 0.000001 * R.Y v1
  lo : 0.002 ≤ R.Y v1
  hi : R.Y v1 * exp (5 / 2 * (v0 - v1)) ≤ 165

theorem Begin.path {v1 v0 : ℝ} (h : R.Begin v1 v0) :
    ∀ v ∈ Icc v1 v0, R.Inside v (R.Y v1) ∧ R.ch0 v1 ≤ R.ch0 v ∧ R.ch1 v1 ≤ R.ch1 v ∧ R.ch2 v1 ≤ R.ch2 v := by
  have hh (v : ℝ) (hv : v ∈ Icc v1 v0) : R.Here v := h.here.up hv.1 ((P_mono h.here.ok hv.2).trans h.P40)
  have hY0 : 0 < R.Y v1 := lt_of_lt_of_le (by norm_num) h.lo
  have hY (v : ℝ) (hv : v ∈ Icc v1 v0) : R.Y v1 ≤ R.Y v ∧ R.Y v ≤ 165 := by
    obtain ⟨a, b⟩ := growth h.here.ok weights hv.1 h.here.den (hh v hv).den h.here.near (hh v hv).near (hh v hv).P40
    constructor
    · refine le_trans ?_ a
      have : 1 ≤ exp (3 / 2 * (v - v1)) := one_le_exp (by have := hv.1; linarith)
      exact le_mul_of_one_le_right hY0.le this
    · refine le_trans (b.trans ?_) h.hi
      refine mul_le_mul_of_nonneg_left (exp_le_exp.2 ?_) hY0.le
      have := hv.2; linarith
  -- the colours at which the components are not below the first ones
  have key (v : ℝ) (hv : v ∈ Icc v1 v0) (a0 : R.ch0 v1 ≤ R.ch0 v) (a1 : R.ch1 v1 ≤ R.ch1 v) (a2 : R.ch2 v1 ≤ R.ch2 v) :
      R.Inside v (R.Y v1) := by
    have b := hY v hv
    have := h.g0; have := h.g1; have := h.g2
    exact { hh v hv with g0 := by linarith, g1 := by linarith, g2 := by linarith, lo := b.1, hi := b.2 }
  have c0 : ContinuousOn R.ch0 (Icc v1 v0) := fun v hv => (hh v hv).hasDerivAt_ch0.continuousAt.continuousWithinAt
  have c1 : ContinuousOn R.ch1 (Icc v1 v0) := fun v hv => (hh v hv).hasDerivAt_ch1.continuousAt.continuousWithinAt
  have c2 : ContinuousOn R.ch2 (Icc v1 v0) := fun v hv => (hh v hv).hasDerivAt_ch2.continuousAt.continuousWithinAt
  have closed : IsClosed ({v | R.ch0 v1 ≤ R.ch0 v ∧ R.ch1 v1 ≤ R.ch1 v ∧ R.ch2 v1 ≤ R.ch2 v} ∩ Icc v1 v0) := by
    have e : {v | R.ch0 v1 ≤ R.ch0 v ∧ R.ch1 v1 ≤ R.ch1 v ∧ R.ch2 v1 ≤ R.ch2 v} ∩ Icc v1 v0 =
        (Icc v1 v0 ∩ R.ch0 ⁻¹' Ici (R.ch0 v1)) ∩ ((Icc v1 v0 ∩ R.ch1 ⁻¹' Ici (R.ch1 v1)) ∩ (Icc v1 v0 ∩ R.ch2 ⁻¹' Ici (R.ch2 v1))) := by
      ext v; simp only [mem_inter_iff, mem_setOf_eq, mem_preimage, mem_Ici]; tauto
    rw [e]
    exact (c0.preimage_isClosed_of_isClosed isClosed_Icc isClosed_Ici).inter
      ((c1.preimage_isClosed_of_isClosed isClosed_Icc isClosed_Ici).inter (c2.preimage_isClosed_of_isClosed isClosed_Icc isClosed_Ici))
  have all := closed.Icc_subset_of_forall_exists_gt ⟨le_rfl, le_rfl, le_rfl⟩ (by
    rintro v ⟨⟨a0, a1, a2⟩, hv⟩ w hw
    have hv' : v ∈ Icc v1 v0 := ⟨hv.1, hv.2.le⟩
    have hi := (key v hv' a0 a1 a2).mono h.lo
    have hp : 0 < R.Y v := lt_of_lt_of_le hY0 (hY v hv').1
    have p : 0 < 0.1 * R.Y v := by positivity
    have e0 := soon hi.hasDerivAt_ch0 (p.trans_le hi.rise0)
    have e1 := soon hi.hasDerivAt_ch1 (p.trans_le hi.rise1)
    have e2 := soon hi.hasDerivAt_ch2 (p.trans_le hi.rise2)
    have e3 : ∀ᶠ x in nhdsWithin v (Ioi v), x ∈ Ioc v w := Ioc_mem_nhdsGT hw
    obtain ⟨x, x0, x1, x2, x3⟩ := (e0.and (e1.and (e2.and e3))).exists
    exact ⟨x, ⟨a0.trans x0.le, a1.trans x1.le, a2.trans x2.le⟩, x3⟩)
  intro v hv
  obtain ⟨a0, a1, a2⟩ := all hv
  exact ⟨key v hv a0 a1 a2, a0, a1, a2⟩

/-! ### Comparing values by comparing derivatives -/

theorem diff_le {f g f' g' : ℝ → ℝ} {a b : ℝ} (hab : a ≤ b) (hf : ∀ v ∈ Icc a b, HasDerivAt f (f' v) v)
    (hg : ∀ v ∈ Icc a b, HasDerivAt g (g' v) v) (h : ∀ v ∈ Icc a b, f' v ≤ g' v) : f b - f a ≤ g b - g a := by
  have hd (v) (hv : v ∈ Icc a b) := (hg v hv).sub (hf v hv)
  have m := monotoneOn_of_deriv_nonneg (convex_Icc a b) (f := g - f) (fun v hv => (hd v hv).continuousAt.continuousWithinAt)
    (fun v hv => (hd v (interior_subset hv)).differentiableAt.differentiableWithinAt)
    (fun v hv => by rw [(hd v (interior_subset hv)).deriv]; linarith [h v (interior_subset hv)])
  have := m (left_mem_Icc.2 hab) (right_mem_Icc.2 hab) hab
  simp only [Pi.sub_apply] at this
  linarith

theorem exp_grow {f f' : ℝ → ℝ} {a b k : ℝ} (hab : a ≤ b) (hf : ∀ v ∈ Icc a b, HasDerivAt f (f' v) v)
    (h : ∀ v ∈ Icc a b, k * f v ≤ f' v) : f a * exp (k * (b - a)) ≤ f b := by
  have hE (v : ℝ) : HasDerivAt (fun v => exp (-(k * v))) (-k * exp (-(k * v))) v := by
    have := (((hasDerivAt_id v).const_mul k).neg).exp
    refine HasDerivAt.congr_deriv (f := fun v => exp (-(k * v))) this ?_
    simp only [id, Pi.neg_apply]; ring
  have hF (v : ℝ) (hv : v ∈ Icc a b) : HasDerivAt (fun v => f v * exp (-(k * v))) ((f' v - k * f v) * exp (-(k * v))) v := by
    refine HasDerivAt.congr_deriv (f := fun v => f v * exp (-(k * v))) ((hf v hv).mul (hE v)) ?_
    ring
  have m := diff_le hab (f := fun _ => 0) (f' := fun _ => 0) (fun v _ => hasDerivAt_const v 0) hF (fun v hv =>
    mul_nonneg (by linarith [h v hv]) (exp_pos _).le)
  simp only [sub_zero] at m
  have e : exp (-(k * a)) = exp (-(k * b)) * exp (k * (b - a)) := by rw [← exp_add]; ring_nf
  rw [e] at m
  have hp := exp_pos (-(k * b))
  nlinarith

theorem exp_shrink {f f' : ℝ → ℝ} {a b k : ℝ} (hab : a ≤ b) (hf : ∀ v ∈ Icc a b, HasDerivAt f (f' v) v)
    (h : ∀ v ∈ Icc a b, f' v ≤ k * f v) : f b ≤ f a * exp (k * (b - a)) := by
  have := exp_grow hab (f := fun v => -f v) (f' := fun v => -f' v) (k := k) (fun v hv => (hf v hv).neg) (fun v hv => by
    have := h v hv; linarith)
  linarith

end Ray

end Mcu.Lemmas
