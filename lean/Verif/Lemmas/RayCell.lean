import Verif.Lemmas.Cover
import Verif.Lemmas.NewtonStart

/-! The coordinates of the boxes along one hue and chroma. -/

namespace Mcu.Lemmas

open Real Flow

theorem root_pow {a : ℝ} (h0 : 0 < a) (h1 : a < 400) : ((unadapt a) ^ (1 / 50 : ℝ)) ^ 21 = 27.13 * a / (400 - a) := by
  have h2 : 0 < 400 - a := by linarith
  have hb : 0 < 27.13 * a / (400 - a) := by positivity
  unfold unadapt
  rw [← rpow_natCast, ← rpow_mul (by positivity), ← rpow_mul hb.le]
  norm_num

namespace Ray

variable {R : Ray} {v : ℝ}

/-- Three linear components and the luminance. -/
noncomputable def ch0 (R : Ray) : ℝ → ℝ := R.lum 1373.2198709594231 (-1100.4251190754821) 7.278681089101213
noncomputable def ch1 (R : Ray) : ℝ → ℝ := R.lum (-271.815969077903) 559.6580465940733 32.46047482791194
noncomputable def ch2 (R : Ray) : ℝ → ℝ := R.lum 1.9622899599665666 (-57.173814538844006) (-308.7233197812385)
noncomputable def Y (R : Ray) : ℝ → ℝ := R.lum wR wG wB

theorem Y_eq (v : ℝ) : R.Y v = 0.2126 * R.ch0 v + 0.7152 * R.ch1 v + 0.0722 * R.ch2 v := by
  unfold Y ch0 ch1 ch2 lum wR wG wB; ring

noncomputable def cx (R : Ray) (v : ℝ) : ℝ := (unadapt (R.Ar v)) ^ (1 / 50 : ℝ) / (unadapt (R.Ag v)) ^ (1 / 50 : ℝ)
noncomputable def cz (R : Ray) (v : ℝ) : ℝ := (unadapt (R.Ab v)) ^ (1 / 50 : ℝ) / (unadapt (R.Ag v)) ^ (1 / 50 : ℝ)
noncomputable def ct (R : Ray) (v : ℝ) : ℝ := (unadapt (R.Ag v)) ^ (1 / 50 : ℝ)

/-- The colour at `v` is one the box checks speak about. -/
structure Here (R : Ray) (v : ℝ) : Prop where
  ok : R.Ok
  near : NearGamut (R.Ar v) (R.Ag v) (R.Ab v)
  den : 0 < R.den v
  P40 : R.P v ≤ 40

namespace Here

variable (h : R.Here v)
include h

theorem ach40 : achromatic (R.Ar v) (R.Ag v) (R.Ab v) ≤ 40 := by rw [achromatic_eq]; exact h.P40
theorem r4 : R.Ar v < 400 := by have := h.near.r_small h.ach40; norm_num at *; linarith
theorem g4 : R.Ag v < 400 := by have := h.near.g_small h.ach40; norm_num at *; linarith
theorem b4 : R.Ab v < 400 := by have := h.near.b_small h.ach40; norm_num at *; linarith
theorem sr : 0 < unadapt (R.Ar v) := unadapt_pos h.near.r_pos h.r4
theorem sg : 0 < unadapt (R.Ag v) := unadapt_pos h.near.pos h.g4
theorem sb : 0 < unadapt (R.Ab v) := unadapt_pos h.near.b_pos h.b4
theorem ct_pos : 0 < R.ct v := rpow_pos_of_pos h.sg _
theorem cx_pos : 0 < R.cx v := div_pos (rpow_pos_of_pos h.sr _) (rpow_pos_of_pos h.sg _)
theorem cz_pos : 0 < R.cz v := div_pos (rpow_pos_of_pos h.sb _) (rpow_pos_of_pos h.sg _)

omit h in
theorem root50 {s : ℝ} (hs : 0 < s) : (s ^ (1 / 50 : ℝ)) ^ 50 = s := by
  rw [← rpow_natCast, ← rpow_mul hs.le]; norm_num

theorem ct50 : R.ct v ^ 50 = unadapt (R.Ag v) := root50 h.sg
theorem cx50 : R.cx v ^ 50 * R.ct v ^ 50 = unadapt (R.Ar v) := by
  have := h.ct_pos
  rw [← mul_pow]; unfold cx; rw [← ct, div_mul_cancel₀ _ this.ne']; exact root50 h.sr
theorem cz50 : R.cz v ^ 50 * R.ct v ^ 50 = unadapt (R.Ab v) := by
  have := h.ct_pos
  rw [← mul_pow]; unfold cz; rw [← ct, div_mul_cancel₀ _ this.ne']; exact root50 h.sb
theorem ct21 : R.ct v ^ 21 = 27.13 * R.Ag v / (400 - R.Ag v) := root_pow h.near.pos h.g4
theorem cx21 : R.ct v ^ 21 * R.cx v ^ 21 = 27.13 * R.Ar v / (400 - R.Ar v) := by
  have := h.ct_pos
  rw [← mul_pow]; unfold cx; rw [← ct, mul_div_cancel₀ _ this.ne']; exact root_pow h.near.r_pos h.r4
theorem cz21 : R.ct v ^ 21 * R.cz v ^ 21 = 27.13 * R.Ab v / (400 - R.Ab v) := by
  have := h.ct_pos
  rw [← mul_pow]; unfold cz; rw [← ct, mul_div_cancel₀ _ this.ne']; exact root_pow h.near.b_pos h.b4

omit h in
theorem gain_of {t x a : ℝ} (ha : 0 < a) (ha4 : a < 400) (e : t ^ 21 * x ^ 21 = 27.13 * a / (400 - a)) :
    Flow.gain t x = 400 / (400 - a) := by
  have : 0 < 400 - a := by linarith
  unfold Flow.gain
  rw [e]
  field_simp
  ring

omit h in
theorem resp_of {t x a : ℝ} (ht : 0 < t) (ha : 0 < a) (ha4 : a < 400) (e : t ^ 21 * x ^ 21 = 27.13 * a / (400 - a)) :
    resp t x * (400 / 27.13 * t ^ 21) = a := by
  have h1 : 0 < 400 - a := by linarith
  unfold resp
  rw [gain_of ha ha4 e, show x ^ 21 * (1 / (400 / (400 - a))) * (400 / 27.13 * t ^ 21) = (t ^ 21 * x ^ 21) * (1 / (400 / (400 - a))) * (400 / 27.13) by ring, e]
  field_simp

omit h in
theorem inv_of {t x a : ℝ} (ht : 0 < t) (hx : 0 < x) (ha : 0 < a) (ha4 : a < 400) (e : t ^ 21 * x ^ 21 = 27.13 * a / (400 - a)) :
    Flow.inv t x = 400 / 27.13 * t ^ 21 / a := by
  have h1 : 0 < 400 - a := by linarith
  unfold Flow.inv
  rw [gain_of ha ha4 e]
  have : 1 / x ^ 21 = t ^ 21 * (400 - a) / (27.13 * a) := by
    have e' : x ^ 21 = 27.13 * a / (400 - a) / t ^ 21 := by rw [← e]; field_simp
    rw [e']; field_simp
  rw [this]
  field_simp

theorem gr : Flow.gain (R.ct v) (R.cx v) = 400 / (400 - R.Ar v) := gain_of h.near.r_pos h.r4 h.cx21
theorem gg : Flow.gain (R.ct v) 1 = 400 / (400 - R.Ag v) := gain_of h.near.pos h.g4 (by rw [one_pow, mul_one]; exact h.ct21)
theorem gb : Flow.gain (R.ct v) (R.cz v) = 400 / (400 - R.Ab v) := gain_of h.near.b_pos h.b4 h.cz21
theorem rr : resp (R.ct v) (R.cx v) * (400 / 27.13 * R.ct v ^ 21) = R.Ar v := resp_of h.ct_pos h.near.r_pos h.r4 h.cx21
theorem rg : resp (R.ct v) 1 * (400 / 27.13 * R.ct v ^ 21) = R.Ag v :=
  resp_of h.ct_pos h.near.pos h.g4 (by rw [one_pow, mul_one]; exact h.ct21)
theorem rb : resp (R.ct v) (R.cz v) * (400 / 27.13 * R.ct v ^ 21) = R.Ab v := resp_of h.ct_pos h.near.b_pos h.b4 h.cz21
theorem ir : Flow.inv (R.ct v) (R.cx v) = 400 / 27.13 * R.ct v ^ 21 / R.Ar v := inv_of h.ct_pos h.cx_pos h.near.r_pos h.r4 h.cx21
theorem ig : Flow.inv (R.ct v) 1 = 400 / 27.13 * R.ct v ^ 21 / R.Ag v :=
  inv_of h.ct_pos one_pos h.near.pos h.g4 (by rw [one_pow, mul_one]; exact h.ct21)
theorem ib : Flow.inv (R.ct v) (R.cz v) = 400 / 27.13 * R.ct v ^ 21 / R.Ab v := inv_of h.ct_pos h.cz_pos h.near.b_pos h.b4 h.cz21

theorem ach_eq : ach (R.cx v) (R.cz v) (R.ct v) * (400 / 27.13 * R.ct v ^ 21) = R.P v := by
  rw [← achromatic_eq]
  unfold ach achromatic
  linear_combination 2 * h.rr + h.rg + 0.05 * h.rb

theorem q0_eq : q0 (R.cx v) (R.cz v) (R.ct v) = R.P v / R.Ar v - 2 := by
  have := h.near.r_pos
  unfold q0
  rw [h.ir, ← achromatic_eq]
  unfold achromatic
  rw [← mul_div_assoc, show ∀ a b c : ℝ, (a + 0.05 * b) * c = a * c + 0.05 * (b * c) by intros; ring, h.rg, h.rb]
  field_simp
  ring

theorem q1_eq : q1 (R.cx v) (R.cz v) (R.ct v) = R.P v / R.Ag v - 1 := by
  have := h.near.pos
  unfold q1
  rw [h.ig, ← achromatic_eq]
  unfold achromatic
  rw [← mul_div_assoc, show ∀ a b c : ℝ, (2 * a + 0.05 * b) * c = 2 * (a * c) + 0.05 * (b * c) by intros; ring, h.rr, h.rb]
  field_simp
  ring

theorem q2_eq : q2 (R.cx v) (R.cz v) (R.ct v) = R.P v / R.Ab v - 0.05 := by
  have := h.near.b_pos
  unfold q2
  rw [h.ib, ← achromatic_eq]
  unfold achromatic
  rw [← mul_div_assoc, show ∀ a b c : ℝ, (2 * a + b) * c = 2 * (a * c) + (b * c) by intros; ring, h.rr, h.rg]
  field_simp
  ring

theorem tilt_eq : tilt (R.cx v) (R.cz v) (R.ct v) = R.Ab v / R.P v - R.Ar v / R.P v := by
  unfold tilt
  rw [h.q0_eq, h.q2_eq]
  have := P_pos h.ok v; have := h.near.b_pos; have := h.near.r_pos
  rw [show 0.05 + (R.P v / R.Ab v - 0.05) = R.P v / R.Ab v by ring, show 2 + (R.P v / R.Ar v - 2) = R.P v / R.Ar v by ring]
  simp only [one_div, inv_div]

theorem slow_eq : slow R.q (R.cx v) (R.cz v) (R.ct v) = R.G v := by
  unfold slow
  rw [h.tilt_eq, h.ach_eq]
  have hP := P_pos h.ok v
  have hd := h.den
  have e := den_eq h.den.ne'
  have ep := achromatic_eq (R := R) v
  unfold achromatic at ep
  have e2 : 23 * R.p1 / R.den v = (R.P v + R.Ab v - R.Ar v + 0.305) / (R.P v + 0.305) := by
    have hp : 0 < R.P v + 0.305 := by positivity
    rw [eq_div_iff hp.ne', e]
    norm_num at *; linarith
  unfold G
  rw [e2]
  have hp : 0 < R.P v + 0.305 := by positivity
  have hp' : 0 < 0.305 + R.P v := by positivity
  field_simp
  ring

theorem rate_r : Flow.f0 R.q (R.cx v) (R.cz v) (R.ct v) = rate R.q (R.G v) (R.P v) (R.Ar v) := by
  unfold Flow.f0 rate
  have := h.near.r_pos
  rw [h.slow_eq, h.gr, h.q0_eq]
  congr 3
  field_simp
  ring

theorem rate_g : Flow.f1 R.q (R.cx v) (R.cz v) (R.ct v) = rate R.q (R.G v) (R.P v) (R.Ag v) := by
  unfold Flow.f1 rate
  have := h.near.pos
  rw [h.slow_eq, h.gg, h.q1_eq]
  congr 3
  field_simp
  ring

theorem rate_b : Flow.f2 R.q (R.cx v) (R.cz v) (R.ct v) = rate R.q (R.G v) (R.P v) (R.Ab v) := by
  unfold Flow.f2 rate
  have := h.near.b_pos
  rw [h.slow_eq, h.gb, h.q2_eq]
  congr 3
  field_simp
  ring

theorem ch0_eq : R.ch0 v = lin0 (R.cx v) (R.cz v) * R.ct v ^ 50 := by
  unfold ch0 lum lin0; rw [← h.ct50, ← h.cx50, ← h.cz50]; ring
theorem ch1_eq : R.ch1 v = lin1 (R.cx v) (R.cz v) * R.ct v ^ 50 := by
  unfold ch1 lum lin1; rw [← h.ct50, ← h.cx50, ← h.cz50]; ring
theorem ch2_eq : R.ch2 v = lin2 (R.cx v) (R.cz v) * R.ct v ^ 50 := by
  unfold ch2 lum lin2; rw [← h.ct50, ← h.cx50, ← h.cz50]; ring
theorem Y_eq' : R.Y v = linY (R.cx v) (R.cz v) * R.ct v ^ 50 := by
  rw [Y_eq, h.ch0_eq, h.ch1_eq, h.ch2_eq]; unfold linY; ring

end Here

/-- The derivatives of the components. -/
noncomputable def d0 (R : Ray) (v : ℝ) : ℝ := flow0 R.q (R.cx v) (R.cz v) (R.ct v) * R.ct v ^ 50 / 0.42
noncomputable def d1 (R : Ray) (v : ℝ) : ℝ := flow1 R.q (R.cx v) (R.cz v) (R.ct v) * R.ct v ^ 50 / 0.42
noncomputable def d2 (R : Ray) (v : ℝ) : ℝ := flow2 R.q (R.cx v) (R.cz v) (R.ct v) * R.ct v ^ 50 / 0.42
noncomputable def dY (R : Ray) (v : ℝ) : ℝ := 0.2126 * R.d0 v + 0.7152 * R.d1 v + 0.0722 * R.d2 v

namespace Here

variable (h : R.Here v)
include h

theorem hasDerivAt_ch0 : HasDerivAt R.ch0 (R.d0 v) v := by
  refine (hasDerivAt_lum h.ok h.near h.P40 h.den.ne' _ _ _).congr_deriv ?_
  unfold d0 flow0
  rw [h.rate_r, h.rate_g, h.rate_b, ← h.ct50, ← h.cx50, ← h.cz50]; ring

theorem hasDerivAt_ch1 : HasDerivAt R.ch1 (R.d1 v) v := by
  refine (hasDerivAt_lum h.ok h.near h.P40 h.den.ne' _ _ _).congr_deriv ?_
  unfold d1 flow1
  rw [h.rate_r, h.rate_g, h.rate_b, ← h.ct50, ← h.cx50, ← h.cz50]; ring

theorem hasDerivAt_ch2 : HasDerivAt R.ch2 (R.d2 v) v := by
  refine (hasDerivAt_lum h.ok h.near h.P40 h.den.ne' _ _ _).congr_deriv ?_
  unfold d2 flow2
  rw [h.rate_r, h.rate_g, h.rate_b, ← h.ct50, ← h.cx50, ← h.cz50]; ring

theorem hasDerivAt_Y : HasDerivAt R.Y (R.dY v) v := by
  have := ((h.hasDerivAt_ch0.const_mul 0.2126).add (h.hasDerivAt_ch1.const_mul 0.7152)).add (h.hasDerivAt_ch2.const_mul 0.0722)
  refine HasDerivAt.congr_of_eventuallyEq (f := _) this ?_
  exact Filter.Eventually.of_forall fun w => Y_eq w

end Here

end Ray

end Mcu.Lemmas
