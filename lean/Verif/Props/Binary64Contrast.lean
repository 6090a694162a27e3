import Verif.Props.Binary64Color
import Verif.Props.Contrast
import Verif.Lemmas.Tones

/-! The search for tones of a given contrast in IEEE-754 binary64. -/

namespace Mcu.Props.Binary64

open Mcu.Ieee Mcu.Lemmas MathUtils Contrast ColorUtils

variable {L : Libm}

local notation "𝔻" => F64 L

theorem rnd_close {v : ℝ} (h : |v| ≤ 20000) : |rnd v - v| ≤ 1 / 10 ^ 11 := by
  refine (rnd_error v).trans ?_
  have h1 : (2 : ℝ) ^ (-1075 : ℤ) ≤ 2 ^ (-53 : ℤ) := zpow_le_zpow_right₀ (by norm_num) (by norm_num)
  have h2 : (2 : ℝ) ^ (-53 : ℤ) ≤ 1 / (8 * 10 ^ 15) := by norm_num
  have h3 : |v| * (2 : ℝ) ^ (-53 : ℤ) ≤ 20000 * (1 / (8 * 10 ^ 15)) :=
    mul_le_mul h h2 (two_zpow_pos _).le (by norm_num)
  refine (add_le_add h3 (h1.trans h2)).trans (by norm_num)

/-- `powf` on a base and an exponent in the range the library uses. -/
theorem is_pow (hL : L.PowOk) {x y : Dbl} {a b : ℝ} (hx : x.Fin ∧ x.val = a) (hy : y.Fin ∧ y.val = b)
    (a0 : 1 / 10 ^ 6 ≤ a) (a1 : a ≤ 1000) (b0 : 0 ≤ b) (b1 : b ≤ 3) :
    ∃ p, ((L.powf x y).Fin ∧ (L.powf x y).val = p) ∧ |p - a ^ b| ≤ a ^ b / 10 ^ 13 := by
  obtain ⟨hx, rfl⟩ := hx
  obtain ⟨hy, rfl⟩ := hy
  obtain ⟨p1, p2⟩ := hL x y hx hy a0 (a1.trans (by norm_num)) b0 b1
  exact ⟨_, ⟨p1, rfl⟩, p2⟩

/-- The tone of a luminance of at least 100 comes out as (almost) at least 100. -/
theorem lstar_big (hL : L.PowOk) {x : 𝔻} {u : ℝ} (hx : Is x u) (h0 : 100 ≤ u) (h1 : u ≤ 20000) :
    ∃ w, Is (lstarFromY x) w ∧ 99.9 ≤ w ∧ w ≤ 2000 := by
  have hq := hx.div l100 (by norm_num) (small 15 (by norm_num) (by
    rw [abs_of_nonneg (by positivity)]; norm_num; linarith))
  have q0 : 1 ≤ rnd (u / 100) := rep1.le_rnd (by rw [le_div_iff₀ (by norm_num)]; linarith)
  have q1 : rnd (u / 100) ≤ 201 := by
    have := abs_le.1 (rnd_close (v := u / 100) (by rw [abs_of_nonneg (by positivity)]; linarith))
    norm_num at this; linarith
  generalize rnd (u / 100) = q at *
  obtain ⟨w, hw, hwd⟩ := ap_third (L := L)
  have hwd := abs_le.1 hwd
  have hρ : ρ = 1 / 10 ^ 12 := rfl
  rw [hρ] at hwd
  norm_num at hwd
  obtain ⟨p, hp, p2⟩ := is_pow hL hq hw (by linarith) (by linarith) (by linarith) (by linarith)
  replace hp : Is (Fl.powf (x / 100.0) (1.0 / 3.0) : 𝔻) p := hp
  have pw0 : 1 ≤ q ^ w := Real.one_le_rpow q0 (by linarith)
  have pw1 : q ^ w ≤ 15 := by
    calc q ^ w ≤ q ^ (1 / 2 : ℝ) := Real.rpow_le_rpow_of_exponent_le q0 (by linarith)
      _ ≤ (15 ^ 2 : ℝ) ^ (1 / 2 : ℝ) := Real.rpow_le_rpow (by linarith) (by linarith) (by norm_num)
      _ = 15 := by rw [← Real.sqrt_eq_rpow, Real.sqrt_sq (by norm_num)]
  have p2 := abs_le.1 p2
  norm_num at p2
  have hf : labF (x / 100.0) = (Fl.powf (x / 100.0) (1.0 / 3.0) : 𝔻) := by
    simp only [labF]
    rw [if_pos]
    exact ap_e.lt_of hq.ap (by rw [hρ]; norm_num; linarith)
  have m := hp.mul l116 (small 15 (by norm_num) (by
    rw [abs_le]; norm_num; constructor <;> linarith))
  have mc := abs_le.1 (rnd_close (v := p * 116) (by rw [abs_le]; constructor <;> linarith))
  generalize rnd (p * 116) = a at *
  norm_num at mc
  have s := m.sub l16 (small 15 (by norm_num) (by rw [abs_le]; norm_num; constructor <;> linarith))
  have sc := abs_le.1 (rnd_close (v := a - 16) (by rw [abs_le]; constructor <;> linarith))
  norm_num at sc
  refine ⟨rnd (a - 16), ?_, ?_, ?_⟩
  · unfold lstarFromY; rw [hf]; exact s
  · norm_num; linarith
  · linarith

theorem lm1 : Is (-1.0 : 𝔻) (-1) := (l1 (L := L)).neg

/-- The luminance curve in terms of its inverse: a difference in tone needs a difference in luminance. -/
theorem lstar_lipschitz {a b : ℝ} (hab : a ≤ b) (hb : b ≤ 101) : lstarFromY b - lstarFromY a ≤ 98 * (b - a) := by
  rw [lstarFromY_eq, lstarFromY_eq]
  have := labF_lipschitz (s := b / 100) (t := a / 100) (by norm_num; linarith) (by norm_num; linarith)
  rw [abs_of_nonneg (show 0 ≤ b / 100 - a / 100 by linarith)] at this
  have := (le_abs_self _).trans this
  linarith

theorem lstar100 : lstarFromY (100 : ℝ) = 100 := by
  have := c11_lstar_y_lstar 100
  rwa [c11_endpoints.2.1] at this

theorem lstar0 : lstarFromY (0 : ℝ) = 0 := by
  have := c11_lstar_y_lstar 0
  rwa [c11_endpoints.1] at this

/-- The computed ratio of two tones in range. -/
theorem is_ratioOfTones {s t : 𝔻} {a b : ℝ} (hs : Is s a) (ht : Is t b) (ha : 0 ≤ a ∧ a ≤ 100) (hb : 0 ≤ b ∧ b ≤ 100) :
    Is (ratioOfTones s t) (ratioR (yR a) (yR b)) := by
  have nn {x : 𝔻} (hx : Fin x) : IsNum x := by
    revert hx; rcases x with _ | _ | _ | _ <;> intro h
    exacts [h.elim, rfl, rfl, rfl]
  have hc {x : 𝔻} {v : ℝ} (hx : Is x v) (hv : 0 ≤ v ∧ v ≤ 100) : Is (clampDouble 0.0 100.0 x) v := by
    obtain ⟨c, -, -, ic, e⟩ := clamp_is x (nn hx.1)
    rw [e hx.1, show val x = v from hx.2, min_eq_right hv.2, max_eq_right hv.1] at ic
    exact ic
  exact is_ratio (is_y (hc hs ha) ha.1 ha.2) (is_y (hc ht hb) hb.1 hb.2) (yR_range ha.1 ha.2) (yR_range hb.1 hb.2)

/-- The computed luminance is close to the exact one. -/
theorem yR_near {t : 𝔻} {a : ℝ} (ht : Is t a) (h0 : 0 ≤ a) (h1 : a ≤ 100) : |yR a - yFromLstar a| ≤ 2 / 10 ^ 8 := by
  have h := (Ap.val_near (ap_yFromLstar ht.ap (by linarith) (by linarith) (by norm_num))).2
  rw [show val (yFromLstar t) = yR a from (is_y ht h0 h1).2] at h
  exact h.trans (by norm_num)

/-- The answer of `lighter`, once its luminance is known. -/
theorem lighter_fin (hL : L.PowOk) {x t : 𝔻} {u T R : ℝ} (hx : Is x u) (it : Is t T) (h0 : 0 ≤ T) (h1 : T ≤ 100)
    (hr1 : 1 ≤ R) (hr2 : R ≤ 100) (hrep : Rep R)
    (hu : -(1 / 10 ^ 8) ≤ u - (R * (yR T + 5) - 5) ∧ u - (R * (yR T + 5) - 5) ≤ 1 / 10 ^ 8) (hu100 : u ≤ 100)
    (hb : ¬ (lstarFromY x + 0.4 < (0.0 : 𝔻) ∨ lstarFromY x + 0.4 > (100.0 : 𝔻))) :
    Fin (lstarFromY x + 0.4) ∧ 0 ≤ val (lstarFromY x + 0.4) ∧ val (lstarFromY x + 0.4) ≤ 100 ∧
      T + 0.39 ≤ val (lstarFromY x + 0.4) ∧ R ≤ val (ratioOfTones (lstarFromY x + 0.4) t) := by
  have hρ : ρ = 1 / 10 ^ 12 := rfl
  have h04 : Ap (0.4 : 𝔻) 0.4 ρ := ap_lit rfl (by norm_num [abs_of_pos])
  obtain ⟨y0, y1⟩ := yR_range h0 h1
  have yn := abs_le.1 (yR_near it h0 h1)
  have hge : yR T ≤ R * (yR T + 5) - 5 := by nlinarith
  have hlow : yFromLstar T - 4 / 10 ^ 8 ≤ u := by norm_num at hu yn ⊢; linarith
  have hl := ap_lstarFromY hL hx.ap (by norm_num at hu; linarith) (by norm_num; linarith) (by norm_num)
  have m1 : lstarFromY u ≤ 100 := by
    have := c11_strictMono.2.monotone hu100
    rwa [lstar100] at this
  have m0 : T - 1 / 10 ^ 5 ≤ lstarFromY u := by
    have h2 := lstar_lipschitz (a := yFromLstar T - 4 / 10 ^ 8) (b := yFromLstar T) (by norm_num)
      (by norm_num at yn; linarith)
    rw [c11_lstar_y_lstar] at h2
    have := c11_strictMono.2.monotone hlow
    norm_num at h2 this ⊢; linarith
  obtain ⟨W, iw, hw⟩ := (hl.add h04 (by
    rw [show |lstarFromY u + 0.4| = lstarFromY u + 0.4 from abs_of_nonneg (by norm_num at m0 ⊢; linarith)]
    rw [hρ]; norm_num; linarith)).weaken (ε := 1 / 10 ^ 5) (by rw [hρ]; norm_num)
  have hw := abs_le.1 hw
  have hb' : 0 ≤ W ∧ W ≤ 100 := by
    rw [gt_iff_lt, iw.lt_iff l0, l100.lt_iff iw] at hb; push Not at hb; exact hb
  generalize lstarFromY x + 0.4 = g at *
  have vg : val g = W := iw.2
  have hr := is_ratioOfTones iw it hb' ⟨h0, h1⟩
  rw [vg]
  refine ⟨iw.1, hb'.1, hb'.2, by norm_num at hw m0 ⊢; linarith, ?_⟩
  rw [show val (ratioOfTones g t) = _ from hr.2]
  obtain ⟨a0, a1⟩ := yR_range hb'.1 hb'.2
  have an := abs_le.1 (yR_near iw hb'.1 hb'.2)
  have gap : u + 3 / 1000 ≤ yFromLstar W := by
    by_contra hc
    push Not at hc
    have h2 := c11_strictMono.2.monotone hc.le
    rw [c11_lstar_y_lstar] at h2
    have h3 := lstar_lipschitz (a := u) (b := u + 3 / 1000) (by norm_num) (by norm_num; linarith)
    norm_num at h3 hw h2; linarith
  have hmax : yR T ≤ yR W := by norm_num at an gap hu; linarith
  have c1 := abs_le.1 (rnd_close (v := yR W + 5) (by rw [abs_le]; constructor <;> linarith))
  have c2 := abs_le.1 (rnd_close (v := yR T + 5) (by rw [abs_le]; constructor <;> linarith))
  obtain ⟨p0, p1⟩ := plus5 y0 y1
  unfold ratioR
  rw [max_eq_left hmax, min_eq_right hmax]
  refine hrep.le_rnd ?_
  rw [le_div_iff₀ (by linarith)]
  have e1 : R * rnd (yR T + 5) ≤ R * (yR T + 5) + 100 * (1 / 10 ^ 11) := by
    have : R * (rnd (yR T + 5) - (yR T + 5)) ≤ 100 * (1 / 10 ^ 11) :=
      (mul_le_mul_of_nonneg_left c2.2 (by linarith)).trans (mul_le_mul_of_nonneg_right hr2 (by norm_num))
    linarith
  norm_num at e1 c1 an gap hu; linarith

/-- The luminance `lighter` looks for. -/
theorem lighter_u {t r : 𝔻} {T R : ℝ} (it : Is t T) (ir : Is r R) (h0 : 0 ≤ T) (h1 : T ≤ 100) (hr1 : 1 ≤ R)
    (hr2 : R ≤ 100) :
    ∃ u, Is (r * (yFromLstar t + 5.0) - 5.0) u ∧ |u - (R * (yR T + 5) - 5)| ≤ 1 / 10 ^ 8 ∧ u ≤ 19000 := by
  obtain ⟨y0, y1⟩ := yR_range h0 h1
  have iy := is_y it h0 h1
  have hR0 : 0 ≤ R := by linarith
  obtain ⟨p0, p1⟩ := plus5 y0 y1
  have i1 := iy.add l5 (small 10 (by norm_num) (by rw [abs_of_nonneg (by linarith)]; norm_num; linarith))
  have c1 := abs_le.1 (rnd_close (v := yR T + 5) (by rw [abs_le]; constructor <;> linarith))
  have m0 : 0 ≤ R * rnd (yR T + 5) := by positivity
  have m1 : R * rnd (yR T + 5) ≤ 10500 := by nlinarith
  have i2 := ir.mul i1 (small 14 (by norm_num) (by rw [abs_of_nonneg m0]; norm_num; linarith))
  have c2 := abs_le.1 (rnd_close (v := R * rnd (yR T + 5)) (by rw [abs_le]; constructor <;> linarith))
  generalize hA : rnd (yR T + 5) = A at *
  have n0 : 0 ≤ rnd (R * A) := rnd_nonneg m0
  have i3 := i2.sub l5 (small 14 (by norm_num) (by
    norm_num at c2; rw [abs_le]; norm_num; constructor <;> linarith))
  have c3 := abs_le.1 (rnd_close (v := rnd (R * A) - 5) (by
    norm_num at c2; rw [abs_le]; constructor <;> linarith))
  refine ⟨_, i3, ?_, ?_⟩
  · have e1 : R * A - R * (yR T + 5) = R * (A - (yR T + 5)) := by ring
    have e2 : |R * (A - (yR T + 5))| ≤ 100 * (1 / 10 ^ 11) := by
      rw [abs_mul, abs_of_nonneg hR0]
      exact mul_le_mul hr2 (abs_le.2 c1) (abs_nonneg _) (by norm_num)
    have e2 := abs_le.1 e2
    rw [← e1] at e2
    rw [abs_le]; norm_num at c2 c3 e2 ⊢; constructor <;> linarith
  · norm_num at c2 c3; linarith

/-- The answer computed from a luminance above 100 is too light. -/
theorem lighter_over (hL : L.PowOk) {x : 𝔻} {u : ℝ} (hx : Is x u) (h0 : 100 ≤ u) (h1 : u ≤ 20000) :
    lstarFromY x + 0.4 > (100.0 : 𝔻) := by
  have h04 : Ap (0.4 : 𝔻) 0.4 ρ := ap_lit rfl (by norm_num [abs_of_pos])
  have hρ : ρ = 1 / 10 ^ 12 := rfl
  obtain ⟨w, iw, w0, w1⟩ := lstar_big hL hx h0 h1
  obtain ⟨v4, i4, d4⟩ := h04
  have d4 := abs_le.1 d4
  rw [hρ] at d4
  norm_num at d4 w0
  have is := iw.add i4 (small 15 (by norm_num) (by rw [abs_le]; norm_num; constructor <;> linarith))
  have c := abs_le.1 (rnd_close (v := w + v4) (by rw [abs_le]; constructor <;> linarith))
  rw [gt_iff_lt, l100.lt_iff is]
  norm_num at c; linarith

/-- C18 (binary64): for a tone in [0, 100] and a ratio between 1 and 100, a tone that was found is in range, lighter than the
given tone, and the ratio the library itself computes for the two tones is at least the requested one.  No rounding error can
break this: the added 0.4 outweighs them all. -/
theorem c18_binary64_sound (hL : L.PowOk) (t r : 𝔻) (ht : Fin t) (hr : Fin r) (h0 : 0 ≤ val t) (h1 : val t ≤ 100)
    (hr1 : 1 ≤ val r) (hr2 : val r ≤ 100) (hne : val (lighter t r) ≠ -1) :
    Fin (lighter t r) ∧ 0 ≤ val (lighter t r) ∧ val (lighter t r) ≤ 100 ∧ val t + 0.39 ≤ val (lighter t r) ∧
      val r ≤ val (ratioOfTones (lighter t r) t) := by
  have it := is_of t ht
  have ir := is_of r hr
  have hrep := ir.rep
  generalize val t = T at *
  generalize val r = R at *
  obtain ⟨u, i3, hu, hu2⟩ := lighter_u it ir h0 h1 hr1 hr2
  simp only [lighter] at hne ⊢
  split at hne
  · exact absurd lm1.2 hne
  next hg =>
  rw [if_neg hg]
  split at hne
  · exact absurd lm1.2 hne
  next hb =>
  rw [if_neg hb]
  split at hne
  · exact absurd lm1.2 hne
  next hb2 =>
  rw [if_neg hb2]
  clear hb hne
  have hu100 : u ≤ 100 := by
    by_contra hc
    exact hb2 (Or.inr (lighter_over hL i3 (not_le.1 hc).le (by linarith)))
  exact lighter_fin hL i3 it h0 h1 hr1 hr2 hrep (abs_le.1 hu) hu100 hb2

/-- A quotient of two slightly wrong numbers. -/
theorem quot_near {X Y N D η : ℝ} (hN : |N - X| ≤ η) (hD : |D - Y| ≤ η) (hY : 0.2 ≤ Y) (hX0 : 0 ≤ X) (hX : X ≤ 20000)
    (hη : η ≤ 1 / 10 ^ 11) : |N / D - X / Y| ≤ 9 / 10 ^ 6 ∧ 0.19 ≤ D := by
  have h1 := abs_le.1 hN
  have h2 := abs_le.1 hD
  have η0 : 0 ≤ η := (abs_nonneg _).trans hN
  norm_num at hη hY ⊢
  have d0 : 19 / 100 ≤ D := by linarith
  refine ⟨?_, d0⟩
  have hd : 0 < D := by linarith
  have hy : 0 < Y := by linarith
  have e : N / D - X / Y = (N - X) / D + X * (Y - D) / (D * Y) := by
    have := hd.ne'; have := hy.ne'
    field_simp; ring
  rw [e]
  have a1 : |(N - X) / D| ≤ 6 * η := by
    rw [abs_div, abs_of_pos hd, div_le_iff₀ hd]
    nlinarith
  have a2 : |X * (Y - D) / (D * Y)| ≤ 20000 * η * 30 := by
    rw [abs_div, abs_mul, abs_of_nonneg hX0, abs_of_pos (mul_pos hd hy), div_le_iff₀ (mul_pos hd hy), abs_sub_comm]
    have b1 : X * |D - Y| ≤ 20000 * η := mul_le_mul hX hD (abs_nonneg _) (by norm_num)
    have b2 : 19 / 100 * (1 / 5) ≤ D * Y := mul_le_mul d0 hY (by norm_num) hd.le
    have b3 : 20000 * η * 30 * (19 / 100 * (1 / 5)) ≤ 20000 * η * 30 * (D * Y) :=
      mul_le_mul_of_nonneg_left b2 (by positivity)
    nlinarith
  refine (abs_add_le _ _).trans ((add_le_add a1 a2).trans ?_)
  linarith

/-- The computed ratio of two luminances, for a wider range than that of tones. -/
theorem ratio_wide {x y : 𝔻} {a b : ℝ} (hx : Is x a) (hy : Is y b) (ha : a ≤ 19000) (hb : b ≤ 19000)
    (ha0 : -4.8 ≤ a) (hb0 : -4.8 ≤ b) :
    ∃ w, Is (ratioOfYs x y) w ∧ |w - (max a b + 5) / (min a b + 5)| ≤ 1 / 10 ^ 5 := by
  have hq {u v : 𝔻} {c d : ℝ} (hu : Is u c) (hv : Is v d) (hc : c ≤ 19000) (hd0 : -4.8 ≤ d) (hdc : d ≤ c) :
      ∃ w, Is ((u + 5.0) / (v + 5.0)) w ∧ |w - (c + 5) / (d + 5)| ≤ 1 / 10 ^ 5 := by
    norm_num at hd0
    have i1 := hu.add l5 (small 15 (by norm_num) (by rw [abs_le]; norm_num; constructor <;> linarith))
    have i2 := hv.add l5 (small 15 (by norm_num) (by rw [abs_le]; norm_num; constructor <;> linarith))
    have c1 := rnd_close (v := c + 5) (by rw [abs_le]; constructor <;> linarith)
    have c2 := rnd_close (v := d + 5) (by rw [abs_le]; constructor <;> linarith)
    obtain ⟨q1, q2⟩ := quot_near c1 c2 (by norm_num; linarith) (by linarith) (by linarith) le_rfl
    have hn : 0 ≤ rnd (c + 5) := rnd_nonneg (by linarith)
    have hd : 0 < rnd (d + 5) := lt_of_lt_of_le (by norm_num) q2
    have c1 := abs_le.1 c1
    norm_num at c1 q2
    have hz : 0 ≤ rnd (c + 5) / rnd (d + 5) := div_nonneg hn hd.le
    have hz1 : rnd (c + 5) / rnd (d + 5) ≤ 110000 := by
      rw [div_le_iff₀ hd]; linarith
    have i3 := i1.div i2 hd.ne' (small 20 (by norm_num) (by rw [abs_of_nonneg hz]; norm_num; linarith))
    refine ⟨_, i3, ?_⟩
    have c3 : |rnd (rnd (c + 5) / rnd (d + 5)) - rnd (c + 5) / rnd (d + 5)| ≤ 1 / 10 ^ 6 := by
      refine (rnd_error _).trans ?_
      have h1 : (2 : ℝ) ^ (-1075 : ℤ) ≤ 2 ^ (-53 : ℤ) := zpow_le_zpow_right₀ (by norm_num) (by norm_num)
      have h2 : (2 : ℝ) ^ (-53 : ℤ) ≤ 1 / (8 * 10 ^ 15) := by norm_num
      have h3 : |rnd (c + 5) / rnd (d + 5)| * (2 : ℝ) ^ (-53 : ℤ) ≤ 110000 * (1 / (8 * 10 ^ 15)) :=
        mul_le_mul (by rw [abs_of_nonneg hz]; exact hz1) h2 (two_zpow_pos _).le (by norm_num)
      refine (add_le_add h3 (h1.trans h2)).trans (by norm_num)
    have c3 := abs_le.1 c3
    have q1 := abs_le.1 q1
    rw [abs_le]; norm_num at c3 q1 ⊢; constructor <;> linarith
  unfold ratioOfYs
  simp only
  by_cases h : x > y
  · have h' := (hy.lt_iff hx).1 h
    rw [if_pos h, if_neg (by rw [hx.beq_iff hy]; exact h'.ne')]
    rw [max_eq_left h'.le, min_eq_right h'.le]
    exact hq hx hy ha hb0 h'.le
  · have h' := not_lt.1 (fun c => h ((hy.lt_iff hx).2 c))
    rw [if_neg h, if_pos ((hy.beq_iff hy).2 rfl)]
    rw [max_eq_right h', min_eq_left h']
    exact hq hy hx hb ha0 h'

/-- If the two luminances nearly have the requested ratio, the first reason for answering -1 does not apply. -/
theorem no_delta {x y r : 𝔻} {a b R : ℝ} (hx : Is x a) (hy : Is y b) (ir : Is r R) (ha : a ≤ 19000) (hb : b ≤ 19000)
    (ha0 : -4.8 ≤ a) (hb0 : -4.8 ≤ b)
    (h : |(max a b + 5) / (min a b + 5) - R| ≤ 1 / 10 ^ 6) :
    ¬ (ratioOfYs x y < r ∧ Fl.abs (ratioOfYs x y - r) > (0.04 : 𝔻)) := by
  obtain ⟨w, iw, hw⟩ := ratio_wide hx hy ha hb ha0 hb0
  rintro ⟨-, hd⟩
  have hw := abs_le.1 hw
  have h := abs_le.1 h
  norm_num at hw h
  have is := iw.sub ir (small 15 (by norm_num) (by rw [abs_le]; norm_num; constructor <;> linarith))
  have c := abs_le.1 (rnd_close (v := w - R) (by rw [abs_le]; constructor <;> linarith))
  obtain ⟨v4, i4, d4⟩ := (ap_lit rfl (by norm_num [abs_of_pos]) : Ap (0.04 : 𝔻) 0.04 ρ)
  have d4 := abs_le.1 d4
  rw [show ρ = 1 / 10 ^ 12 from rfl] at d4
  norm_num at d4 c
  have hd : (0.04 : 𝔻) < Fl.abs (ratioOfYs x y - r) := hd
  rw [i4.lt_iff is.abs] at hd
  have : |rnd (w - R)| ≤ 1 / 100 := by rw [abs_le]; constructor <;> linarith
  linarith

/-- The tone computed from a luminance of at most 100, before it is shifted by the margin. -/
theorem lighter_ans (hL : L.PowOk) {x : 𝔻} {u : ℝ} (hx : Is x u) (h0 : -1 / 10 ^ 4 ≤ u) (h1 : u ≤ 100) :
    ∃ W, Is (lstarFromY x + 0.4) W ∧ |W - (lstarFromY u + 0.4)| ≤ 1 / 10 ^ 5 := by
  have hρ : ρ = 1 / 10 ^ 12 := rfl
  have h04 : Ap (0.4 : 𝔻) 0.4 ρ := ap_lit rfl (by norm_num [abs_of_pos])
  have hl := ap_lstarFromY hL hx.ap (by linarith) (by norm_num; linarith) (by norm_num)
  have m1 : lstarFromY u ≤ 100 := by
    have := c11_strictMono.2.monotone h1
    rwa [lstar100] at this
  have m0 : - 1 / 100 ≤ lstarFromY u := by
    have h2 := lstar_lipschitz (a := -1 / 10 ^ 4) (b := 0) (by norm_num) (by norm_num)
    rw [lstar0] at h2
    have := c11_strictMono.2.monotone h0
    norm_num at h2 this ⊢; linarith
  obtain ⟨W, iw, hw⟩ := (hl.add h04 (by
    rw [show |lstarFromY u + 0.4| = lstarFromY u + 0.4 from abs_of_nonneg (by norm_num at m0 ⊢; linarith)]
    rw [hρ]; norm_num; linarith)).weaken (ε := 1 / 10 ^ 5) (by rw [hρ]; norm_num)
  exact ⟨W, iw, hw⟩

/-- C18 (binary64): if no tone was found, then no tone between the given one and 99.5 has the requested ratio, as the library
computes it. -/
theorem c18_binary64_complete (hL : L.PowOk) (t r : 𝔻) (ht : Fin t) (hr : Fin r) (h0 : 0 ≤ val t) (h1 : val t ≤ 100)
    (hr1 : 1 ≤ val r) (hr2 : val r ≤ 100) (he : val (lighter t r) = -1) (s : 𝔻) (hs : Fin s) (hs0 : val t ≤ val s)
    (hs1 : val s ≤ 99.5) : val (ratioOfTones s t) < val r := by
  have it := is_of t ht
  have ir := is_of r hr
  have is := is_of s hs
  generalize val t = T at *
  generalize val r = R at *
  generalize val s = S at *
  norm_num at hs1
  obtain ⟨y0, y1⟩ := yR_range h0 h1
  obtain ⟨u, i3, hu, hu2⟩ := lighter_u it ir h0 h1 hr1 hr2
  have hu := abs_le.1 hu
  have hge : yR T ≤ R * (yR T + 5) - 5 := by nlinarith
  have iy := is_y it h0 h1
  norm_num at hu
  -- the luminance was too large
  have key : 99.59 ≤ lstarFromY u := by
    rcases le_or_gt 100 u with h | h
    · have := c11_strictMono.2.monotone h
      rw [lstar100] at this; norm_num; linarith
    obtain ⟨W, iw, hw⟩ := lighter_ans hL i3 (by norm_num; linarith) h.le
    have hw := abs_le.1 hw
    have m0 : - 1 / 100 ≤ lstarFromY u := by
      have h2 := lstar_lipschitz (a := -1 / 10 ^ 4) (b := 0) (by norm_num) (by norm_num)
      rw [lstar0] at h2
      have := c11_strictMono.2.monotone (show -1 / 10 ^ 4 ≤ u by norm_num; linarith)
      norm_num at h2 this ⊢; linarith
    by_contra hc
    norm_num at hw hc
    have g1 : ¬ (t < (0.0 : 𝔻) ∨ t > 100.0) := by
      rw [gt_iff_lt, it.lt_iff l0, l100.lt_iff it]; push Not; exact ⟨h0, h1⟩
    have g3 : ¬ (lstarFromY (r * (yFromLstar t + 5.0) - 5.0) + 0.4 < (0.0 : 𝔻) ∨
        lstarFromY (r * (yFromLstar t + 5.0) - 5.0) + 0.4 > (100.0 : 𝔻)) := by
      rw [gt_iff_lt, iw.lt_iff l0, l100.lt_iff iw]; push Not; constructor <;> linarith
    have hp : 0 < yR T + 5 := by linarith
    have g2 := no_delta i3 iy ir (by linarith) (by linarith) (by norm_num; linarith) (by norm_num; linarith) (by
      rcases le_total (yR T) u with hm | hm
      · rw [max_eq_left hm, min_eq_right hm, show (u + 5) / (yR T + 5) - R = (u - (R * (yR T + 5) - 5)) / (yR T + 5) by
          field_simp; ring, abs_div, abs_of_pos hp, div_le_iff₀ hp]
        have : |u - (R * (yR T + 5) - 5)| ≤ 1 / 10 ^ 8 := by
          rw [abs_le]; norm_num; constructor <;> linarith
        norm_num at this ⊢; linarith
      · have hu5 : 4 < u + 5 := by linarith
        rw [max_eq_right hm, min_eq_left hm, abs_le]
        constructor
        · have : R - 1 / 10 ^ 6 ≤ (yR T + 5) / (u + 5) := by
            rw [le_div_iff₀ (by linarith)]; norm_num; nlinarith
          linarith
        · have : (yR T + 5) / (u + 5) ≤ R + 1 / 10 ^ 6 := by
            rw [div_le_iff₀ (by linarith)]; norm_num; nlinarith
          linarith)
    simp only [lighter, if_neg g1, if_neg g2, if_neg g3] at he
    have := iw.2
    have he' : W = -1 := this.symm.trans he
    linarith
  norm_num at key
  have hS : 0 ≤ S ∧ S ≤ 100 := ⟨by linarith, by linarith⟩
  have hr := is_ratioOfTones is it hS ⟨h0, h1⟩
  rw [show val (ratioOfTones s t) = _ from hr.2]
  obtain ⟨a0, a1⟩ := yR_range hS.1 hS.2
  have an := abs_le.1 (yR_near is hS.1 hS.2)
  have gap : yFromLstar S + 8 / 10 ^ 4 ≤ u := by
    by_contra hc
    push Not at hc
    have b1 : yFromLstar S ≤ 100 := by
      have := c11_strictMono.1.monotone hS.2
      rwa [c11_endpoints.2.1] at this
    have h2 := c11_strictMono.2.monotone hc.le
    have h3 := lstar_lipschitz (a := yFromLstar S) (b := yFromLstar S + 8 / 10 ^ 4) (by norm_num) (by norm_num; linarith)
    rw [c11_lstar_y_lstar] at h3
    norm_num at h3 h2; linarith
  have hmax : yR T ≤ yR S := yR_mono h0 hs0 hS.2
  have c1 := abs_le.1 (rnd_close (v := yR S + 5) (by rw [abs_le]; constructor <;> linarith))
  have c2 := abs_le.1 (rnd_close (v := yR T + 5) (by rw [abs_le]; constructor <;> linarith))
  obtain ⟨p0, p1⟩ := plus5 y0 y1
  obtain ⟨q0, q1⟩ := plus5 a0 a1
  unfold ratioR
  rw [max_eq_left hmax, min_eq_right hmax]
  have e1 : R * (yR T + 5) - 100 * (1 / 10 ^ 11) ≤ R * rnd (yR T + 5) := by
    have : R * (yR T + 5 - rnd (yR T + 5)) ≤ 100 * (1 / 10 ^ 11) :=
      (mul_le_mul_of_nonneg_left (by linarith [c2.1]) (by linarith)).trans (mul_le_mul_of_nonneg_right hr2 (by norm_num))
    linarith
  have lt : rnd (yR S + 5) / rnd (yR T + 5) ≤ R - 1 / 10 ^ 6 := by
    rw [div_le_iff₀ (by linarith)]
    norm_num at e1 c1 an gap ⊢; linarith
  have c3 := abs_le.1 (rnd_close (v := rnd (yR S + 5) / rnd (yR T + 5)) (by
    rw [abs_of_nonneg (div_nonneg (by linarith) (by linarith))]; norm_num at lt; linarith))
  norm_num at c3 lt; linarith

/-! ### C19 -/

theorem repm5 : Rep (-5) := by simpa using rep_int (n := -5) (by norm_num)

/-- The luminance `darker` looks for. -/
theorem darker_d {t r : 𝔻} {T R : ℝ} (it : Is t T) (ir : Is r R) (h0 : 0 ≤ T) (h1 : T ≤ 100) (hr1 : 1 ≤ R) :
    ∃ d, Is ((yFromLstar t + 5.0) / r - 5.0) d ∧ |d - ((yR T + 5) / R - 5)| ≤ 1 / 10 ^ 10 ∧ -5 ≤ d := by
  obtain ⟨y0, y1⟩ := yR_range h0 h1
  have iy := is_y it h0 h1
  have hR0 : 0 < R := by linarith
  obtain ⟨p0, p1⟩ := plus5 y0 y1
  have i1 := iy.add l5 (small 10 (by norm_num) (by rw [abs_of_nonneg (by linarith)]; norm_num; linarith))
  have c1 := abs_le.1 (rnd_close (v := yR T + 5) (by rw [abs_le]; constructor <;> linarith))
  have m0 : 0 ≤ rnd (yR T + 5) / R := by positivity
  have m1 : rnd (yR T + 5) / R ≤ 105 := (div_le_self (by linarith) hr1).trans p1
  have i2 := i1.div ir hR0.ne' (small 14 (by norm_num) (by rw [abs_of_nonneg m0]; norm_num; linarith))
  have c2 := abs_le.1 (rnd_close (v := rnd (yR T + 5) / R) (by rw [abs_le]; constructor <;> linarith))
  have e1 : |rnd (yR T + 5) / R - (yR T + 5) / R| ≤ 1 / 10 ^ 11 := by
    rw [← sub_div, abs_div, abs_of_pos hR0]
    exact (div_le_self (abs_nonneg _) hr1).trans (abs_le.2 c1)
  have e1 := abs_le.1 e1
  generalize hA : rnd (yR T + 5) = A at *
  have n0 : 0 ≤ rnd (A / R) := rnd_nonneg m0
  have i3 := i2.sub l5 (small 14 (by norm_num) (by
    norm_num at c2; rw [abs_le]; norm_num; constructor <;> linarith))
  have c3 := abs_le.1 (rnd_close (v := rnd (A / R) - 5) (by
    norm_num at c2; rw [abs_le]; constructor <;> linarith))
  refine ⟨_, i3, ?_, repm5.le_rnd (by linarith)⟩
  rw [abs_le]; norm_num at c2 c3 e1 ⊢; constructor <;> linarith

/-- The tone computed from a luminance of at most 100, shifted by the margin. -/
theorem darker_ans (hL : L.PowOk) {x : 𝔻} {d : ℝ} (hx : Is x d) (h0 : -5 ≤ d) (h1 : d ≤ 100.001) :
    ∃ W, Is (lstarFromY x - 0.4) W ∧ |W - (lstarFromY d - 0.4)| ≤ 1 / 10 ^ 5 := by
  have hρ : ρ = 1 / 10 ^ 12 := rfl
  have h04 : Ap (0.4 : 𝔻) 0.4 ρ := ap_lit rfl (by norm_num [abs_of_pos])
  norm_num at h1
  have hl := ap_lstarFromY hL hx.ap (by linarith) (by norm_num; linarith) (by norm_num)
  have m1 : lstarFromY d ≤ 101 := by
    have := c11_strictMono.2.monotone (show d ≤ 100 + 1 / 1000 by linarith)
    have h2 := lstar_lipschitz (a := 100) (b := 100 + 1 / 1000) (by norm_num) (by norm_num)
    rw [lstar100] at h2
    linarith
  have m0 : - 490 ≤ lstarFromY d := by
    have h2 := lstar_lipschitz (a := -5) (b := 0) (by norm_num) (by norm_num)
    rw [lstar0] at h2
    have := c11_strictMono.2.monotone h0
    linarith
  obtain ⟨W, iw, hw⟩ := (hl.sub h04 (by
    have : |lstarFromY d - 0.4| ≤ 500 := by rw [abs_le]; norm_num; constructor <;> linarith
    rw [hρ]; norm_num at this ⊢; linarith)).weaken (ε := 1 / 10 ^ 5) (by rw [hρ]; norm_num)
  exact ⟨W, iw, hw⟩

/-- C19 (binary64): for a tone in [0, 100] and a finite ratio of at least 1, a tone that was found is in range, darker than the
given tone, and the ratio the library itself computes for the two tones is at least the requested one. -/
theorem c19_binary64_sound (hL : L.PowOk) (t r : 𝔻) (ht : Fin t) (hr : Fin r) (h0 : 0 ≤ val t) (h1 : val t ≤ 100)
    (hr1 : 1 ≤ val r) (hne : val (darker t r) ≠ -1) :
    Fin (darker t r) ∧ 0 ≤ val (darker t r) ∧ val (darker t r) ≤ 100 ∧ val (darker t r) ≤ val t - 0.39 ∧
      val r ≤ val (ratioOfTones (darker t r) t) := by
  have it := is_of t ht
  have ir := is_of r hr
  have hrep := ir.rep
  generalize val t = T at *
  generalize val r = R at *
  have hR0 : 0 < R := by linarith
  obtain ⟨y0, y1⟩ := yR_range h0 h1
  have yn := abs_le.1 (yR_near it h0 h1)
  obtain ⟨d, i3, hd, hd5⟩ := darker_d it ir h0 h1 hr1
  have hd := abs_le.1 hd
  have hle : (yR T + 5) / R - 5 ≤ yR T := by
    have : (yR T + 5) / R ≤ yR T + 5 := div_le_self (by linarith) hr1
    linarith
  norm_num at hd yn
  obtain ⟨W, iw, hw⟩ := darker_ans hL i3 hd5 (by norm_num; linarith)
  simp only [darker] at hne ⊢
  split at hne
  · exact absurd lm1.2 hne
  next hg =>
  rw [if_neg hg]
  split at hne
  · exact absurd lm1.2 hne
  next hb =>
  rw [if_neg hb]
  split at hne
  · exact absurd lm1.2 hne
  next hb2 =>
  rw [if_neg hb2]
  clear hb hne
  have hb' : 0 ≤ W ∧ W ≤ 100 := by
    rw [gt_iff_lt, iw.lt_iff l0, l100.lt_iff iw] at hb2; push Not at hb2; exact hb2
  generalize lstarFromY ((yFromLstar t + 5.0) / r - 5.0) - 0.4 = g at *
  have vg : val g = W := iw.2
  have hr := is_ratioOfTones iw it hb' ⟨h0, h1⟩
  have hw := abs_le.1 hw
  norm_num at hw
  rw [vg]
  have top : lstarFromY d ≤ T + 1 / 10 ^ 4 := by
    have m := c11_strictMono.2.monotone (show d ≤ yFromLstar T + 3 / 10 ^ 8 by norm_num; linarith)
    have h2 := lstar_lipschitz (a := yFromLstar T) (b := yFromLstar T + 3 / 10 ^ 8) (by norm_num) (by norm_num; linarith)
    rw [c11_lstar_y_lstar] at h2
    norm_num at h2 m ⊢; linarith
  norm_num at top
  refine ⟨iw.1, hb'.1, hb'.2, by norm_num; linarith, ?_⟩
  rw [show val (ratioOfTones g t) = _ from hr.2]
  obtain ⟨a0, a1⟩ := yR_range hb'.1 hb'.2
  have an := abs_le.1 (yR_near iw hb'.1 hb'.2)
  have gap : yFromLstar W + 3 / 1000 ≤ d := by
    by_contra hc
    push Not at hc
    have h2 := c11_strictMono.2.monotone hc.le
    have b1 : yFromLstar W ≤ 100 := by
      have := c11_strictMono.1.monotone hb'.2
      rwa [c11_endpoints.2.1] at this
    have h3 := lstar_lipschitz (a := yFromLstar W) (b := yFromLstar W + 3 / 1000) (by norm_num) (by norm_num; linarith)
    rw [c11_lstar_y_lstar] at h3
    norm_num at h3 h2; linarith
  norm_num at an gap
  have hmin : yR W ≤ yR T := by linarith
  have c1 := abs_le.1 (rnd_close (v := yR W + 5) (by rw [abs_le]; constructor <;> linarith))
  have c2 := abs_le.1 (rnd_close (v := yR T + 5) (by rw [abs_le]; constructor <;> linarith))
  obtain ⟨p0, p1⟩ := plus5 a0 a1
  unfold ratioR
  rw [max_eq_right hmin, min_eq_left hmin]
  refine hrep.le_rnd ?_
  rw [le_div_iff₀ (by linarith)]
  norm_num at c1 c2
  have e1 : R * rnd (yR W + 5) ≤ R * ((yR T + 5) / R - 1 / 1000) :=
    mul_le_mul_of_nonneg_left (by linarith) hR0.le
  rw [mul_sub, mul_div_cancel₀ _ hR0.ne'] at e1
  linarith

/-- C19 (binary64): if no tone was found, then no tone between 0.5 and the given one has the requested ratio, as the library
computes it. -/
theorem c19_binary64_complete (hL : L.PowOk) (t r : 𝔻) (ht : Fin t) (hr : Fin r) (h0 : 0 ≤ val t) (h1 : val t ≤ 100)
    (hr1 : 1 ≤ val r) (he : val (darker t r) = -1) (s : 𝔻) (hs : Fin s) (hs0 : 0.5 ≤ val s)
    (hs1 : val s ≤ val t) : val (ratioOfTones s t) < val r := by
  have it := is_of t ht
  have ir := is_of r hr
  have is := is_of s hs
  generalize val t = T at *
  generalize val r = R at *
  generalize val s = S at *
  norm_num at hs0
  have hS : 0 ≤ S ∧ S ≤ 100 := ⟨by linarith, by linarith⟩
  have hr := is_ratioOfTones is it hS ⟨h0, h1⟩
  rw [show val (ratioOfTones s t) = _ from hr.2]
  obtain ⟨y0, y1⟩ := yR_range h0 h1
  obtain ⟨a0, a1⟩ := yR_range hS.1 hS.2
  rcases lt_or_ge 21 R with h21 | h21
  · exact lt_of_le_of_lt (ratioR_range ⟨a0, a1⟩ ⟨y0, y1⟩).2 h21
  have hR0 : 0 < R := by linarith
  obtain ⟨d, i3, hd, hd5⟩ := darker_d it ir h0 h1 hr1
  have hda := hd
  have hd := abs_le.1 hd
  have hle : (yR T + 5) / R - 5 ≤ yR T := by
    have : (yR T + 5) / R ≤ yR T + 5 := div_le_self (by linarith) hr1
    linarith
  have hge : 0.23 ≤ (yR T + 5) / R := by
    rw [le_div_iff₀ hR0]; norm_num; linarith
  have iy := is_y it h0 h1
  have yn := abs_le.1 (yR_near it h0 h1)
  norm_num at hd yn hge
  obtain ⟨W, iw, hw⟩ := darker_ans hL i3 hd5 (by norm_num; linarith)
  have hw := abs_le.1 hw
  have top : lstarFromY d ≤ T + 1 / 10 ^ 4 := by
    have m := c11_strictMono.2.monotone (show d ≤ yFromLstar T + 3 / 10 ^ 8 by norm_num; linarith)
    have h2 := lstar_lipschitz (a := yFromLstar T) (b := yFromLstar T + 3 / 10 ^ 8) (by norm_num) (by norm_num; linarith)
    rw [c11_lstar_y_lstar] at h2
    norm_num at h2 m ⊢; linarith
  norm_num at top hw
  -- the luminance was too small
  have key : lstarFromY d ≤ 0.41 := by
    by_contra hc
    norm_num at hc
    have g1 : ¬ (t < (0.0 : 𝔻) ∨ t > 100.0) := by
      rw [gt_iff_lt, it.lt_iff l0, l100.lt_iff it]; push Not; exact ⟨h0, h1⟩
    have g3 : ¬ (lstarFromY ((yFromLstar t + 5.0) / r - 5.0) - 0.4 < (0.0 : 𝔻) ∨
        lstarFromY ((yFromLstar t + 5.0) / r - 5.0) - 0.4 > (100.0 : 𝔻)) := by
      rw [gt_iff_lt, iw.lt_iff l0, l100.lt_iff iw]; push Not; constructor <;> linarith
    have hd0 : 0 < d := by
      by_contra hn
      have := c11_strictMono.2.monotone (not_lt.1 hn)
      rw [lstar0] at this; linarith
    have hp : 0 < d + 5 := by linarith
    have hRd : |yR T + 5 - R * (d + 5)| ≤ 3 / 10 ^ 9 := by
      rw [show yR T + 5 - R * (d + 5) = -(R * (d - ((yR T + 5) / R - 5))) by
        field_simp; ring, abs_neg, abs_mul, abs_of_pos hR0]
      refine (mul_le_mul h21 hda (abs_nonneg _) (by norm_num)).trans (by norm_num)
    have hRd' := abs_le.1 hRd
    norm_num at hRd'
    have g2 := no_delta iy i3 ir (by linarith) (by linarith) (by norm_num; linarith) (by norm_num; linarith) (by
      rcases le_total d (yR T) with hm | hm
      · rw [max_eq_left hm, min_eq_right hm, show (yR T + 5) / (d + 5) - R = (yR T + 5 - R * (d + 5)) / (d + 5) by
          field_simp, abs_div, abs_of_pos hp, div_le_iff₀ hp]
        norm_num at hRd ⊢; linarith
      · rw [max_eq_right hm, min_eq_left hm, abs_le]
        have h5 : 5 ≤ yR T + 5 := by linarith
        constructor
        · have : R - 1 / 10 ^ 6 ≤ (d + 5) / (yR T + 5) := by
            rw [le_div_iff₀ (by linarith)]; norm_num; nlinarith
          linarith
        · have : (d + 5) / (yR T + 5) ≤ R + 1 / 10 ^ 6 := by
            rw [div_le_iff₀ (by linarith)]; norm_num; nlinarith
          linarith)
    simp only [darker, if_neg g1, if_neg g2, if_neg g3] at he
    have := iw.2
    have he' : W = -1 := this.symm.trans he
    linarith
  norm_num at key
  have an := abs_le.1 (yR_near is hS.1 hS.2)
  have gap : d + 8 / 10 ^ 4 ≤ yFromLstar S := by
    by_contra hc
    push Not at hc
    have h2 := c11_strictMono.2.monotone hc.le
    rw [c11_lstar_y_lstar] at h2
    have h3 := lstar_lipschitz (a := d) (b := d + 8 / 10 ^ 4) (by norm_num) (by norm_num; linarith)
    norm_num at h3 h2; linarith
  have hmin : yR S ≤ yR T := yR_mono hS.1 hs1 h1
  have c1 := abs_le.1 (rnd_close (v := yR S + 5) (by rw [abs_le]; constructor <;> linarith))
  have c2 := abs_le.1 (rnd_close (v := yR T + 5) (by rw [abs_le]; constructor <;> linarith))
  obtain ⟨p0, p1⟩ := plus5 y0 y1
  obtain ⟨q0, q1⟩ := plus5 a0 a1
  norm_num at c1 c2 an gap
  unfold ratioR
  rw [max_eq_right hmin, min_eq_left hmin]
  have e1 : R * ((yR T + 5) / R + 7 / 10 ^ 4) ≤ R * rnd (yR S + 5) :=
    mul_le_mul_of_nonneg_left (by norm_num; linarith) hR0.le
  rw [mul_add, mul_div_cancel₀ _ hR0.ne'] at e1
  have lt : rnd (yR T + 5) / rnd (yR S + 5) ≤ R - 1 / 10 ^ 6 := by
    rw [div_le_iff₀ (by linarith)]
    norm_num at e1 ⊢; linarith
  have c3 := abs_le.1 (rnd_close (v := rnd (yR T + 5) / rnd (yR S + 5)) (by
    rw [abs_of_nonneg (div_nonneg (by linarith) (by linarith))]; norm_num at lt; linarith))
  norm_num at c3 lt; linarith

/-! ### C20 -/

theorem fin_of_neg {x : 𝔻} (h : val x = -1) : Is x (-1) := by
  refine ⟨?_, h⟩
  revert h
  rcases x with _ | _ | _ | _ <;> intro h
  · exact absurd (show (0 : ℝ) = -1 from h) (by norm_num)
  · exact absurd (show (0 : ℝ) = -1 from h) (by norm_num)
  · trivial
  · trivial

/-- C20 (binary64): the unsafe variants answer with a number in [0, 100]: the tone found, whose computed ratio is at least the
requested one, or else 100 (respectively 0). -/
theorem c20_binary64 (hL : L.PowOk) (t r : 𝔻) (ht : Fin t) (hr : Fin r) (h0 : 0 ≤ val t) (h1 : val t ≤ 100)
    (hr1 : 1 ≤ val r) (hr2 : val r ≤ 100) :
    ((Fin (lighterUnsafe t r) ∧ 0 ≤ val (lighterUnsafe t r) ∧ val (lighterUnsafe t r) ≤ 100) ∧
      (val r ≤ val (ratioOfTones (lighterUnsafe t r) t) ∨ val (lighterUnsafe t r) = 100)) ∧
    ((Fin (darkerUnsafe t r) ∧ 0 ≤ val (darkerUnsafe t r) ∧ val (darkerUnsafe t r) ≤ 100) ∧
      (val r ≤ val (ratioOfTones (darkerUnsafe t r) t) ∨ val (darkerUnsafe t r) = 0)) := by
  have v100 : val (100.0 : 𝔻) = 100 := l100.2
  have v0 : val (0.0 : 𝔻) = 0 := l0.2
  constructor
  · simp only [lighterUnsafe]
    by_cases hv : val (lighter t r) = -1
    · rw [if_pos ((fin_of_neg hv).lt_iff l0 |>.2 (by norm_num)), v100]
      exact ⟨⟨l100.1, by norm_num, le_rfl⟩, Or.inr rfl⟩
    · obtain ⟨a, b, c, -, e⟩ := c18_binary64_sound hL t r ht hr h0 h1 hr1 hr2 hv
      rw [if_neg (by rw [(is_of _ a).lt_iff l0]; linarith)]
      exact ⟨⟨a, b, c⟩, Or.inl e⟩
  · simp only [darkerUnsafe]
    by_cases hv : val (darker t r) = -1
    · rw [if_pos ((fin_of_neg hv).lt_iff l0 |>.2 (by norm_num)), v0]
      exact ⟨⟨l0.1, le_rfl, by norm_num⟩, Or.inr rfl⟩
    · obtain ⟨a, b, c, -, e⟩ := c19_binary64_sound hL t r ht hr h0 h1 hr1 hv
      rw [if_neg (by rw [(is_of _ a).lt_iff l0]; linarith)]
      exact ⟨⟨a, b, c⟩, Or.inl e⟩

theorem ratio_two {s t : 𝔻} {S T : ℝ} (is : Is s S) (it : Is t T) (hS : 0 ≤ S ∧ S ≤ 100) (hT : 0 ≤ T ∧ T ≤ 100)
    (h : 2.5 * (yFromLstar T + 5) ≤ yFromLstar S + 5) :
    2 ≤ val (ratioOfTones s t) ∧ 2 ≤ val (ratioOfTones t s) := by
  have i1 := is_ratioOfTones is it hS hT
  have i2 := is_ratioOfTones it is hT hS
  have a1 := abs_le.1 (yR_near is hS.1 hS.2)
  have a2 := abs_le.1 (yR_near it hT.1 hT.2)
  obtain ⟨b0, b1⟩ := yR_range hS.1 hS.2
  obtain ⟨c0, c1⟩ := yR_range hT.1 hT.2
  norm_num at a1 a2 h
  have hm : yR T ≤ yR S := by linarith
  have d1 := abs_le.1 (rnd_close (v := yR S + 5) (by rw [abs_le]; constructor <;> linarith))
  have d2 := abs_le.1 (rnd_close (v := yR T + 5) (by rw [abs_le]; constructor <;> linarith))
  obtain ⟨p0, p1⟩ := plus5 c0 c1
  norm_num at d1 d2
  have key : 2 ≤ rnd (rnd (yR S + 5) / rnd (yR T + 5)) := by
    refine Rep.le_rnd (by simpa using rep_int (n := 2) (by norm_num)) ?_
    rw [le_div_iff₀ (by linarith)]; linarith
  rw [show val (ratioOfTones s t) = _ from i1.2, show val (ratioOfTones t s) = _ from i2.2]
  unfold ratioR
  rw [max_eq_left hm, min_eq_right hm, max_eq_right hm, min_eq_left hm]
  exact ⟨key, key⟩

/-- The hypotheses are met: a tone lighter than 50 with the ratio 2 is found, and a darker one too (some math library is
accurate, `powOk_exists`). -/
example (hL : L.PowOk) : val (lighter (50.0 : 𝔻) 2.0) ≠ -1 ∧ val (darker (50.0 : 𝔻) 2.0) ≠ -1 := by
  have i50 : Is (50.0 : 𝔻) 50 := by simpa using lit (L := L) 500 1 true 50 (by norm_num) (by norm_num)
  have i2 : Is (2.0 : 𝔻) 2 := by simpa using lit (L := L) 20 1 true 2 (by norm_num) (by norm_num)
  have i90 : Is (90.0 : 𝔻) 90 := by simpa using lit (L := L) 900 1 true 90 (by norm_num) (by norm_num)
  have i20 : Is (20.0 : 𝔻) 20 := by simpa using lit (L := L) 200 1 true 20 (by norm_num) (by norm_num)
  have v50 : val (50.0 : 𝔻) = 50 := i50.2
  have v2 : val (2.0 : 𝔻) = 2 := i2.2
  have v90 : val (90.0 : 𝔻) = 90 := i90.2
  have v20 : val (20.0 : 𝔻) = 20 := i20.2
  constructor <;> intro h
  · have := c18_binary64_complete hL (50.0 : 𝔻) 2.0 i50.1 i2.1 (by rw [v50]; norm_num) (by rw [v50]; norm_num)
      (by rw [v2]; norm_num) (by rw [v2]; norm_num) h (90.0 : 𝔻) i90.1 (by rw [v50, v90]; norm_num) (by rw [v90]; norm_num)
    rw [v2] at this
    exact absurd (ratio_two i90 i50 (by norm_num) (by norm_num) (by
      rw [y_cube (by norm_num), y_cube (by norm_num)]; norm_num)).1 (not_le.2 this)
  · have := c19_binary64_complete hL (50.0 : 𝔻) 2.0 i50.1 i2.1 (by rw [v50]; norm_num) (by rw [v50]; norm_num)
      (by rw [v2]; norm_num) h (20.0 : 𝔻) i20.1 (by rw [v20]; norm_num) (by rw [v50, v20]; norm_num)
    rw [v2] at this
    exact absurd (ratio_two i50 i20 (by norm_num) (by norm_num) (by
      rw [y_cube (by norm_num), y_cube (by norm_num)]; norm_num)).2 (not_le.2 this)

end Mcu.Props.Binary64
