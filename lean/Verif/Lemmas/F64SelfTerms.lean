import Verif.Lemmas.F64SelfHue

/-! The terms of the appearance model for a colour, in IEEE-754 binary64, against the terms of the ray the solver searches. -/

namespace Mcu.Lemmas

open Mcu.Ieee Props Props.Binary64 MathUtils ColorUtils HctSolver Real

variable {L : Libm}

local notation "𝔻" => F64 L

/-! ### Relative errors of real numbers -/

theorem rel_mul {x y a b ε δ η : ℝ} (hx : |x - a| ≤ ε * a) (hy : |y - b| ≤ δ * b) (a0 : 0 < a) (b0 : 0 < b) (hη : ε + δ + ε * δ ≤ η) :
    |x * y - a * b| ≤ η * (a * b) := by
  have e : x * y - a * b = (x - a) * b + a * (y - b) + (x - a) * (y - b) := by ring
  rw [e]
  refine (abs_add_three _ _ _).trans ?_
  rw [abs_mul, abs_mul, abs_mul, abs_of_pos a0, abs_of_pos b0]
  have h1 := mul_le_mul_of_nonneg_right hx b0.le
  have h2 := mul_le_mul_of_nonneg_left hy a0.le
  have h3 := mul_le_mul hx hy (abs_nonneg _) ((abs_nonneg _).trans hx)
  have h4 := mul_le_mul_of_nonneg_right hη (mul_pos a0 b0).le
  nlinarith

theorem rel_inv {y b δ η : ℝ} (hy : |y - b| ≤ δ * b) (b0 : 0 < b) (h1 : δ ≤ 1 / 2000) (hη : 1.001 * δ ≤ η) :
    |1 / y - 1 / b| ≤ η * (1 / b) := by
  have hy' := abs_le.1 hy
  have d0 : 0 ≤ δ := by
    by_contra hh
    push Not at hh
    have := (abs_nonneg _).trans hy
    nlinarith
  have hb : δ * b ≤ 1 / 2000 * b := mul_le_mul_of_nonneg_right h1 b0.le
  have y0 : 0 < y := by linarith
  have e : 1 / y - 1 / b = (b - y) / y * (1 / b) := by field_simp
  rw [e, abs_mul, abs_of_pos (show 0 < 1 / b by positivity)]
  refine mul_le_mul_of_nonneg_right ?_ (by positivity)
  rw [abs_div, abs_of_pos y0, div_le_iff₀ y0, abs_sub_comm]
  refine hy.trans (le_trans ?_ (mul_le_mul_of_nonneg_right hη y0.le))
  have : b ≤ 1.001 * y := by norm_num at *; linarith
  calc δ * b ≤ δ * (1.001 * y) := mul_le_mul_of_nonneg_left this d0
    _ = _ := by ring

theorem rel_div {x y a b ε δ η : ℝ} (hx : |x - a| ≤ ε * a) (hy : |y - b| ≤ δ * b) (a0 : 0 < a) (b0 : 0 < b) (h1 : δ ≤ 1 / 2000)
    (hη : ε + 1.001 * δ + ε * (1.001 * δ) ≤ η) : |x / y - a / b| ≤ η * (a / b) := by
  have := rel_mul hx (rel_inv hy b0 h1 le_rfl) a0 (show 0 < 1 / b by positivity) hη
  rwa [mul_one_div, mul_one_div] at this

theorem rel_trans {x a b ε δ η : ℝ} (hx : |x - a| ≤ ε * a) (ha : |a - b| ≤ δ * b) (b0 : 0 < b) (e0 : 0 ≤ ε) (hη : ε + δ + ε * δ ≤ η) :
    |x - b| ≤ η * b := by
  have := abs_add_le (x - a) (a - b)
  rw [sub_add_sub_cancel] at this
  have h1 := (abs_le.1 ha).2
  have h2 : ε * a ≤ ε * ((1 + δ) * b) := mul_le_mul_of_nonneg_left (by linarith) e0
  have h4 := mul_le_mul_of_nonneg_right hη b0.le
  nlinarith

theorem rel_symm {a b δ η : ℝ} (ha : |a - b| ≤ δ * b) (b0 : 0 < b) (h1 : δ ≤ 1 / 2000) (hη : 1.001 * δ ≤ η) : |b - a| ≤ η * a := by
  have h := abs_le.1 ha
  have d0 : 0 ≤ δ := by
    by_contra hh
    push Not at hh
    have := (abs_nonneg _).trans ha
    nlinarith
  have hb : δ * b ≤ 1 / 2000 * b := mul_le_mul_of_nonneg_right h1 b0.le
  have a0 : 0 < a := by linarith
  rw [abs_sub_comm]
  refine ha.trans (le_trans ?_ (mul_le_mul_of_nonneg_right hη a0.le))
  have : b ≤ 1.001 * a := by norm_num at *; linarith
  calc δ * b ≤ δ * (1.001 * a) := mul_le_mul_of_nonneg_left this d0
    _ = _ := by ring

theorem Nr.val {x : 𝔻} {t ε : ℝ} {n : ℕ} (h : Nr x t ε n) : Is x (Dbl.val x) ∧ |Dbl.val x - t| ≤ ε * t := by
  obtain ⟨v, iv, hv⟩ := h.rl
  have e := iv.2
  exact ⟨⟨iv.1, rfl⟩, by rw [e]; exact hv⟩

/-! ### The computed cone responses -/

/-- The cone responses the code computes, as real numbers. -/
noncomputable def conesV (L : Libm) (argb : Int) : Vec3 ℝ := ⟨Dbl.val (cones64 L argb).x0, Dbl.val (cones64 L argb).x1, Dbl.val (cones64 L argb).x2⟩

structure Sound3 (w : Vec3 𝔻) (v : Vec3 ℝ) : Prop where
  i0 : Is w.x0 v.x0
  i1 : Is w.x1 v.x1
  i2 : Is w.x2 v.x2
  y0 : 0.09 ≤ v.x1
  y1 : v.x1 ≤ 15.1
  r_lo : 0.9099 * v.x1 ≤ v.x0
  r_hi : v.x0 ≤ 1.3531 * v.x1
  b_lo : 0.4699 * v.x1 ≤ v.x2
  b_hi : v.x2 ≤ 2.6601 * v.x1

theorem sound_cones (hL : L.PowOk) (hE : L.ExpOk) {argb : Int} (h : NotBlack argb) : Sound3 (cones64 L argb) (conesV L argb) := by
  obtain ⟨n0, n1, n2⟩ := nr_cones64 hL hE h
  obtain ⟨i0, e0⟩ := n0.val
  obtain ⟨i1, e1⟩ := n1.val
  obtain ⟨i2, e2⟩ := n2.val
  obtain ⟨c0, c1, c2⟩ := cones_pos h
  obtain ⟨-, g1, -⟩ := cones_ge h
  obtain ⟨p, l1, l2, l3, l4⟩ := near_argb h
  have e0 := abs_le.1 e0; have e1 := abs_le.1 e1; have e2 := abs_le.1 e2
  refine ⟨i0, i1, i2, ?_, ?_, ?_, ?_, ?_, ?_⟩ <;> simp only [conesV] <;> norm_num at * <;> linarith

theorem Sound3.oa {w : Vec3 𝔻} {v : Vec3 ℝ} (h : Sound3 w v) : Ap (oa64 w) (opA v) (5 / 10 ^ 14 * v.x1) := by
  obtain ⟨i0, i1, i2, y0, y1, l1, l2, l3, l4⟩ := h
  have i11 : Is (11.0 : 𝔻) 11 := by simpa using lit (L := L) 110 1 true 11 (by norm_num) (by norm_num)
  have i12 : Is (12.0 : 𝔻) 12 := by simpa using lit (L := L) 120 1 true 12 (by norm_num) (by norm_num)
  unfold opA
  generalize v.x0 = X at *
  generalize v.x1 = Y at *
  generalize v.x2 = Z at *
  have c := comb3 (L := L) (A := 11) (B := -12) (C := 1) (X := X) (Y := Y) (Z := Z) (ε := 0) (p := 11.0 * w.x0 + (-12.0) * w.x1)
    (q := 11.0 * w.x0 + (-12.0) * w.x1 + w.x2) 1 (by norm_num) (fun h => i11.mul i0 h) (fun h => i12.neg.mul i1 h) (is_one_mul i2) (by simp) (by simp) (by simp) (by norm_num) (by norm_num) (by norm_num)
    (by norm_num at *; linarith) (by norm_num at *; linarith) (by norm_num at *; linarith) (by norm_num) (by norm_num) (by norm_num at *; linarith) (by norm_num at *; linarith) (fun a b ha hb h => ha.add hb h)
    (fun w s hw hs h => by rw [one_mul] at h ⊢; exact hs.add hw h)
  have e : (11.0 * X + (-12.0) * Y + Z) / 11.0 = (11 * X + (-12) * Y + 1 * (1 * Z)) / 11 := by norm_num
  rw [e]
  refine div_near (S := 6 * (X + Y + Z)) c i11 (by norm_num) ?_ ?_ ?_ ?_
  · rw [abs_le]; norm_num at *; constructor <;> linarith
  · norm_num [abs_of_pos, abs_of_neg] at *; linarith
  · norm_num at *; linarith
  · norm_num [abs_of_pos, abs_of_neg] at *; linarith

theorem Sound3.ob {w : Vec3 𝔻} {v : Vec3 ℝ} (h : Sound3 w v) : Ap (ob64 w) (opB v) (5 / 10 ^ 14 * v.x1) := by
  obtain ⟨i0, i1, i2, y0, y1, l1, l2, l3, l4⟩ := h
  have i9 : Is (9.0 : 𝔻) 9 := by simpa using lit (L := L) 90 1 true 9 (by norm_num) (by norm_num)
  have i2' : Is (2.0 : 𝔻) 2 := by simpa using lit (L := L) 20 1 true 2 (by norm_num) (by norm_num)
  unfold opB
  generalize v.x0 = X at *
  generalize v.x1 = Y at *
  generalize v.x2 = Z at *
  have c := comb3 (L := L) (A := 1) (B := 1) (C := 2) (X := X) (Y := Y) (Z := Z) (ε := 0) (p := w.x0 + w.x1)
    (q := w.x0 + w.x1 - 2.0 * w.x2) (-1) (by norm_num) (is_one_mul i0) (is_one_mul i1) (fun h => i2'.mul i2 h) (by simp) (by simp) (by simp) (by norm_num) (by norm_num) (by norm_num)
    (by norm_num at *; linarith) (by norm_num at *; linarith) (by norm_num at *; linarith) (by norm_num) (by norm_num) (by norm_num at *; linarith) (by norm_num at *; linarith) (fun a b ha hb h => ha.add hb h)
    (fun w s hw hs h => by rw [neg_one_mul, ← sub_eq_add_neg] at h ⊢; exact hs.sub hw h)
  have e : (X + Y - 2.0 * Z) / 9.0 = (1 * X + 1 * Y + -1 * (2 * Z)) / 9 := by norm_num; ring
  rw [e]
  refine div_near (S := 6 * (X + Y + Z)) c i9 (by norm_num) ?_ ?_ ?_ ?_
  · rw [abs_le]; norm_num at *; constructor <;> linarith
  · norm_num [abs_of_pos, abs_of_neg] at *; linarith
  · norm_num at *; linarith
  · norm_num [abs_of_pos, abs_of_neg] at *; linarith

theorem Sound3.ou {w : Vec3 𝔻} {v : Vec3 ℝ} (h : Sound3 w v) : Nr (ou64 w) (opU v) (8 / 10 ^ 15) 2 := by
  obtain ⟨i0, i1, i2, y0, y1, l1, l2, l3, l4⟩ := h
  have n0 := i0.nr 2 (by norm_num at *; linarith) (by norm_num at *; linarith)
  have n1 := i1.nr 2 (by norm_num at *; linarith) (by norm_num at *; linarith)
  have n2 := i2.nr 2 (by norm_num at *; linarith) (by norm_num at *; linarith)
  have l20 : Nr (20.0 : 𝔻) (20.0 : ℝ) (1 / 10 ^ 15) 2 := nr_lit 2 (by norm_num) (by norm_num) (by norm_num)
  have l21 : Nr (21.0 : 𝔻) (21.0 : ℝ) (1 / 10 ^ 15) 2 := nr_lit 2 (by norm_num) (by norm_num) (by norm_num)
  have a := l20.mul n0 (2 / 10 ^ 15) (by norm_num) (by norm_num) (by norm_num)
  have b := l20.mul n1 (2 / 10 ^ 15) (by norm_num) (by norm_num) (by norm_num)
  have c := l21.mul n2 (2 / 10 ^ 15) (by norm_num) (by norm_num) (by norm_num)
  have d := ((a.add b 5 (3 / 10 ^ 15) (by norm_num) (by norm_num) (by norm_num) (by norm_num) (by norm_num) (by norm_num)).add c 6 (4 / 10 ^ 15) (by norm_num) (by norm_num) (by norm_num) (by norm_num) (by norm_num) (by norm_num)).div l20 (8 / 10 ^ 15) (by norm_num) (by norm_num) (by norm_num)
  refine d.to _ 2 le_rfl ?_ ?_ <;> norm_num at * <;> linarith

theorem Sound3.op {w : Vec3 𝔻} {v : Vec3 ℝ} (h : Sound3 w v) : Nr (op64 w) (opP2 v) (8 / 10 ^ 15) 2 := by
  obtain ⟨i0, i1, i2, y0, y1, l1, l2, l3, l4⟩ := h
  have n0 := i0.nr 2 (by norm_num at *; linarith) (by norm_num at *; linarith)
  have n1 := i1.nr 2 (by norm_num at *; linarith) (by norm_num at *; linarith)
  have n2 := i2.nr 2 (by norm_num at *; linarith) (by norm_num at *; linarith)
  have l20 : Nr (20.0 : 𝔻) (20.0 : ℝ) (1 / 10 ^ 15) 2 := nr_lit 2 (by norm_num) (by norm_num) (by norm_num)
  have l40 : Nr (40.0 : 𝔻) (40.0 : ℝ) (1 / 10 ^ 15) 2 := nr_lit 2 (by norm_num) (by norm_num) (by norm_num)
  have a := l40.mul n0 (2 / 10 ^ 15) (by norm_num) (by norm_num) (by norm_num)
  have b := l20.mul n1 (2 / 10 ^ 15) (by norm_num) (by norm_num) (by norm_num)
  have d := ((a.add b 5 (3 / 10 ^ 15) (by norm_num) (by norm_num) (by norm_num) (by norm_num) (by norm_num) (by norm_num)).add n2 6 (4 / 10 ^ 15) (by norm_num) (by norm_num) (by norm_num) (by norm_num) (by norm_num) (by norm_num)).div l20 (8 / 10 ^ 15) (by norm_num) (by norm_num) (by norm_num)
  refine d.to _ 2 le_rfl ?_ ?_ <;> norm_num at * <;> linarith

/-! ### The distance from the axis -/

/-- The distance from the axis of the computed opponent coordinates. -/
noncomputable def rhoV (L : Libm) (argb : Int) : ℝ :=
  Real.sqrt (Dbl.val (oa64 (cones64 L argb)) * Dbl.val (oa64 (cones64 L argb)) + Dbl.val (ob64 (cones64 L argb)) * Dbl.val (ob64 (cones64 L argb)))

theorem rho_sharp (hL : L.PowOk) (hE : L.ExpOk) {argb : Int} (h : NotBlack argb) :
    Nr (Fl.sqrt (oa64 (cones64 L argb) * oa64 (cones64 L argb) + ob64 (cones64 L argb) * ob64 (cones64 L argb))) (rhoV L argb) (3 / 10 ^ 15) 7 := by
  obtain ⟨v, w, iv, iw, hvw⟩ := opp_near hL hE h
  have r0 := rho_pos h
  have r1 := rho_le h
  obtain ⟨-, s1⟩ := opp_sum h
  have hr : rho (conesR argb) ≤ 90 := by linarith
  have hn := abs_norm_sub_norm_le (⟨v, w⟩ : ℂ) ⟨opA (conesR argb), opB (conesR argb)⟩
  rw [norm_rho] at hn
  have hn := abs_le.1 (hn.trans hvw)
  have en : ‖(⟨v, w⟩ : ℂ)‖ = Real.sqrt (v * v + w * w) := by
    rw [Complex.norm_eq_sqrt_sq_add_sq]; congr 1; ring
  rw [en] at hn
  unfold rhoV
  rw [iv.2, iw.2]
  have N0 : 0 ≤ v * v + w * w := add_nonneg (mul_self_nonneg v) (mul_self_nonneg w)
  have a0 := mul_self_nonneg v
  have b0 := mul_self_nonneg w
  generalize rho (conesR argb) = R at *
  have lo : 10 ^ (-7 : ℤ) ≤ Real.sqrt (v * v + w * w) := by norm_num at *; linarith
  have hi : Real.sqrt (v * v + w * w) ≤ 100 := by norm_num at *; linarith
  have N1 : 1 / 10 ^ 14 ≤ v * v + w * w := by
    rw [← Real.sq_sqrt N0]
    have := pow_le_pow_left₀ (by norm_num) lo 2
    refine le_trans (by norm_num) this
  have N2 : v * v + w * w ≤ 10 ^ 4 := by
    rw [← Real.sq_sqrt N0]
    have := pow_le_pow_left₀ (Real.sqrt_nonneg _) hi 2
    refine le_trans this (by norm_num)
  have A : Ap (oa64 (cones64 L argb) * oa64 (cones64 L argb)) (v * v) (v * v * (2 / 10 ^ 16) + 1 / 10 ^ 72) := by
    refine ap_rndS (B := v * v) (a := 0) (fun h => iv.mul iv h) (by simp) (abs_of_nonneg a0).le (le_trans (by linarith) (show (10 : ℝ) ^ 4 ≤ 10 ^ 40 by norm_num)) (by linarith)
  have B : Ap (ob64 (cones64 L argb) * ob64 (cones64 L argb)) (w * w) (w * w * (2 / 10 ^ 16) + 1 / 10 ^ 72) := by
    refine ap_rndS (B := w * w) (a := 0) (fun h => iw.mul iw h) (by simp) (abs_of_nonneg b0).le (le_trans (by linarith) (show (10 : ℝ) ^ 4 ≤ 10 ^ 40 by norm_num)) (by linarith)
  have C := A.addS B (2 * (v * v + w * w)) (1 / 10 ^ 15 * (v * v + w * w)) (by
      rw [abs_of_nonneg N0]
      generalize v * v = p at *
      generalize w * w = q at *
      norm_num at *; linarith)
    (le_trans (by linarith) (show 2 * (10 : ℝ) ^ 4 ≤ 10 ^ 40 by norm_num)) (by
      generalize v * v = p at *
      generalize w * w = q at *
      norm_num at *; linarith)
  have D := (C.nr (1 / 10 ^ 15) 14 N1 (N2.trans (by norm_num)) le_rfl).sqrt (3 / 10 ^ 15) (by norm_num) (by norm_num) (by norm_num)
  exact D.to _ 7 le_rfl (le_trans (by norm_num) lo) (hi.trans (by norm_num))

/-! ### The first chroma term -/

theorem t_sharp (hS : L.Sound) (hT : L.TempOk) {argb : Int} (h : NotBlack argb) {H : ℝ} (iH : Is (hue64 L argb) H) (H0 : 0 ≤ H) (H1 : H ≤ 360) :
    Is (t64 L argb) (Dbl.val (t64 L argb)) ∧ (0.003 ≤ Dbl.val (t64 L argb) ∧ Dbl.val (t64 L argb) ≤ 10001) ∧
    |Dbl.val (t64 L argb) - p1R L H * rhoV L argb / (opU (conesV L argb) + 0.305)| ≤ 4.5 / 10 ^ 13 * (p1R L H * rhoV L argb / (opU (conesV L argb) + 0.305)) := by
  have p := p1_164 hS.pow hS.trig iH H0 H1
  have r := rho_sharp hS.pow hS.exp h
  have l3 : Nr (0.305 : 𝔻) (0.305 : ℝ) (1 / 10 ^ 15) 1 := nr_lit 1 (by norm_num) (by norm_num) (by norm_num)
  have u := (sound_cones hS.pow hS.exp h).ou.add l3 3 (9 / 10 ^ 15) (by norm_num) (by norm_num) (by norm_num) (by norm_num) (by norm_num) (by norm_num)
  have d := (p.mul r (3.991 / 10 ^ 13) (by norm_num) (by norm_num) (by norm_num)).div u (4.5 / 10 ^ 13) (by norm_num) (by norm_num) (by norm_num)
  have d : Nr (t64 L argb) _ _ _ := d
  obtain ⟨i, e⟩ := d.val
  refine ⟨i, ?_, e⟩
  have t0 := t_ge h
  obtain ⟨-, t1⟩ := t_bounds h
  obtain ⟨-, b⟩ := (nr_t hS hT h).val
  have b := abs_le.1 b
  norm_num at *
  constructor <;> linarith

end Mcu.Lemmas
