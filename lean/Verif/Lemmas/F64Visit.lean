import Verif.Lemmas.F64Matrix

/-! A colour the exact search does not discard in IEEE-754 binary64 is near the gamut, and its computed luminance is the one of its point of the ray. -/

namespace Mcu.Lemmas

open Mcu.Ieee Props Props.Binary64 MathUtils ColorUtils HctSolver Real

variable {L : Libm}

local notation "𝔻" => F64 L

theorem dbl_mul_comm (x y : Dbl) : Dbl.mul x y = Dbl.mul y x := by
  rcases x with _ | s | s | ⟨v, hv⟩ <;> rcases y with _ | t | t | ⟨w, hw⟩ <;> simp [Dbl.mul, Dbl.neg?, mul_comm, Bool.xor_comm]

/-- The computed luminance of coordinates that are not negative. -/
theorem fnj64 {p : Vec3 𝔻} {u v w : ℝ} (hu : Is p.x0 u) (hv : Is p.x1 v) (hw : Is p.x2 w) (u0 : 0 ≤ u) (v0 : 0 ≤ v) (w0 : 0 ≤ w)
    (h : Dbl.Fin (fnjOf p : 𝔻)) :
    ∃ f, Is (fnjOf p) f ∧ |f - (u * 0.2126 + v * 0.7152 + w * 0.0722)| ≤ 1 / 10 ^ 9 * (u + v + w) + 6 * μ ∧ (u = 0 → v = 0 → w = 0 → f = 0) := by
  have e : fnjOf p = p.x0 * (yFromLinrgb : Vec3 𝔻).x0 + p.x1 * (yFromLinrgb : Vec3 𝔻).x1 + p.x2 * (yFromLinrgb : Vec3 𝔻).x2 := by
    have c : ∀ x y : 𝔻, x * y = y * x := fun x y => dbl_mul_comm x y
    unfold fnjOf
    rw [c _ p.x0, c _ p.x1, c _ p.x2]
  rw [e] at h ⊢
  exact row64 hu hv hw (in_lit (m := 2126) (s := true) (e := 4) 0.2126 rfl (by norm_num [abs_le]))
    (in_lit (m := 7152) (s := true) (e := 4) 0.7152 rfl (by norm_num [abs_le]))
    (in_lit (m := 722) (s := true) (e := 4) 0.0722 rfl (by norm_num [abs_le]))
    (by norm_num [abs_le]) (by norm_num [abs_le]) (by norm_num [abs_le])
    (by rw [abs_of_nonneg u0]; linarith) (by rw [abs_of_nonneg v0]; linarith) (by rw [abs_of_nonneg w0]; linarith) h

/-- Finite luminances have finite coordinates. -/
theorem fin_coords {p : Vec3 𝔻} (h : Dbl.Fin (fnjOf p : 𝔻)) : ∀ i, Dbl.Fin (p.get i) := by
  obtain ⟨f2, f3⟩ := fin_add h
  obtain ⟨f4, f5⟩ := fin_add f2
  intro i
  fin_cases i
  · exact (fin_mul' f4).2
  · exact (fin_mul' f5).2
  · exact (fin_mul' f3).2

/-- The stimuli behind a colour that is not discarded. -/
theorem passed_stimuli {X Y Z : 𝔻} (hp : Passed (matrixMultiply ⟨X, Y, Z⟩ linrgbFromScaledDiscount : Vec3 𝔻))
    (hf : Dbl.Fin (fnjOf (matrixMultiply ⟨X, Y, Z⟩ linrgbFromScaledDiscount : Vec3 𝔻) : 𝔻)) :
    ∃ x y z S u v w f, Is X x ∧ Is Y y ∧ Is Z z ∧ IsV (matrixMultiply ⟨X, Y, Z⟩ linrgbFromScaledDiscount : Vec3 𝔻) ![u, v, w] ∧
      Is (fnjOf (matrixMultiply ⟨X, Y, Z⟩ linrgbFromScaledDiscount : Vec3 𝔻)) f ∧ 0 < f ∧
      0 ≤ u ∧ 0 ≤ v ∧ 0 ≤ w ∧ 0 < S ∧ x ≤ S ∧ y ≤ S ∧ z ≤ S ∧ 0.05 * S ≤ x ∧ 0.05 * S ≤ y ∧ 0.05 * S ≤ z ∧
      |u - rowR x y z| ≤ 1 / 10 ^ 9 * S + 6 * μ ∧ |v - rowG x y z| ≤ 1 / 10 ^ 9 * S + 6 * μ ∧ |w - rowB x y z| ≤ 1 / 10 ^ 9 * S + 6 * μ ∧
      |f - (u * 0.2126 + v * 0.7152 + w * 0.0722)| ≤ 1 / 10 ^ 9 * (u + v + w) + 6 * μ := by
  have fc := fin_coords hf
  have f0 : Dbl.Fin (X * _ + Y * _ + Z * _ : 𝔻) := fc 0
  obtain ⟨fa, fz⟩ := fin_add f0
  obtain ⟨fx, fy⟩ := fin_add fa
  obtain ⟨x, iX⟩ : ∃ x, Is X x := ⟨_, (fin_mul' fx).1, rfl⟩
  obtain ⟨y, iY⟩ : ∃ x, Is Y x := ⟨_, (fin_mul' fy).1, rfl⟩
  obtain ⟨z, iZ⟩ : ∃ x, Is Z x := ⟨_, (fin_mul' fz).1, rfl⟩
  set S := max |x| (max |y| |z|) with hS
  have bx : |x| ≤ S := le_max_left _ _
  have by' : |y| ≤ S := (le_max_left _ _).trans (le_max_right _ _)
  have bz : |z| ≤ S := (le_max_right _ _).trans (le_max_right _ _)
  have hm : |x| = S ∨ |y| = S ∨ |z| = S := by
    rcases max_choice |x| (max |y| |z|) with h | h
    · exact .inl h.symm
    · rcases max_choice |y| |z| with h' | h'
      · exact .inr (.inl (by rw [hS, h, h']))
      · exact .inr (.inr (by rw [hS, h, h']))
  clear_value S
  obtain ⟨u, v, w, iu, iv, iw, eu, ev, ew, zero⟩ := matrix64 iX iY iZ bx by' bz fc
  obtain ⟨hn, hl⟩ := hp
  push Not at hn
  obtain ⟨n0, n1, n2⟩ := hn
  rw [iu.lt_iff l0', not_lt] at n0
  rw [iv.lt_iff l0', not_lt] at n1
  rw [iw.lt_iff l0', not_lt] at n2
  obtain ⟨f, jf, ef, zf⟩ := fnj64 iu iv iw n0 n1 n2 hf
  rw [jf.le_iff l0', not_le] at hl
  have S0 : 0 < S := by
    rcases ((abs_nonneg x).trans bx).lt_or_eq with h | h
    · exact h
    · exfalso
      rw [← h] at bx by' bz
      obtain ⟨z1, z2, z3⟩ := zero (abs_nonpos_iff.1 bx) (abs_nonpos_iff.1 by') (abs_nonpos_iff.1 bz)
      exact hl.ne' (zf z1 z2 z3)
  have hμ : 2 * μ ≤ S := by
    rcases hm with h | h | h <;> rw [← h]
    · exact rep_min iX.rep (fun e => by rw [e, abs_zero] at h; linarith)
    · exact rep_min iY.rep (fun e => by rw [e, abs_zero] at h; linarith)
    · exact rep_min iZ.rep (fun e => by rw [e, abs_zero] at h; linarith)
  have rough := stimuli_rough S0 bx by' bz hm (by rw [abs_le] at eu; norm_num at *; linarith [eu.2])
    (by rw [abs_le] at ev; norm_num at *; linarith [ev.2]) (by rw [abs_le] at ew; norm_num at *; linarith [ew.2])
  refine ⟨x, y, z, S, u, v, w, f, iX, iY, iZ, ?_, jf, hl, n0, n1, n2, S0, (le_abs_self _).trans bx, (le_abs_self _).trans by', (le_abs_self _).trans bz,
    rough.1, rough.2.1, rough.2.2, eu, ev, ew, ef⟩
  intro i
  fin_cases i
  · exact iu
  · exact iv
  · exact iw

/-- A quotient of finite numbers whose numerator is not 0 is finite only for a denominator that is not 0. -/
theorem div_ne {x y : 𝔻} {a b : ℝ} (hx : Is x a) (ha : a ≠ 0) (hy : Is y b) (h : Dbl.Fin (x / y)) : b ≠ 0 := by
  rintro rfl
  obtain ⟨f1, rfl⟩ := hx
  obtain ⟨f2, e⟩ := hy
  change Dbl.Fin (Dbl.div x y) at h
  rcases y with _ | t | t | ⟨w, hw⟩
  · exact f2.elim
  · exact f2.elim
  · rcases x with _ | s | s | ⟨v, hv⟩
    · exact f1.elim
    · exact f1.elim
    · exact ha rfl
    · exact h.elim
  · exact hw.2.1 e

theorem unadapt_near {A α : ℝ} (h0 : 0 < α) (h1 : α < 60) (h : |A - α| ≤ 3 / 10 ^ 7 * α) :
    (1 - 12 / 10 ^ 7) * unadapt α ≤ unadapt A ∧ unadapt A ≤ (1 + 12 / 10 ^ 7) * unadapt α := by
  rw [abs_le] at h
  have A0 : 0 < A := by norm_num at h; linarith
  have A1 : A < 61 := by norm_num at h; linarith
  have d1 : 0 < 400 - A := by linarith
  have d2 : 0 < 400 - α := by linarith
  constructor
  · have := unadapt_ratio (a := A) (b := α) (k := 1 + 4 / 10 ^ 7) (m := 1 + 1 / 10 ^ 6) (by norm_num) A0 h0 (by linarith) (by linarith) (by norm_num) (by
      rw [← mul_div_assoc, div_le_div_iff₀ d2 d1]
      norm_num at *; nlinarith) (by norm_num)
    have p := unadapt_pos A0 (by linarith)
    norm_num at *; linarith
  · have := unadapt_ratio (a := α) (b := A) (k := 1 + 4 / 10 ^ 7) (m := 1 + 1 / 10 ^ 6) (by norm_num) h0 A0 (by linarith) (by linarith) (by norm_num) (by
      rw [← mul_div_assoc, div_le_div_iff₀ d1 d2]
      norm_num at *; nlinarith) (by norm_num)
    have p := unadapt_pos h0 (by linarith)
    norm_num at *; linarith

theorem fine_rows {x y z X Y Z S u v w m : ℝ} (hx : |x - X| ≤ 1 / 10 ^ 11 * X) (hy : |y - Y| ≤ 1 / 10 ^ 11 * Y) (hz : |z - Z| ≤ 1 / 10 ^ 11 * Z)
    (X0 : 0 < X) (Y0 : 0 < Y) (Z0 : 0 < Z) (xS : x ≤ S) (yS : y ≤ S) (zS : z ≤ S) (h5 : 0.05 * S ≤ y) (hm : m ≤ 1 / 10 ^ 9 * S)
    (u0 : 0 ≤ u) (v0 : 0 ≤ v) (w0 : 0 ≤ w) (hu : |u - rowR x y z| ≤ 1 / 10 ^ 9 * S + m) (hv : |v - rowG x y z| ≤ 1 / 10 ^ 9 * S + m)
    (hw : |w - rowB x y z| ≤ 1 / 10 ^ 9 * S + m) :
    -(1 / 10 ^ 4 * Y) ≤ rowR X Y Z ∧ -(1 / 10 ^ 4 * Y) ≤ rowG X Y Z ∧ -(1 / 10 ^ 4 * Y) ≤ rowB X Y Z := by
  rw [abs_le] at *
  unfold rowR at *
  unfold rowG at *
  unfold rowB at *
  norm_num at *
  refine ⟨?_, ?_, ?_⟩ <;> linarith

theorem lum_fine {x y z X Y Z A B C S u v w m f : ℝ} (hx : |x - X| ≤ 1 / 10 ^ 11 * X) (hy : |y - Y| ≤ 1 / 10 ^ 11 * Y) (hz : |z - Z| ≤ 1 / 10 ^ 11 * Z)
    (X0 : 0 < X) (Y0 : 0 < Y) (Z0 : 0 < Z) (xS : x ≤ S) (yS : y ≤ S) (zS : z ≤ S) (h5 : 0.05 * S ≤ y) (hm : m ≤ 1 / 10 ^ 9 * S)
    (hu : |u - rowR x y z| ≤ 1 / 10 ^ 9 * S + m) (hv : |v - rowG x y z| ≤ 1 / 10 ^ 9 * S + m)
    (hw : |w - rowB x y z| ≤ 1 / 10 ^ 9 * S + m)
    (hf : |f - (u * 0.2126 + v * 0.7152 + w * 0.0722)| ≤ 1 / 10 ^ 9 * (u + v + w) + m)
    (r1 : 0.8022 * Y ≤ X) (r2 : X ≤ 2.0386 * Y) (r3 : 0.1721 * Y ≤ Z) (r4 : Z ≤ 10.085 * Y)
    (a1 : (1 - 12 / 10 ^ 7) * X ≤ A) (a2 : A ≤ (1 + 12 / 10 ^ 7) * X) (b1 : (1 - 12 / 10 ^ 7) * Y ≤ B) (b2 : B ≤ (1 + 12 / 10 ^ 7) * Y)
    (c1 : (1 - 12 / 10 ^ 7) * Z ≤ C) (c2 : C ≤ (1 + 12 / 10 ^ 7) * Z) :
    |f - (wR * A + wG * B - wB * C)| ≤ 1 / 10 ^ 5 * (wR * A + wG * B - wB * C) ∧ C ≤ 10.09 * B := by
  rw [abs_le] at *
  unfold rowR at *
  unfold rowG at *
  unfold rowB at *
  unfold wR wG wB
  norm_num at *
  refine ⟨⟨?_, ?_⟩, ?_⟩ <;> linarith

theorem near_of_inside {r g b r' g' b' : ℝ} (h : Inside r g b) (hr : |r' - r| ≤ 1 / 10 ^ 7 * g) (hg : |g' - g| ≤ 1 / 10 ^ 7 * g)
    (hb : |b' - b| ≤ 1 / 10 ^ 7 * g) : NearGamut r' g' b' ∧ |r' - r| ≤ 3 / 10 ^ 7 * r ∧ |g' - g| ≤ 3 / 10 ^ 7 * g ∧ |b' - b| ≤ 3 / 10 ^ 7 * b := by
  obtain ⟨h1, h2, h3, h4, h5⟩ := h
  refine ⟨⟨?_, ?_, ?_, ?_, ?_⟩, hr.trans ?_, hg.trans ?_, hb.trans ?_⟩
  all_goals (try rw [abs_le] at *)
  all_goals (norm_num at *; linarith)

/-- What is known of a colour the exact search does not discard: `j` is the lightness, `f` the computed luminance. -/
structure Visit (hr C j : 𝔻) (a f : ℝ) : Prop where
  lightness : Is j a
  lum : Is (fnjOf (linrgbOfJ hr C j)) f
  pos : 0 < f
  coords : ∀ i, Dbl.Fin ((linrgbOfJ hr C j).get i)
  den : 0 < (ray64 hr C).den (log a)
  near : NearGamut ((ray64 hr C).Ar (log a)) ((ray64 hr C).Ag (log a)) ((ray64 hr C).Ab (log a))
  close : |f - (ray64 hr C).lum wR wG wB (log a)| ≤ 1 / 10 ^ 5 * (ray64 hr C).lum wR wG wB (log a)
  blue : unadapt ((ray64 hr C).Ab (log a)) ≤ 10.09 * unadapt ((ray64 hr C).Ag (log a))

theorem setting_ne {hr C : 𝔻} (h : Setting hr C) : (C == (0.0 : 𝔻)) = false := by
  have : Is C (Dbl.val C) := ⟨h.fin, rfl⟩
  rw [Bool.eq_false_iff, Ne, this.beq_iff l0']
  have := h.c0
  norm_num at this
  intro h
  linarith

theorem visit64 (hL : L.PowOk) (hT : L.PowTail) (hE : L.ExpOk) {hr C j : 𝔻} (h : Setting hr C) {a : ℝ} (hj : Is j a) (h0 : 0.002 ≤ a)
    (h1 : a ≤ 148.4) (hp : Passed (linrgbOfJ hr C j)) (hf : Dbl.Fin (fnjOf (linrgbOfJ hr C j) : 𝔻)) : ∃ f, Visit hr C j a f := by
  have hc := setting_ne h
  have hj0 : (j == (0.0 : 𝔻)) = false := by
    rw [Bool.eq_false_iff, Ne, hj.beq_iff l0']
    norm_num at h0
    intro h
    linarith
  have e := linrgb64_eq (hr := hr) hc hj0
  rw [e] at hp hf
  have h1' : a ≤ 150 := by norm_num at h1; linarith
  obtain ⟨x, y, z, S, u, v, w, f, ix, iy, iz, ic, jf, f0, u0, v0, w0, S0, xS, yS, zS, x5, y5, z5, hu, hv, hw, hfl⟩ := passed_stimuli hp hf
  rw [← e] at ic jf
  obtain ⟨α, iα, α0, α4, cα⟩ := ica64 hL hT ix (by norm_num at x5; linarith)
  obtain ⟨β, iβ, β0, β4, cβ⟩ := ica64 hL hT iy (by norm_num at y5; linarith)
  obtain ⟨χ, iχ, χ0, χ4, cχ⟩ := ica64 hL hT iz (by norm_num at z5; linarith)
  have hok := h.ok hL hE
  obtain ⟨P1, P2⟩ := P_range hL hE h h0 h1
  obtain ⟨T1, T2⟩ := T_range hL h h0 h1'
  obtain ⟨ϖ, iϖ, hϖ⟩ := rl_p2 hL hE h hj h0 h1
  obtain ⟨N, iN, hN⟩ := rl_num (rl_p2 hL hE h hj h0 h1) (rl_t hL h hj h0 h1') P1 P2 T1 T2
  obtain ⟨D, iD, hD⟩ := den64 (p := p1Of hr) h.p1 (rl_t hL h hj h0 h1') h.cos h.sin h.c_le h.s_le h.p1_lo h.p1_hi (lt_of_lt_of_le (by norm_num) T1) T2
  have i1403 : Is (1403.0 : 𝔻) 1403 := by simpa using lit (L := L) 14030 1 true 1403 (by norm_num) (by norm_num)
  have fγ : Dbl.Fin (gammaOf hr C j) := (fin_mul' (fin_mul' (fin_add (fin_div' i1403 (by norm_num) iα.1)).2).2).1
  have N0 : N ≠ 0 := by
    rw [abs_le] at hN
    have : 0 < 23 * ((ray64 hr C).P (log a) + 0.305) * (ray64 hr C).T (log a) := by
      have : (0:ℝ) < (ray64 hr C).T (log a) := lt_of_lt_of_le (by norm_num) T1
      have : (0:ℝ) < (ray64 hr C).P (log a) := lt_of_lt_of_le (by norm_num) P1
      positivity
    intro h
    rw [h] at hN
    norm_num at *; linarith
  have D0 := div_ne iN N0 iD fγ
  obtain ⟨N', iN', iγ⟩ := inv_div iD D0 fγ
  rw [iN'.unique iN] at iγ
  have hγ := rnd_any (N / D)
  obtain ⟨r, g, b, ir, ig, ib, er, eg, eb⟩ := responses64 iϖ h.cos h.sin h.c_le h.s_le (by rw [abs_le] at hϖ; norm_num at *; linarith) iγ iα.1 iβ.1 iχ.1
  rw [ir.unique iα] at er
  rw [ig.unique iβ] at eg
  rw [ib.unique iχ] at eb
  have Sbig : 4 / 10 ^ 12 < S := by
    by_contra hs
    push Not at hs
    have small {x α : ℝ} (xS : x ≤ S) (α0 : 0 < α) (α4 : α < 400) (c : |x - unadapt α| ≤ 1 / 10 ^ 11 * unadapt α ∨ (α ≤ 1 / 10 ^ 4 ∧ x ≤ 1 / 10 ^ 13)) : α ≤ 3 / 10 ^ 4 := by
      rcases c with c | c
      · refine response_small α4 ?_
        have := unadapt_pos α0 α4
        rw [abs_le] at c
        norm_num at *; linarith
      · exact c.1.trans (by norm_num)
    have := achromatic_small (by rw [abs_le] at hϖ; norm_num at *; linarith) h.unit α0 β0 χ0 (small xS α0 α4 cα) (small yS β0 β4 cβ) (small zS χ0 χ4 cχ) er eg eb
    rw [abs_le] at hϖ; norm_num at *; linarith
  have dα := cα.resolve_right (fun c => by norm_num at *; linarith)
  have dβ := cβ.resolve_right (fun c => by norm_num at *; linarith)
  have dχ := cχ.resolve_right (fun c => by norm_num at *; linarith)
  have X0 := unadapt_pos α0 α4
  have Y0 := unadapt_pos β0 β4
  have Z0 := unadapt_pos χ0 χ4
  have hm : 6 * μ ≤ 1 / 10 ^ 9 * S := by
    have := μ_small
    generalize μ = m at *
    norm_num at *; linarith
  obtain ⟨q1, q2, q3⟩ := fine_rows dα dβ dχ X0 Y0 Z0 xS yS zS y5 hm u0 v0 w0 hu hv hw
  obtain ⟨s1, s2, s3, s4⟩ := stimuli_fine Y0 q1 q2 q3
  have ins := inside_of_stimuli α0 α4 β0 β4 χ0 χ4 s1 s2 s3 s4
  obtain ⟨d0, br, bg, bb⟩ := back hok ins h.c_le h.s_le h.unit P1 hϖ hD hN D0 hγ er eg eb
  obtain ⟨near, nr, ng, nb⟩ := near_of_inside ins br bg bb
  have ach := Ray.achromatic_eq (R := ray64 hr C) (log a)
  unfold achromatic at ach
  obtain ⟨n1, n2, n3, n4, n5⟩ := id near
  have k1 := unadapt_near α0 (by rw [abs_le] at nr; norm_num at *; linarith) nr
  have k2 := unadapt_near β0 (by rw [abs_le] at ng; norm_num at *; linarith) ng
  have k3 := unadapt_near χ0 (by rw [abs_le] at nb; norm_num at *; linarith) nb
  obtain ⟨l1, l2⟩ := lum_fine dα dβ dχ X0 Y0 Z0 xS yS zS y5 hm hu hv hw hfl s1 s2 s3 s4 k1.1 k1.2 k2.1 k2.2 k3.1 k3.2
  exact ⟨f, hj, jf, f0, fun i => (ic i).1, Ray.den_pos hok near d0, near, l1, l2⟩

end Mcu.Lemmas
