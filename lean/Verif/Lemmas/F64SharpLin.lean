import Verif.Lemmas.F64Sharp
import Verif.Lemmas.F64Visit
import Verif.Lemmas.CoverFacts

/-! The colours the exact search looks at in IEEE-754 binary64: the components and the luminance, with sharp bounds on the
rounding errors. -/

namespace Mcu.Lemmas

open Mcu.Ieee Props Props.Binary64 MathUtils ColorUtils HctSolver Real

variable {L : Libm}

local notation "𝔻" => F64 L

theorem unadapt_tiny {A α ε : ℝ} (A0 : 0 < A) (A1 : A ≤ 39) (h : |α - A| ≤ ε * A) (hε : ε ≤ 1 / 10 ^ 6) :
    |unadapt α - unadapt A| ≤ 2.67 * ε * unadapt A := by
  have ε0 : 0 ≤ ε := by
    by_contra hh
    push Not at hh
    have := (abs_nonneg _).trans h
    nlinarith
  have hA : α ≤ 40 := by
    have h1 := (abs_le.1 h).2
    have : ε * A ≤ 1 / 10 ^ 6 * A := mul_le_mul_of_nonneg_right hε A0.le
    norm_num at *; linarith
  have d1 : 0 < 400 - α := by linarith
  have d2 : 0 < 400 - A := by linarith
  have hf : 0 < 27.13 * A / (400 - A) := by positivity
  have e : 27.13 * α / (400 - α) - 27.13 * A / (400 - A) = (α - A) * (400 / (A * (400 - α))) * (27.13 * A / (400 - A)) := by
    field_simp; ring
  have b : |27.13 * α / (400 - α) - 27.13 * A / (400 - A)| ≤ 1.112 * ε * (27.13 * A / (400 - A)) := by
    rw [e, abs_mul, abs_of_pos hf]
    refine mul_le_mul_of_nonneg_right ?_ hf.le
    rw [abs_mul, abs_of_pos (show 0 < 400 / (A * (400 - α)) by positivity)]
    have k : 400 / (A * (400 - α)) ≤ 1.112 / A := by
      rw [div_le_div_iff₀ (by positivity) A0]
      have : 400 ≤ 1.112 * (400 - α) := by norm_num; linarith
      nlinarith
    calc |α - A| * (400 / (A * (400 - α))) ≤ ε * A * (1.112 / A) := mul_le_mul h k (by positivity) (by positivity)
      _ = 1.112 * ε := by field_simp
  have := rpow_tiny (w := 1 / 0.42) (e := 1 / 0.42) (δ := 0) (M := |log (27.13 * A / (400 - A))|) (η := 2.6503 * ε * 1.001) hf b (by simp) (by norm_num)
    (by norm_num at *; linarith) le_rfl (by norm_num; linarith) (by norm_num at *; linarith)
  unfold unadapt
  refine this.trans (mul_le_mul_of_nonneg_right ?_ (by positivity))
  norm_num; linarith

/-- The power in the inverse of the compression. -/
theorem unpow_sharp (hL : L.PowOk) {x : 𝔻} {α : ℝ} (hx : Is x α) (h0 : 0.0008 ≤ α) (h1 : α ≤ 60) :
    signum x = 1 ∧ Rl (Fl.powf (baseOf (Fl.abs x)) (1.0 / 0.42)) (unadapt α) (2.7 / 10 ^ 13) ∧ 1 / 10 ^ 48 ≤ unadapt α ∧ unadapt α ≤ 10 ^ 119 := by
  have α0 : 0 < α := lt_of_lt_of_le (by norm_num) h0
  have hs : signum x = 1 := by
    simp only [signum]
    rw [if_neg (by rw [hx.lt_iff l0']; exact not_lt.2 α0.le), if_neg (by rw [hx.beq_iff l0']; exact α0.ne')]
  have ha : Is (Fl.abs x) α := by have := hx.abs; rwa [abs_of_pos α0] at this
  have i4 : Is (400.0 : 𝔻) 400 := by simpa using lit (L := L) 4000 1 true 400 (by norm_num) (by norm_num)
  refine ⟨hs, ?_⟩
  have dp : 0 < 400 - α := by linarith
  have rd : Rl (400.0 - Fl.abs x) (400 - α) (1 / 10 ^ 15) := by
    refine rl_rnd (w := 400 - α) (ε := 0) (fun h => i4.sub ha h) (by simp) ?_ ?_ le_rfl (by norm_num) (by norm_num)
    · norm_num; linarith
    · norm_num; linarith
  have rm := (rl_lit (L := L) (m := 2713) (s := true) (e := 2) 27.13 (by norm_num) (by norm_num) (by norm_num)).mul ha.rl (by norm_num) α0 (by norm_num) le_rfl
    (by norm_num at *; linarith) (by norm_num at *; linarith) (by norm_num) (2 / 10 ^ 15) (by norm_num)
  have b0 : 5 / 10 ^ 5 ≤ 27.13 * α / (400 - α) := by rw [le_div_iff₀ dp]; norm_num at *; linarith
  have b1 : 27.13 * α / (400 - α) ≤ 5 := by rw [div_le_iff₀ dp]; norm_num at *; linarith
  have rb := rm.div rd (by positivity) dp (by norm_num) (by norm_num) (le_trans (by norm_num) b0) (b1.trans (by norm_num)) (by norm_num) (5 / 10 ^ 15) (by norm_num)
  have hb : baseOf (Fl.abs x) = 27.13 * Fl.abs x / (400.0 - Fl.abs x) := by
    obtain ⟨w, iw, hw⟩ := rb
    have hw := abs_le.1 hw
    have wp : 0 < w := by norm_num at *; linarith
    exact dbl_fmax_right _ _ (fin_num (l0' (L := L)).1) (fin_num iw.1) (by
      have := (l0' (L := L)).lt_iff iw
      exact this.2 wp)
  rw [hb]
  have hexp : Ap (1.0 / 0.42 : 𝔻) (1 / 0.42) (1.2 / 10 ^ 14) := by
    obtain ⟨v, iv, hv⟩ := rl_exponent (L := L)
    exact ⟨v, iv, hv.trans (by norm_num)⟩
  have rp := rb.powT hL hexp (by norm_num) (le_trans (by norm_num) b0) (b1.trans (by norm_num)) (by norm_num) (by norm_num)
    (log_within 5 (le_trans (by norm_num) b0) (b1.trans (by norm_num))) (2.7 / 10 ^ 13) (by norm_num) (by norm_num)
  have u0 := unadapt_pos α0 (by linarith)
  have e : (27.13 * α / (400 - α)) ^ (1 / 0.42 : ℝ) = unadapt α := rfl
  rw [e] at rp
  have l : 1 / 10 ^ 48 ≤ unadapt α := by
    rw [← e, show (1 / 0.42 : ℝ) = ((50 : ℕ) : ℝ) / ((21 : ℕ) : ℝ) by norm_num]
    apply le_rpow_of_pow_le (by norm_num) (by norm_num) (by positivity)
    refine le_trans ?_ (pow_le_pow_left₀ (by norm_num) b0 50)
    rw [div_pow, div_pow, ← pow_mul, ← pow_mul, one_pow, div_le_div_iff₀ (by positivity) (by positivity)]
    have : (10 : ℝ) ^ (5 * 50) ≤ 10 ^ (48 * 21) := pow_le_pow_right₀ (by norm_num) (by norm_num)
    have h5 : (1 : ℝ) ≤ 5 ^ 50 := by norm_num
    nlinarith [show (0 : ℝ) ≤ 10 ^ (48 * 21) by positivity]
  have u : unadapt α ≤ 10 ^ 119 := by
    rw [← e]
    calc (27.13 * α / (400 - α)) ^ (1 / 0.42 : ℝ) ≤ 5 ^ (1 / 0.42 : ℝ) := rpow_le_rpow (by positivity) b1 (by norm_num)
      _ ≤ 5 ^ (3 : ℝ) := rpow_le_rpow_of_exponent_le (by norm_num) (by norm_num)
      _ = 5 ^ (3 : ℕ) := by norm_num
      _ ≤ _ := by norm_num
  exact ⟨rp, l, u⟩

theorem ica_sharp (hL : L.PowOk) {x : 𝔻} {α : ℝ} (hx : Is x α) (h0 : 0.0008 ≤ α) (h1 : α ≤ 60) :
    Rl (inverseChromaticAdaptation x) (unadapt α) (3 / 10 ^ 13) := by
  obtain ⟨hs, rp, l, u⟩ := unpow_sharp hL hx h0 h1
  have i1 : Is (Fl.ofInt 1 : 𝔻) 1 := by simpa using is_ofInt (L := L) (n := 1) (by norm_num)
  rw [ica_eq, hs]
  have := i1.rl.mul rp (by norm_num) (lt_of_lt_of_le (by norm_num) l) le_rfl (by norm_num) (by rw [one_mul]; exact l) (by rw [one_mul]; exact u) (by norm_num) (3 / 10 ^ 13) (by norm_num)
  rwa [one_mul] at this

theorem stim_sharp (hL : L.PowOk) {x : 𝔻} {A ε : ℝ} (hx : Rl x A ε) (h0 : 0.0009 ≤ A) (h1 : A ≤ 39) (hε : ε ≤ 1 / 10 ^ 9) :
    Rl (inverseChromaticAdaptation x) (unadapt A) (2.68 * ε + 3.01 / 10 ^ 13) := by
  have A0 : 0 < A := lt_of_lt_of_le (by norm_num) h0
  obtain ⟨α, iα, hα⟩ := hx
  have ε0 : 0 ≤ ε := by
    by_contra hh
    push Not at hh
    have := (abs_nonneg _).trans hα
    nlinarith
  have hα' := abs_le.1 hα
  have k : ε * A ≤ 1 / 10 ^ 9 * A := mul_le_mul_of_nonneg_right hε A0.le
  obtain ⟨w, iw, hw⟩ := ica_sharp hL iα (by norm_num at *; linarith) (by norm_num at *; linarith)
  refine ⟨w, iw, ?_⟩
  have t := unadapt_tiny A0 h1 hα (hε.trans (by norm_num))
  have u0 := unadapt_pos A0 (by linarith)
  have t' := abs_le.1 t
  have := abs_add_le (w - unadapt α) (unadapt α - unadapt A)
  rw [sub_add_sub_cancel] at this
  have h5 : unadapt α ≤ 1.001 * unadapt A := by
    have : 2.67 * ε * unadapt A ≤ 0.001 * unadapt A := mul_le_mul_of_nonneg_right (by norm_num at *; linarith) u0.le
    norm_num at *; linarith
  refine this.trans ?_
  have h6 : 3 / 10 ^ 13 * unadapt α ≤ 3.01 / 10 ^ 13 * unadapt A := by norm_num at *; linarith
  have h7 : 2.67 * ε * unadapt A ≤ 2.68 * ε * unadapt A := mul_le_mul_of_nonneg_right (by linarith) u0.le
  linarith

/-- A sum of three products with literals. -/
theorem row_sharp {X Y Z m0 m1 m2 : 𝔻} {x y z c0 c1 c2 ε : ℝ} (hX : Rl X x ε) (hY : Rl Y y ε) (hZ : Rl Z z ε) (x0 : 0 ≤ x) (y0 : 0 ≤ y) (z0 : 0 ≤ z)
    (h0 : ∃ w, Is m0 w ∧ |w - c0| ≤ 1 / 10 ^ 15 * |c0|) (h1 : ∃ w, Is m1 w ∧ |w - c1| ≤ 1 / 10 ^ 15 * |c1|) (h2 : ∃ w, Is m2 w ∧ |w - c2| ≤ 1 / 10 ^ 15 * |c2|)
    (e0 : 0 ≤ ε) (e1 : ε ≤ 1 / 1000) (T0 : 1 / 10 ^ 40 ≤ |c0| * x + |c1| * y + |c2| * z) (T1 : |c0| * x + |c1| * y + |c2| * z ≤ 10 ^ 40) :
    Ap (X * m0 + Y * m1 + Z * m2) (c0 * x + c1 * y + c2 * z) ((ε + 5 / 10 ^ 15) * (|c0| * x + |c1| * y + |c2| * z)) := by
  obtain ⟨x', ix, hx⟩ := hX
  obtain ⟨y', iy, hy⟩ := hY
  obtain ⟨z', iz, hz⟩ := hZ
  obtain ⟨w0, i0, k0⟩ := h0
  obtain ⟨w1, i1, k1⟩ := h1
  obtain ⟨w2, i2, k2⟩ := h2
  have := comb3 (L := L) (m1 := X * m0) (m2 := Y * m1) (m3 := Z * m2) (p := X * m0 + Y * m1) (q := X * m0 + Y * m1 + Z * m2) 1 (by norm_num)
    (fun h => by rw [mul_comm] at h ⊢; exact ix.mul i0 h) (fun h => by rw [mul_comm] at h ⊢; exact iy.mul i1 h) (fun h => by rw [mul_comm] at h ⊢; exact iz.mul i2 h)
    hx hy hz k0 k1 k2 x0 y0 z0 e0 e1 T0 T1 (fun a b ha hb h => ha.add hb h) (fun w s hw hs h => by rw [one_mul] at h ⊢; exact hs.add hw h)
  rwa [one_mul] at this

theorem lit_pos {m e : ℕ} {s : Bool} (h0 : 1 / 10 ^ 4 ≤ (OfScientific.ofScientific m s e : ℝ)) (h1 : (OfScientific.ofScientific m s e : ℝ) ≤ 10 ^ 4) :
    ∃ w, Is (OfScientific.ofScientific m s e : 𝔻) w ∧ |w - (OfScientific.ofScientific m s e : ℝ)| ≤ 1 / 10 ^ 15 * |(OfScientific.ofScientific m s e : ℝ)| := by
  have n := nr_lit (L := L) (m := m) (s := s) (e := e) 4 h0 h1 (by norm_num)
  obtain ⟨w, iw, hw⟩ := n.rl
  exact ⟨w, iw, by rw [abs_of_pos n.pos]; exact hw⟩

theorem lit_neg {x : 𝔻} {t : ℝ} (h : ∃ w, Is x w ∧ |w - t| ≤ 1 / 10 ^ 15 * |t|) : ∃ w, Is (-x) w ∧ |w - (-t)| ≤ 1 / 10 ^ 15 * |(-t)| := by
  obtain ⟨w, iw, hw⟩ := h
  exact ⟨-w, iw.neg, by rw [show -w - -t = -(w - t) by ring, abs_neg, abs_neg]; exact hw⟩

/-- The computed components of a colour of the ray. -/
theorem Fine.lin (hL : L.PowOk) (hE : L.ExpOk) {hr C j : 𝔻} (h : Fine hr C) {a : ℝ} (hj : Is j a) (h0 : 0.002 ≤ a) (h1 : a ≤ 148.4) (hh : (ray64 hr C).Inside (log a) 0.002) :
    Ap (linrgbOfJ hr C j).x0 ((ray64 hr C).ch0 (log a)) (1e-10 * (ray64 hr C).Y (log a)) ∧
    Ap (linrgbOfJ hr C j).x1 ((ray64 hr C).ch1 (log a)) (1e-10 * (ray64 hr C).Y (log a)) ∧
    Ap (linrgbOfJ hr C j).x2 ((ray64 hr C).ch2 (log a)) (1e-10 * (ray64 hr C).Y (log a)) := by
  have hc := setting_ne h.toSetting
  have hj0 : (j == (0.0 : 𝔻)) = false := by
    rw [Bool.eq_false_iff, Ne, hj.beq_iff l0']
    norm_num at h0; linarith
  rw [linrgb64_eq hc hj0]
  obtain ⟨r1, r2, r3⟩ := h.resp hL hE hj h0 h1 hh.toHere
  obtain ⟨p0, -⟩ := P_range hL hE h.toSetting h0 h1
  obtain ⟨q0, q1, -, -, -⟩ := hh.toHere.parts
  obtain ⟨n0, n1, n2, n3, n4⟩ := hh.near
  have u1 := hh.near.r_small hh.ach40
  have u2 := hh.near.g_small hh.ach40
  have u3 := hh.near.b_small hh.ach40
  have l2 : 0.002 ≤ (ray64 hr C).Ag (log a) := by norm_num at *; linarith
  have s1 := (stim_sharp hL r1 (by norm_num at *; linarith) (by norm_num at *; linarith) (by norm_num)).mono hh.sr.le (show _ ≤ 6.4 / 10 ^ 12 by norm_num)
  have s2 := (stim_sharp hL r2 (by norm_num at *; linarith) (by norm_num at *; linarith) (by norm_num)).mono hh.sg.le (show _ ≤ 6.4 / 10 ^ 12 by norm_num)
  have s3 := (stim_sharp hL r3 (by norm_num at *; linarith) (by norm_num at *; linarith) (by norm_num)).mono hh.sb.le (show _ ≤ 6.4 / 10 ^ 12 by norm_num)
  have g1 := hh.green (by norm_num)
  have st := hh.stimuli (by norm_num)
  have f0 := hh.g0; have f1 := hh.g1; have f2 := hh.g2; have f3 := hh.lo; have f4 := hh.hi
  have x0 := hh.sr; have y0 := hh.sg; have z0 := hh.sb
  have key : |1373.2198709594231| * unadapt ((ray64 hr C).Ar (log a)) + |-1100.4251190754821| * unadapt ((ray64 hr C).Ag (log a)) + |-7.278681089101213| * unadapt ((ray64 hr C).Ab (log a)) ≤ 15 * (ray64 hr C).Y (log a) ∧
      |-271.815969077903| * unadapt ((ray64 hr C).Ar (log a)) + |559.6580465940733| * unadapt ((ray64 hr C).Ag (log a)) + |-32.46047482791194| * unadapt ((ray64 hr C).Ab (log a)) ≤ 15 * (ray64 hr C).Y (log a) ∧
      |1.9622899599665666| * unadapt ((ray64 hr C).Ar (log a)) + |-57.173814538844006| * unadapt ((ray64 hr C).Ag (log a)) + |308.7233197812385| * unadapt ((ray64 hr C).Ab (log a)) ≤ 15 * (ray64 hr C).Y (log a) := by
    rw [Ray.Y_eq] at *
    unfold Ray.ch0 Ray.ch1 Ray.ch2 Ray.lum at *
    simp only [abs_neg]
    rw [abs_of_pos (by norm_num), abs_of_pos (by norm_num), abs_of_pos (by norm_num), abs_of_pos (by norm_num), abs_of_pos (by norm_num), abs_of_pos (by norm_num), abs_of_pos (by norm_num), abs_of_pos (by norm_num), abs_of_pos (by norm_num)]
    generalize unadapt ((ray64 hr C).Ar (log a)) = x at *
    generalize unadapt ((ray64 hr C).Ag (log a)) = y at *
    generalize unadapt ((ray64 hr C).Ab (log a)) = z at *
    clear s1 s2 s3 r1 r2 r3
    norm_num at *
    refine ⟨?_, ?_, ?_⟩ <;> linarith
  have e0 : (ray64 hr C).ch0 (log a) = 1373.2198709594231 * unadapt ((ray64 hr C).Ar (log a)) + (-1100.4251190754821) * unadapt ((ray64 hr C).Ag (log a)) + (-7.278681089101213) * unadapt ((ray64 hr C).Ab (log a)) := by
    unfold Ray.ch0 Ray.lum; ring
  have e1 : (ray64 hr C).ch1 (log a) = (-271.815969077903) * unadapt ((ray64 hr C).Ar (log a)) + 559.6580465940733 * unadapt ((ray64 hr C).Ag (log a)) + (-32.46047482791194) * unadapt ((ray64 hr C).Ab (log a)) := by
    unfold Ray.ch1 Ray.lum; ring
  have e2 : (ray64 hr C).ch2 (log a) = 1.9622899599665666 * unadapt ((ray64 hr C).Ar (log a)) + (-57.173814538844006) * unadapt ((ray64 hr C).Ag (log a)) + 308.7233197812385 * unadapt ((ray64 hr C).Ab (log a)) := by
    unfold Ray.ch2 Ray.lum; ring
  rw [e0, e1, e2]
  obtain ⟨k0, k1, k2⟩ := key
  have low (c0 c1 c2 : ℝ) (h : 1 ≤ |c1|) : 1 / 10 ^ 40 ≤ |c0| * unadapt ((ray64 hr C).Ar (log a)) + |c1| * unadapt ((ray64 hr C).Ag (log a)) + |c2| * unadapt ((ray64 hr C).Ab (log a)) := by
    have a1 : 0 ≤ |c0| * unadapt ((ray64 hr C).Ar (log a)) := by positivity
    have a2 : 0 ≤ |c2| * unadapt ((ray64 hr C).Ab (log a)) := by positivity
    have a3 : 1 * unadapt ((ray64 hr C).Ag (log a)) ≤ |c1| * unadapt ((ray64 hr C).Ag (log a)) := mul_le_mul_of_nonneg_right h y0.le
    have : 1 / 10 ^ 40 ≤ unadapt ((ray64 hr C).Ag (log a)) := le_trans (by norm_num) g1.1
    linarith
  have fin {q : 𝔻} {r T : ℝ} (h : Ap q r ((6.4 / 10 ^ 12 + 5 / 10 ^ 15) * T)) (hT : T ≤ 15 * (ray64 hr C).Y (log a)) : Ap q r (1e-10 * (ray64 hr C).Y (log a)) := by
    refine h.weaken ?_
    have : (6.4 / 10 ^ 12 + 5 / 10 ^ 15) * T ≤ (6.4 / 10 ^ 12 + 5 / 10 ^ 15) * (15 * (ray64 hr C).Y (log a)) := mul_le_mul_of_nonneg_left hT (by norm_num)
    refine this.trans ?_
    norm_num at *; linarith
  refine ⟨fin (row_sharp s1 s2 s3 x0.le y0.le z0.le (lit_pos (by norm_num) (by norm_num)) (lit_neg (lit_pos (by norm_num) (by norm_num))) (lit_neg (lit_pos (by norm_num) (by norm_num)))
      (by norm_num) (by norm_num) (low _ _ _ (by norm_num [abs_of_pos])) (k0.trans ?_)) k0,
    fin (row_sharp s1 s2 s3 x0.le y0.le z0.le (lit_neg (lit_pos (by norm_num) (by norm_num))) (lit_pos (by norm_num) (by norm_num)) (lit_neg (lit_pos (by norm_num) (by norm_num)))
      (by norm_num) (by norm_num) (low _ _ _ (by norm_num [abs_of_pos])) (k1.trans ?_)) k1,
    fin (row_sharp s1 s2 s3 x0.le y0.le z0.le (lit_pos (by norm_num) (by norm_num)) (lit_neg (lit_pos (by norm_num) (by norm_num))) (lit_pos (by norm_num) (by norm_num))
      (by norm_num) (by norm_num) (low _ _ _ (by norm_num [abs_of_pos])) (k2.trans ?_)) k2⟩ <;> norm_num <;> linarith

/-- The computed luminance of components that are not negative. -/
theorem fnj_sharp {p : Vec3 𝔻} {u v w : ℝ} (hu : Is p.x0 u) (hv : Is p.x1 v) (hw : Is p.x2 w) (u0 : 0 ≤ u) (v0 : 0 ≤ v) (w0 : 0 ≤ w)
    (T0 : 1 / 10 ^ 30 ≤ u * 0.2126 + v * 0.7152 + w * 0.0722) (T1 : u * 0.2126 + v * 0.7152 + w * 0.0722 ≤ 10 ^ 30) :
    Rl (fnjOf p) (u * 0.2126 + v * 0.7152 + w * 0.0722) (6 / 10 ^ 15) := by
  have e : fnjOf p = p.x0 * (yFromLinrgb : Vec3 𝔻).x0 + p.x1 * (yFromLinrgb : Vec3 𝔻).x1 + p.x2 * (yFromLinrgb : Vec3 𝔻).x2 := by
    have c : ∀ x y : 𝔻, x * y = y * x := fun x y => dbl_mul_comm x y
    unfold fnjOf
    rw [c _ p.x0, c _ p.x1, c _ p.x2]
  rw [e]
  have en : |(0.2126 : ℝ)| * u + |(0.7152 : ℝ)| * v + |(0.0722 : ℝ)| * w = u * 0.2126 + v * 0.7152 + w * 0.0722 := by
    rw [abs_of_pos (by norm_num), abs_of_pos (by norm_num), abs_of_pos (by norm_num)]; ring
  have := row_sharp (ε := 0) (m0 := (yFromLinrgb : Vec3 𝔻).x0) (m1 := (yFromLinrgb : Vec3 𝔻).x1) (m2 := (yFromLinrgb : Vec3 𝔻).x2) hu.rl hv.rl hw.rl u0 v0 w0
    (lit_pos (m := 2126) (s := true) (e := 4) (by norm_num) (by norm_num)) (lit_pos (m := 7152) (s := true) (e := 4) (by norm_num) (by norm_num)) (lit_pos (m := 722) (s := true) (e := 4) (by norm_num) (by norm_num)) le_rfl (by norm_num)
    (by change _ ≤ |(0.2126 : ℝ)| * u + |(0.7152 : ℝ)| * v + |(0.0722 : ℝ)| * w; rw [en]; exact le_trans (by norm_num) T0)
    (by change |(0.2126 : ℝ)| * u + |(0.7152 : ℝ)| * v + |(0.0722 : ℝ)| * w ≤ _; rw [en]; exact T1.trans (by norm_num))
  change Ap _ ((0.2126 : ℝ) * u + (0.7152 : ℝ) * v + (0.0722 : ℝ) * w) ((0 + 5 / 10 ^ 15) * (|(0.2126 : ℝ)| * u + |(0.7152 : ℝ)| * v + |(0.0722 : ℝ)| * w)) at this
  rw [en] at this
  obtain ⟨f, jf, hf⟩ := this
  refine ⟨f, jf, ?_⟩
  rw [show u * 0.2126 + v * 0.7152 + w * 0.0722 = 0.2126 * u + 0.7152 * v + 0.0722 * w by ring] at *
  refine hf.trans (mul_le_mul_of_nonneg_right (by norm_num) (le_trans (by norm_num) T0))

end Mcu.Lemmas
