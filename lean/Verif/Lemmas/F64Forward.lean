import Verif.Lemmas.F64Visit

/-! The exact search in IEEE-754 binary64 never goes on from a colour whose luminance is not finite, and a round after a
colour near the gamut computes finite coordinates. -/

namespace Mcu.Lemmas

open Mcu.Ieee Props Props.Binary64 MathUtils ColorUtils HctSolver Real

variable {L : Libm}

local notation "𝔻" => F64 L

/-! ### Bounded numbers -/

/-- Finite and at most `B` in absolute value. -/
def Bd (x : 𝔻) (B : ℝ) : Prop := ∃ v, Is x v ∧ |v| ≤ B

theorem bd_rnd {x : 𝔻} {v B B' : ℝ} (h : |rnd v| < 2 ^ 1024 → Is x (rnd v)) (hv : |v| ≤ B) (hB : B + 1 ≤ B') (h1 : B' ≤ 10 ^ 10) : Bd x B' := by
  have hb : |v| ≤ 10 ^ 10 := by linarith
  refine ⟨_, h (rnd_huge (hb.trans (by norm_num))), ?_⟩
  have := rnd_any v
  have h2 := abs_le.1 this
  have h3 := abs_le.1 hv
  rw [abs_le]
  generalize |v| = w at *
  norm_num at *
  constructor <;> linarith

theorem Bd.add {x y : 𝔻} {a b : ℝ} (hx : Bd x a) (hy : Bd y b) (B : ℝ) (hB : a + b + 1 ≤ B) (h1 : B ≤ 10 ^ 10) : Bd (x + y) B := by
  obtain ⟨v, iv, hv⟩ := hx
  obtain ⟨w, iw, hw⟩ := hy
  exact bd_rnd (fun h => iv.add iw h) ((abs_add_le v w).trans (add_le_add hv hw)) hB h1

theorem Bd.neg {x : 𝔻} {a : ℝ} (hx : Bd x a) : Bd (-x) a := by
  obtain ⟨v, iv, hv⟩ := hx
  exact ⟨-v, iv.neg, by rwa [abs_neg]⟩

theorem Bd.sub {x y : 𝔻} {a b : ℝ} (hx : Bd x a) (hy : Bd y b) (B : ℝ) (hB : a + b + 1 ≤ B) (h1 : B ≤ 10 ^ 10) : Bd (x - y) B :=
  hx.add hy.neg B hB h1

theorem Bd.mul {x y : 𝔻} {a b : ℝ} (hx : Bd x a) (hy : Bd y b) (B : ℝ) (hB : a * b + 1 ≤ B) (h1 : B ≤ 10 ^ 10) : Bd (x * y) B := by
  obtain ⟨v, iv, hv⟩ := hx
  obtain ⟨w, iw, hw⟩ := hy
  refine bd_rnd (fun h => iv.mul iw h) ?_ hB h1
  rw [abs_mul]
  exact mul_le_mul hv hw (abs_nonneg _) ((abs_nonneg _).trans hv)

theorem In.bd {x : 𝔻} {l u : ℝ} (h : In x l u) (B : ℝ) (h1 : -B ≤ l) (h2 : u ≤ B) : Bd x B := by
  obtain ⟨v, iv, a, b⟩ := h
  exact ⟨v, iv, abs_le.2 ⟨by linarith, by linarith⟩⟩

theorem Is.bd {x : 𝔻} {v : ℝ} (h : Is x v) (B : ℝ) (h1 : |v| ≤ B) : Bd x B := ⟨v, h, h1⟩

theorem bd_lit {m e : ℕ} {s : Bool} (v : ℝ) (hv : (OfScientific.ofScientific m s e : ℝ) = v) (B : ℝ) (h : |v| + 1 ≤ B) (h1 : B ≤ 10 ^ 5) :
    Bd (OfScientific.ofScientific m s e : 𝔻) B := by
  have hv' := abs_le.1 (le_refl |v|)
  refine (in_lit (L := L) v hv (by linarith)).bd B ?_ ?_
  · norm_num; linarith
  · norm_num; linarith

theorem bd_matrix {X Y Z : 𝔻} (hX : Bd X (10 ^ 5)) (hY : Bd Y (10 ^ 5)) (hZ : Bd Z (10 ^ 5)) :
    Dbl.Fin (fnjOf (matrixMultiply ⟨X, Y, Z⟩ linrgbFromScaledDiscount : Vec3 𝔻) : 𝔻) := by
  have row {m0 m1 m2 : 𝔻} (h0 : Bd m0 1500) (h1 : Bd m1 1500) (h2 : Bd m2 1500) : Bd (X * m0 + Y * m1 + Z * m2) (10 ^ 9) :=
    ((hX.mul h0 (1.6 * 10 ^ 8) (by norm_num) (by norm_num)).add (hY.mul h1 (1.6 * 10 ^ 8) (by norm_num) (by norm_num)) (3.3 * 10 ^ 8) (by norm_num) (by norm_num)).add
      (hZ.mul h2 (1.6 * 10 ^ 8) (by norm_num) (by norm_num)) (10 ^ 9) (by norm_num) (by norm_num)
  have b0 : Bd (matrixMultiply ⟨X, Y, Z⟩ linrgbFromScaledDiscount : Vec3 𝔻).x0 (10 ^ 9) := row
    (bd_lit (m := 13732198709594231) (s := true) (e := 13) 1373.2198709594231 rfl _ (by norm_num [abs_of_pos]) (by norm_num))
    (bd_lit (m := 11004251190754821) (s := true) (e := 13) 1100.4251190754821 rfl _ (by norm_num [abs_of_pos]) (by norm_num)).neg
    (bd_lit (m := 7278681089101213) (s := true) (e := 15) 7.278681089101213 rfl _ (by norm_num [abs_of_pos]) (by norm_num)).neg
  have b1 : Bd (matrixMultiply ⟨X, Y, Z⟩ linrgbFromScaledDiscount : Vec3 𝔻).x1 (10 ^ 9) := row
    (bd_lit (m := 271815969077903) (s := true) (e := 12) 271.815969077903 rfl _ (by norm_num [abs_of_pos]) (by norm_num)).neg
    (bd_lit (m := 5596580465940733) (s := true) (e := 13) 559.6580465940733 rfl _ (by norm_num [abs_of_pos]) (by norm_num))
    (bd_lit (m := 3246047482791194) (s := true) (e := 14) 32.46047482791194 rfl _ (by norm_num [abs_of_pos]) (by norm_num)).neg
  have b2 : Bd (matrixMultiply ⟨X, Y, Z⟩ linrgbFromScaledDiscount : Vec3 𝔻).x2 (10 ^ 9) := row
    (bd_lit (m := 19622899599665666) (s := true) (e := 16) 1.9622899599665666 rfl _ (by norm_num [abs_of_pos]) (by norm_num))
    (bd_lit (m := 57173814538844006) (s := true) (e := 15) 57.173814538844006 rfl _ (by norm_num [abs_of_pos]) (by norm_num)).neg
    (bd_lit (m := 3087233197812385) (s := true) (e := 13) 308.7233197812385 rfl _ (by norm_num [abs_of_pos]) (by norm_num))
  generalize (matrixMultiply ⟨X, Y, Z⟩ linrgbFromScaledDiscount : Vec3 𝔻) = p at *
  have y0 : Bd (yFromLinrgb : Vec3 𝔻).x0 2 := bd_lit (m := 2126) (s := true) (e := 4) 0.2126 rfl _ (by norm_num [abs_of_pos]) (by norm_num)
  have y1 : Bd (yFromLinrgb : Vec3 𝔻).x1 2 := bd_lit (m := 7152) (s := true) (e := 4) 0.7152 rfl _ (by norm_num [abs_of_pos]) (by norm_num)
  have y2 : Bd (yFromLinrgb : Vec3 𝔻).x2 2 := bd_lit (m := 722) (s := true) (e := 4) 0.0722 rfl _ (by norm_num [abs_of_pos]) (by norm_num)
  obtain ⟨v, iv, -⟩ := ((y0.mul b0 (2.1 * 10 ^ 9) (by norm_num) (by norm_num)).add (y1.mul b1 (2.1 * 10 ^ 9) (by norm_num) (by norm_num)) (4.3 * 10 ^ 9)
    (by norm_num) (by norm_num)).add (y2.mul b2 (2.1 * 10 ^ 9) (by norm_num) (by norm_num)) (10 ^ 10) (by norm_num) (by norm_num)
  exact iv.1

/-! ### Not a number -/

theorem ica_zero (hT : L.PowTail) {A : 𝔻} (h : ¬ Dbl.Fin A) : Is (inverseChromaticAdaptation A) 0 := by
  rw [ica_eq, base_nan h]
  have hs : ∃ n : ℤ, Is (Fl.ofInt (signum A) : 𝔻) n := by
    refine ⟨signum A, is_ofInt ?_⟩
    unfold signum; split_ifs <;> simp
  obtain ⟨n, hn⟩ := hs
  have := hn.mul (pow_zero64 hT l0') (by rw [mul_zero, rnd_zero]; norm_num)
  rwa [mul_zero, rnd_zero] at this

/-- Stimuli that are all 0 are discarded. -/
theorem zero_not_passed {X Y Z : 𝔻} (hX : Is X 0) (hY : Is Y 0) (hZ : Is Z 0) :
    ¬ Passed (matrixMultiply ⟨X, Y, Z⟩ linrgbFromScaledDiscount : Vec3 𝔻) := by
  have z {X : 𝔻} (h : Is X 0) : Bd X (10 ^ 5) := ⟨0, h, by norm_num⟩
  have ff := bd_matrix (z hX) (z hY) (z hZ)
  obtain ⟨u, v, w, iu, iv, iw, -, -, -, h⟩ := matrix64 hX hY hZ (S := 0) (by norm_num) (by norm_num) (by norm_num) (fin_coords ff)
  obtain ⟨rfl, rfl, rfl⟩ := h rfl rfl rfl
  obtain ⟨f, jf, -, h⟩ := fnj64 iu iv iw le_rfl le_rfl le_rfl ff
  rw [h rfl rfl rfl] at jf
  rintro ⟨-, h⟩
  rw [jf.le_iff l0'] at h
  exact h le_rfl

theorem nan_not_passed (hL : L.PowOk) (hT : L.PowTail) {hr C : 𝔻} (hc : (C == (0.0 : 𝔻)) = false) : ¬ Passed (linrgbOfJ hr C (nanD L)) := by
  have hj : (nanD L == (0.0 : 𝔻)) = false := by
    show Dbl.beq Dbl.nan _ = false
    unfold Dbl.beq; simp [Dbl.isNan]
  rw [linrgb64_eq hc hj]
  obtain ⟨q, iq, q1, q2⟩ := in_q (L := L)
  have ep : p2Of (nanD L) = nanD L := by
    unfold p2Of
    rw [nan_div]
    have : Fl.powf (nanD L) (qOf L) = nanD L := hT.nan _ iq.1 (by rw [iq.2]; intro h; norm_num at q1; linarith)
    rw [this, mul_nan, nan_div]
  rw [ep]
  have e1 (a b : 𝔻) : respR (nanD L) a b = nanD L := by unfold respR; rw [mul_nan, nan_add, nan_add, nan_div]
  have e2 (a b : 𝔻) : respG (nanD L) a b = nanD L := by unfold respG; rw [mul_nan, nan_sub, nan_sub, nan_div]
  have e3 (a b : 𝔻) : respB (nanD L) a b = nanD L := by unfold respB; rw [mul_nan, nan_sub, nan_sub, nan_div]
  rw [e1, e2, e3]
  have z := ica_zero hT (A := nanD L) (fun h => h.elim)
  exact zero_not_passed z z z

/-- After a luminance that is not finite the next lightness is not a number. -/
theorem next_nan {j f y : 𝔻} (hf : ¬ Dbl.Fin f) : j - (f - y) * j / (2.0 * f) = nanD L := by
  have i2 : Is (2.0 : 𝔻) 2 := by simpa using lit (L := L) 20 1 true 2 (by norm_num) (by norm_num)
  rcases f with _ | s | s | ⟨v, hv⟩
  · change j - _ / (2.0 * nanD L) = nanD L
    rw [mul_nan, div_nan, sub_nan]
  · have e : (2.0 : 𝔻) * infD L s = infD L s := by
      obtain ⟨f2, e2⟩ := i2
      change Dbl.mul _ (Dbl.inf s) = Dbl.inf s
      change Dbl.val (2.0 : 𝔻) = 2 at e2
      generalize (2.0 : 𝔻) = t at *
      rcases t with _ | r | r | ⟨w, hw⟩
      · exact f2.elim
      · exact f2.elim
      · simp [Dbl.val] at e2
      · simp only [Dbl.val] at e2
        subst e2
        have : decide ((2 : ℝ) < 0) = false := decide_eq_false (by norm_num)
        simp [Dbl.mul, Dbl.neg?, this]
    have key : (infD L s - y) * j / infD L s = nanD L := by
      change Dbl.div (Dbl.mul (Dbl.add (Dbl.inf s) (Dbl.neg y)) j) (Dbl.inf s) = Dbl.nan
      rcases y with _ | r | r | ⟨w, hw⟩ <;> rcases j with _ | r' | r' | ⟨w', hw'⟩ <;> simp only [Dbl.add, Dbl.neg, Dbl.mul, Dbl.div] <;> (try split_ifs) <;> simp only [Dbl.mul, Dbl.div]
    change j - (infD L s - y) * j / (2.0 * infD L s) = nanD L
    rw [e, key, sub_nan]
  · exact absurd trivial hf
  · exact absurd trivial hf

/-! ### Finite coordinates in the next round -/

theorem gamma_14 {R : Ray} {v : ℝ} (hn : NearGamut (R.Ar v) (R.Ag v) (R.Ab v)) (hP : R.P v ≤ 40) (unit : 0.99 ≤ |R.c| + |R.s|) : |R.gam v| ≤ 14 := by
  have e : |R.gam v| * (|R.c| + |R.s|) = |R.gam v * R.c| + |R.gam v * R.s| := by rw [abs_mul, abs_mul]; ring
  have e' : |R.gam v| * 0.99 ≤ |R.gam v * R.c| + |R.gam v * R.s| := by rw [← e]; exact mul_le_mul_of_nonneg_left unit (abs_nonneg _)
  have ach := Ray.achromatic_eq (R := R) v
  unfold achromatic at ach
  have er : 1403 * R.Ar v = 460 * R.P v + 451 * (R.gam v * R.c) + 288 * (R.gam v * R.s) := by unfold Ray.Ar; ring
  have eg : 1403 * R.Ag v = 460 * R.P v - 891 * (R.gam v * R.c) - 261 * (R.gam v * R.s) := by unfold Ray.Ag; ring
  have eb : 1403 * R.Ab v = 460 * R.P v - 220 * (R.gam v * R.c) - 6300 * (R.gam v * R.s) := by unfold Ray.Ab; ring
  obtain ⟨n1, n2, n3, n4, n5⟩ := hn
  generalize R.gam v * R.c = X at *
  generalize R.gam v * R.s = Y at *
  generalize |R.gam v| = G at *
  have bX : |X| ≤ 7.7 := by rw [abs_le]; norm_num at *; constructor <;> linarith
  have bY : |Y| ≤ 5.9 := by rw [abs_le]; norm_num at *; constructor <;> linarith
  norm_num at *; linarith

/-- The exact `gamma` of the next round. -/
theorem gamma_next {R : Ray} {v v' : ℝ} (h : R.Ok) (hn : NearGamut (R.Ar v) (R.Ag v) (R.Ab v)) (hd : 0 < R.den v) (hP0 : 0.0078 ≤ R.P v)
    (hP : R.P v ≤ 40) (unit : 0.99 ≤ |R.c| + |R.s|) (hP' : R.P v' ≤ 2 * R.P v) (hT : R.T v' ≤ 1.5 * R.T v) :
    0 < R.den v' ∧ R.T v' ≤ 4.3 * R.den v' ∧ R.p1 ≤ 0.1 * R.den v' ∧ 23 * (R.P v' + 0.305) * R.T v' ≤ 60.3 * R.den v' := by
  have g14 := (abs_le.1 (gamma_14 hn hP unit)).2
  have T0 := Ray.T_pos h v
  have T0' := Ray.T_pos h v'
  have P0' := Ray.P_pos h v'
  have p1 := h.p1
  have s1 : 23 * R.p1 ≤ 1.6 * R.den v := by
    have := Ray.slow_le hn hd.ne'
    have h2 : 23 * R.p1 / R.den v * (R.P v + 0.305) ≤ 1.6 * (R.P v + 0.305) := by norm_num at *; linarith
    have h3 := le_of_mul_le_mul_right h2 (by norm_num at *; linarith)
    rwa [div_le_iff₀ hd] at h3
  have e1 : R.den v = 23 * R.p1 + R.T v * R.d := rfl
  have e2 : R.den v' = 23 * R.p1 + R.T v' * R.d := rfl
  have key : 0 < R.den v' ∧ R.p1 ≤ 0.1 * R.den v' ∧ R.T v' * R.den v ≤ 2.15 * R.T v * R.den v' := by
    rcases le_total 0 R.d with hs | hs
    · have q := mul_nonneg T0'.le hs
      refine ⟨by rw [e2]; positivity, by rw [e2]; norm_num; linarith, ?_⟩
      have k1 : R.T v' * (23 * R.p1) ≤ 1.5 * R.T v * (23 * R.p1) := mul_le_mul_of_nonneg_right hT (by positivity)
      have k2 : 0 ≤ R.T v * (R.T v' * R.d) := mul_nonneg T0.le q
      have k3 : 0 ≤ R.T v * (23 * R.p1) := by positivity
      rw [e1, e2]
      norm_num at *; linarith
    · have q := mul_le_mul_of_nonpos_right hT hs
      have d7 : 0.7 * R.den v ≤ R.den v' := by rw [e2]; norm_num at *; linarith
      refine ⟨by norm_num at *; linarith, by norm_num at *; linarith, ?_⟩
      have k1 : R.T v' * R.den v ≤ 1.5 * R.T v * R.den v := mul_le_mul_of_nonneg_right hT hd.le
      have k2 : R.T v * (0.7 * R.den v) ≤ R.T v * R.den v' := mul_le_mul_of_nonneg_left d7 T0.le
      have k3 : 0 < R.T v * R.den v' := mul_pos T0 (by norm_num at *; linarith)
      norm_num at *; linarith
  obtain ⟨d0, k1, k2⟩ := key
  have gd : 23 * (R.P v + 0.305) * R.T v ≤ 14 * R.den v := by
    have : R.gam v = 23 * (R.P v + 0.305) * R.T v / R.den v := rfl
    rw [this, div_le_iff₀ hd] at g14
    exact g14
  refine ⟨d0, ?_, k1, ?_⟩
  · have t1 : 7.19 * R.T v ≤ 23 * (R.P v + 0.305) * R.T v := mul_le_mul_of_nonneg_right (by norm_num at *; linarith) T0.le
    have t2 : R.T v ≤ 1.95 * R.den v := by norm_num at *; linarith
    have t3 : R.T v * R.den v' ≤ 1.95 * R.den v * R.den v' := mul_le_mul_of_nonneg_right t2 d0.le
    refine le_of_mul_le_mul_right ?_ hd
    have := mul_pos hd d0
    norm_num at *; linarith
  · have t1 : 23 * (R.P v' + 0.305) ≤ 2 * (23 * (R.P v + 0.305)) := by norm_num at *; linarith
    have t2 : 23 * (R.P v' + 0.305) * (R.T v' * R.den v) ≤ 2 * (23 * (R.P v + 0.305)) * (2.15 * R.T v * R.den v') :=
      mul_le_mul t1 k2 (by positivity) (by norm_num at *; linarith)
    have t3 : 23 * (R.P v + 0.305) * R.T v * R.den v' ≤ 14 * R.den v * R.den v' := mul_le_mul_of_nonneg_right gd d0.le
    refine le_of_mul_le_mul_right ?_ hd
    have := mul_pos hd d0
    norm_num at *; linarith

theorem ray_T_next {R : Ray} (h : R.Ok) {a a' : ℝ} (ha : 0 < a) (h2 : a ≤ 2 * a') : R.T (log a') ≤ 1.5 * R.T (log a) := by
  have hT := Ray.T_pos h (log a)
  have e : R.T (log a') = R.T (log a) * exp (1 / 1.8 * (log a - log a')) := by
    unfold Ray.T; rw [mul_assoc, ← exp_add]; congr 2; ring
  rw [e, mul_comm]
  apply mul_le_mul_of_nonneg_right _ hT.le
  calc exp (1 / 1.8 * (log a - log a')) ≤ exp (log 2 * (5 / 9)) := by
        apply exp_le_exp.2
        have : log a - log a' ≤ log 2 := by
          have : log a ≤ log (2 * a') := log_le_log ha h2
          rw [log_mul (by norm_num) (by linarith)] at this
          linarith
        norm_num; linarith
    _ = (2 : ℝ) ^ (((5 : ℕ) : ℝ) / ((9 : ℕ) : ℝ)) := by
        rw [rpow_def_of_pos (by norm_num)]; norm_num
    _ ≤ 1.5 := rpow_le_of_le_pow (by norm_num) (by norm_num) (by norm_num) (by norm_num)

theorem ray_P_next {R : Ray} (h : R.Ok) {a a' : ℝ} (ha : 0 < a) (ha' : 0 < a') (h2 : a' ≤ 2 * a) : R.P (log a') ≤ 2 * R.P (log a) := by
  have hP := Ray.P_pos h (log a)
  have e : R.P (log a') = R.P (log a) * exp (R.q * (log a' - log a)) := by
    unfold Ray.P; rw [mul_assoc, ← exp_add]; congr 2; ring
  rw [e, mul_comm]
  apply mul_le_mul_of_nonneg_right _ hP.le
  have hl : log a' - log a ≤ log 2 := by
    have : log a' ≤ log (2 * a) := log_le_log ha' h2
    rw [log_mul (by norm_num) (by linarith)] at this
    linarith
  have l2 : 0 < log 2 := log_pos (by norm_num)
  have hq := h.q
  calc exp (R.q * (log a' - log a)) ≤ exp (log 2) := by
        apply exp_le_exp.2
        norm_num at hq
        nlinarith
    _ = 2 := exp_log (by norm_num)

theorem bd_ica (hL : L.PowOk) (hT : L.PowTail) {A : 𝔻} (h : Bd A 313) : Bd (inverseChromaticAdaptation A) (10 ^ 5) := by
  obtain ⟨α, iα, hα⟩ := h
  obtain ⟨p, ip, p0, hp⟩ := pow_response hL hT iα.abs (abs_nonneg _) (by linarith)
  rw [ica_eq]
  have hs : Bd (Fl.ofInt (signum A) : 𝔻) 1 := by
    refine ⟨signum A, is_ofInt ?_, ?_⟩ <;> unfold signum <;> split_ifs <;> simp
  have hu : p ≤ 99000 := by
    rcases hp with hp | hp
    · have u1 : unadapt |α| ≤ 90000 := by
        unfold unadapt
        have d : 0 < 400 - |α| := by linarith
        have n := abs_nonneg α
        rw [show (1 / 0.42 : ℝ) = ((50 : ℕ) : ℝ) / ((21 : ℕ) : ℝ) by norm_num]
        refine (rpow_le_rpow (by positivity) (?_ : 27.13 * |α| / (400 - |α|) ≤ 98) (by norm_num)).trans ?_
        · rw [div_le_iff₀ d]; norm_num; linarith
        · exact rpow_le_of_le_pow (by norm_num) (by norm_num) (by norm_num) (by norm_num)
      rw [abs_le] at hp
      have : 0 ≤ unadapt |α| := by
        unfold unadapt
        have d : 0 < 400 - |α| := by linarith
        positivity
      norm_num at *; linarith
    · exact hp.2.trans (by norm_num)
  have hb : Bd (Fl.powf (baseOf (Fl.abs A)) (1.0 / 0.42) : 𝔻) 99000 := ⟨p, ip, by rw [abs_of_nonneg p0]; exact hu⟩
  exact hs.mul hb _ (by norm_num) (by norm_num)

theorem bd_responses {p x y : 𝔻} (hp : Bd p 41) (hx : Bd x 64) (hy : Bd y 64) : Bd (respR p x y) 313 ∧ Bd (respG p x y) 313 ∧ Bd (respB p x y) 313 := by
  have i1403 : Is (1403.0 : 𝔻) 1403 := by simpa using lit (L := L) 14030 1 true 1403 (by norm_num) (by norm_num)
  have div {x : 𝔻} (h : Bd x 436500) : Bd (x / 1403.0) 313 := by
    obtain ⟨v, iv, hv⟩ := h
    refine bd_rnd (B := 311.2) (fun h => iv.div i1403 (by norm_num) h) ?_ (by norm_num) (by norm_num)
    rw [abs_div, abs_of_pos (by norm_num : (0:ℝ) < 1403), div_le_iff₀ (by norm_num)]
    linarith
  have c1 : Bd (460.0 : 𝔻) 460 := (show Is (460.0 : 𝔻) 460 by simpa using lit (L := L) 4600 1 true 460 (by norm_num) (by norm_num)).bd _ (by norm_num)
  have c2 : Bd (451.0 : 𝔻) 451 := (show Is (451.0 : 𝔻) 451 by simpa using lit (L := L) 4510 1 true 451 (by norm_num) (by norm_num)).bd _ (by norm_num)
  have c3 : Bd (288.0 : 𝔻) 288 := (show Is (288.0 : 𝔻) 288 by simpa using lit (L := L) 2880 1 true 288 (by norm_num) (by norm_num)).bd _ (by norm_num)
  have c4 : Bd (891.0 : 𝔻) 891 := (show Is (891.0 : 𝔻) 891 by simpa using lit (L := L) 8910 1 true 891 (by norm_num) (by norm_num)).bd _ (by norm_num)
  have c5 : Bd (261.0 : 𝔻) 261 := (show Is (261.0 : 𝔻) 261 by simpa using lit (L := L) 2610 1 true 261 (by norm_num) (by norm_num)).bd _ (by norm_num)
  have c6 : Bd (220.0 : 𝔻) 220 := (show Is (220.0 : 𝔻) 220 by simpa using lit (L := L) 2200 1 true 220 (by norm_num) (by norm_num)).bd _ (by norm_num)
  have c7 : Bd (6300.0 : 𝔻) 6300 := (show Is (6300.0 : 𝔻) 6300 by simpa using lit (L := L) 63000 1 true 6300 (by norm_num) (by norm_num)).bd _ (by norm_num)
  have hp' : Bd (460.0 * p) 18900 := c1.mul hp _ (by norm_num) (by norm_num)
  refine ⟨div ?_, div ?_, div ?_⟩
  · exact (hp'.add (c2.mul hx 28900 (by norm_num) (by norm_num)) 47900 (by norm_num) (by norm_num)).add (c3.mul hy 18500 (by norm_num) (by norm_num)) _ (by norm_num) (by norm_num)
  · exact (hp'.sub (c4.mul hx 57100 (by norm_num) (by norm_num)) 76100 (by norm_num) (by norm_num)).sub (c5.mul hy 16800 (by norm_num) (by norm_num)) _ (by norm_num) (by norm_num)
  · exact (hp'.sub (c6.mul hx 14100 (by norm_num) (by norm_num)) 33100 (by norm_num) (by norm_num)).sub (c7.mul hy 403300 (by norm_num) (by norm_num)) _ (by norm_num) (by norm_num)

theorem forward64 (hL : L.PowOk) (hT : L.PowTail) (hE : L.ExpOk) {hr C j j' : 𝔻} (h : Setting hr C) {a a' f : ℝ} (hv : Visit hr C j a f)
    (h0 : 0.002 ≤ a) (h1 : a ≤ 148.4) (hj' : Is j' a') (h0' : 0.002 ≤ a') (h1' : a' ≤ 148.4) (h2 : a ≤ 2 * a') (h3 : a' ≤ 2 * a) :
    Dbl.Fin (fnjOf (linrgbOfJ hr C j') : 𝔻) := by
  have ha : 0 < a := by norm_num at h0; linarith
  have ha' : 0 < a' := by norm_num at h0'; linarith
  have hj0 : (j' == (0.0 : 𝔻)) = false := by
    rw [Bool.eq_false_iff, Ne, hj'.beq_iff l0']
    exact ha'.ne'
  rw [linrgb64_eq (setting_ne h) hj0]
  have h15 : a' ≤ 150 := by norm_num at h1'; linarith
  have hok := h.ok hL hE
  obtain ⟨P1, P2⟩ := P_range hL hE h h0 h1
  obtain ⟨P1', P2'⟩ := P_range hL hE h h0' h1'
  obtain ⟨T1, T2⟩ := T_range hL h h0' h15
  obtain ⟨d0, dT, dp, dg⟩ := gamma_next (v' := log a') hok hv.near hv.den P1 P2 h.unit (ray_P_next hok ha ha' h3) (ray_T_next hok ha h2)
  obtain ⟨ϖ, iϖ, hϖ⟩ := rl_p2 hL hE h hj' h0' h1'
  obtain ⟨N, iN, hN⟩ := rl_num (rl_p2 hL hE h hj' h0' h1') (rl_t hL h hj' h0' h15) P1' P2' T1 T2
  obtain ⟨D, iD, hD⟩ := den64 (p := p1Of hr) h.p1 (rl_t hL h hj' h0' h15) h.cos h.sin h.c_le h.s_le h.p1_lo h.p1_hi (lt_of_lt_of_le (by norm_num) T1) T2
  change |D - (ray64 hr C).den (log a')| ≤ 2 / 10 ^ 9 * ((ray64 hr C).T (log a') + (ray64 hr C).p1) at hD
  have N0 : 0 < 23 * ((ray64 hr C).P (log a') + 0.305) * (ray64 hr C).T (log a') := by
    have : (0:ℝ) < (ray64 hr C).T (log a') := lt_of_lt_of_le (by norm_num) T1
    have : (0:ℝ) < (ray64 hr C).P (log a') := lt_of_lt_of_le (by norm_num) P1'
    positivity
  generalize 23 * ((ray64 hr C).P (log a') + 0.305) * (ray64 hr C).T (log a') = M at *
  have D9 : 0.999 * (ray64 hr C).den (log a') ≤ D := by
    rw [abs_le] at hD
    norm_num at *; linarith
  have D0 : 0 < D := by norm_num at D9; linarith
  have q : |N / D| ≤ 61 := by
    rw [abs_div, abs_of_pos D0, div_le_iff₀ D0, abs_le]
    rw [abs_le] at hN
    norm_num at *; constructor <;> linarith
  have bγ : Bd (gammaOf hr C j') 62 := bd_rnd (fun h => iN.div iD D0.ne' h) q (by norm_num) (by norm_num)
  have bp : Bd (p2Of j') 41 := iϖ.bd _ (by rw [abs_le] at hϖ ⊢; norm_num at *; constructor <;> linarith)
  obtain ⟨b1, b2, b3⟩ := bd_responses bp (bγ.mul (h.cos.bd _ h.c_le) _ (by norm_num) (by norm_num)) (bγ.mul (h.sin.bd _ h.s_le) _ (by norm_num) (by norm_num))
  exact bd_matrix (bd_ica hL hT b1) (bd_ica hL hT b2) (bd_ica hL hT b3)

end Mcu.Lemmas
