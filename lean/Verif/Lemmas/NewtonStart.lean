import Verif.Lemmas.Gamut

/-! Where the exact search starts: the luminance of its first colour compared with the requested one. -/

namespace Mcu.Lemmas

open Mcu.ColorUtils Mcu.MathUtils Mcu.HctSolver Mcu.Spec Real

theorem vc0_c : vc0.c = 0.69 := by
  have e : vc0.c = (if (0.8 + 2.0 / 10.0 : ℝ) ≥ 0.9 then lerp 0.59 0.69 ((0.8 + 2.0 / 10.0 - 0.9) * 10.0)
    else lerp 0.525 0.59 ((0.8 + 2.0 / 10.0 - 0.8) * 10.0)) := rfl
  rw [e, if_pos (by norm_num)]
  unfold lerp
  norm_num

theorem vc0_n : vc0.backgroundYToWhitePointY = (33 / 58) ^ 3 := by
  have e : vc0.backgroundYToWhitePointY = yFromLstar (max 0.1 50.0) / 100.0 := rfl
  rw [e, max_eq_right (by norm_num), show (50.0 : ℝ) = 50 by norm_num, y50]
  norm_num

theorem vc0_q : 0.7591 ≤ 1 / vc0.c / vc0.z ∧ 1 / vc0.c / vc0.z ≤ 0.7592 := by
  have e : vc0.z = 1.48 + Real.sqrt vc0.backgroundYToWhitePointY := rfl
  rw [vc0_c, e, vc0_n]
  have h1 : (0.42916 : ℝ) ≤ Real.sqrt ((33 / 58) ^ 3) := Real.le_sqrt_of_sq_le (by norm_num)
  have h2 : Real.sqrt ((33 / 58) ^ 3) ≤ 0.42918 := by rw [Real.sqrt_le_left (by norm_num)]; norm_num
  generalize Real.sqrt ((33 / 58) ^ 3) = s at *
  have : 0 < 1.48 + s := by norm_num at *; linarith
  rw [le_div_iff₀ this, div_le_iff₀ this]
  norm_num at *
  constructor <;> linarith

/-- The achromatic response of white. -/
noncomputable def pWhite : ℝ := vc0.aw / vc0.nbb

theorem pWhite_eq : pWhite = 2 * cone vc0.fl (vc0.rgbD.x0 * (wpCones whitePointD65).x0)
    + cone vc0.fl (vc0.rgbD.x1 * (wpCones whitePointD65).x1) + 0.05 * cone vc0.fl (vc0.rgbD.x2 * (wpCones whitePointD65).x2) := by
  have e : vc0.aw = (fun x y z : ℝ => (40.0 * (400.0 * x / (x + 27.13)) +
      20.0 * (400.0 * y / (y + 27.13)) + 400.0 * z / (z + 27.13)) / 20.0 * vc0.nbb)
      ((vc0.fl * vc0.rgbD.x0 * (wpCones whitePointD65).x0 / 100.0) ^ (0.42 : ℝ))
      ((vc0.fl * vc0.rgbD.x1 * (wpCones whitePointD65).x1 / 100.0) ^ (0.42 : ℝ))
      ((vc0.fl * vc0.rgbD.x2 * (wpCones whitePointD65).x2 / 100.0) ^ (0.42 : ℝ)) := rfl
  have hn := sRgb_pos.nbb
  unfold pWhite
  rw [e]
  have e100 : (100.0 : ℝ) = 100 := by norm_num
  simp only [cone, ← mul_assoc, e100]
  rw [mul_div_assoc, div_self hn.ne', mul_one]
  norm_num
  ring

theorem product_bounds {fl d w t1 t2 f1 f2 d1 d2 w1 w2 : ℝ} (hf : f1 ≤ fl ∧ fl ≤ f2) (hd : d1 ≤ d ∧ d ≤ d2) (hw : w1 ≤ w ∧ w ≤ w2)
    (f0 : 0 ≤ f1) (d0 : 0 ≤ d1) (w0 : 0 ≤ w1) (h1 : 0 ≤ t1) (h2 : 0 ≤ t2) (l : t1 ^ 50 ≤ (f1 * (d1 * w1) / 100) ^ 21)
    (u : (f2 * (d2 * w2) / 100) ^ 21 ≤ t2 ^ 50) :
    400 * t1 / (t1 + 27.13) ≤ cone fl (d * w) ∧ cone fl (d * w) ≤ 400 * t2 / (t2 + 27.13) := by
  have a0 : 0 ≤ fl := f0.trans hf.1
  have b0 : 0 ≤ d := d0.trans hd.1
  have c0 : 0 ≤ w := w0.trans hw.1
  have p1 : f1 * (d1 * w1) / 100 ≤ fl * (d * w) / 100 := by
    have := mul_le_mul hf.1 (mul_le_mul hd.1 hw.1 w0 b0) (by positivity) a0
    linarith
  have p2 : fl * (d * w) / 100 ≤ f2 * (d2 * w2) / 100 := by
    have := mul_le_mul hf.2 (mul_le_mul hd.2 hw.2 c0 (b0.trans hd.2)) (by positivity) (a0.trans hf.2)
    linarith
  exact cone_bounds (by positivity) h1 h2 (l.trans (pow_le_pow_left₀ (by positivity) p1 21))
    ((pow_le_pow_left₀ (by positivity) p2 21).trans u)

theorem pWhite_bounds : 29.4 ≤ pWhite ∧ pWhite ≤ 29.6 := by
  rw [pWhite_eq]
  obtain ⟨f1, f2⟩ := fl_bounds
  obtain ⟨⟨a1, a2⟩, ⟨b1, b2⟩, ⟨c1, c2⟩⟩ := rgbD_bounds
  have w0 : 97.55 ≤ (wpCones whitePointD65).x0 ∧ (wpCones whitePointD65).x0 ≤ 97.56 := by
    simp only [wpCones, whitePointD65]; norm_num
  have w1 : 101.64 ≤ (wpCones whitePointD65).x1 ∧ (wpCones whitePointD65).x1 ≤ 101.65 := by
    simp only [wpCones, whitePointD65]; norm_num
  have w2 : 108.47 ≤ (wpCones whitePointD65).x2 ∧ (wpCones whitePointD65).x2 ≤ 108.48 := by
    simp only [wpCones, whitePointD65]; norm_num
  have r := product_bounds (t1 := 0.67) (t2 := 0.672) ⟨f1.le, f2.le⟩ ⟨a1.le, a2.le⟩ w0 (by norm_num) (by norm_num) (by norm_num)
    (by norm_num) (by norm_num) (by norm_num) (by norm_num)
  have g := product_bounds (t1 := 0.672) (t2 := 0.674) ⟨f1.le, f2.le⟩ ⟨b1.le, b2.le⟩ w1 (by norm_num) (by norm_num) (by norm_num)
    (by norm_num) (by norm_num) (by norm_num) (by norm_num)
  have b := product_bounds (t1 := 0.674) (t2 := 0.677) ⟨f1.le, f2.le⟩ ⟨c1.le, c2.le⟩ w2 (by norm_num) (by norm_num) (by norm_num)
    (by norm_num) (by norm_num) (by norm_num) (by norm_num)
  generalize cone vc0.fl (vc0.rgbD.x0 * (wpCones whitePointD65).x0) = x at *
  generalize cone vc0.fl (vc0.rgbD.x1 * (wpCones whitePointD65).x1) = y at *
  generalize cone vc0.fl (vc0.rgbD.x2 * (wpCones whitePointD65).x2) = z at *
  norm_num at r g b ⊢
  constructor <;> linarith [r.1, r.2, g.1, g.2, b.1, b.2]

theorem rayOf_ok {h C : ℝ} (hC : 0 < C) : (rayOf h C).Ok := by
  have hv := sRgb_pos
  have hk := kappa_pos hv.n
  refine ⟨?_, vc0_q, ?_, ?_⟩
  · have := hv.aw; have := hv.nbb
    simp only [rayOf]; positivity
  · simp only [rayOf]; positivity
  · have := ehue_pos (h + 2)
    have := hv.nC; have := hv.ncb
    simp only [rayOf]; positivity

/-- The achromatic response at lightness `j`. -/
theorem ray_P (h C : ℝ) {j : ℝ} (hj : 0 < j) : (rayOf h C).P (log j) = pWhite * (j / 100) ^ (rayOf h C).q := by
  have := exp_div_rpow (log j) (rayOf h C).q
  rw [exp_log hj] at this
  rw [this]
  unfold Ray.P pWhite
  simp only [rayOf]
  ring

/-- A power of an exponent enclosed by rationals. -/
theorem rpow_upper {x e : ℝ} {a b : ℕ} {c : ℝ} (hb : b ≠ 0) (hx : 1 ≤ x) (hc : 0 ≤ c) (he : e ≤ (a : ℝ) / b) (h : x ^ a ≤ c ^ b) :
    x ^ e ≤ c :=
  (rpow_le_rpow_of_exponent_le hx he).trans (rpow_le_of_le_pow hb hc (by linarith) h)

theorem rpow_upper' {x e : ℝ} {a b : ℕ} {c : ℝ} (hb : b ≠ 0) (h0 : 0 < x) (hx : x ≤ 1) (hc : 0 ≤ c) (he : (a : ℝ) / b ≤ e) (h : x ^ a ≤ c ^ b) :
    x ^ e ≤ c :=
  (rpow_le_rpow_of_exponent_ge h0 hx he).trans (rpow_le_of_le_pow hb hc h0.le h)

theorem rpow_lower' {x e : ℝ} {a b : ℕ} {c : ℝ} (hb : b ≠ 0) (h0 : 0 < x) (hx : x ≤ 1) (hc : 0 ≤ c) (he : e ≤ (a : ℝ) / b) (h : c ^ b ≤ x ^ a) :
    c ≤ x ^ e :=
  (le_rpow_of_pow_le hb hc h0.le h).trans (rpow_le_rpow_of_exponent_ge h0 hx he)

/-- The achromatic response stays below 40 up to lightness 148.4. -/
theorem ray_P_small (h C : ℝ) {j : ℝ} (hj : 0 < j) (hj1 : j ≤ 148.4) : (rayOf h C).P (log j) ≤ 40 := by
  rw [ray_P h C hj]
  have hq : 0.7591 ≤ (rayOf h C).q ∧ (rayOf h C).q ≤ 0.7592 := vc0_q
  have h1 : (j / 100) ^ (rayOf h C).q ≤ (1.484 : ℝ) ^ (rayOf h C).q :=
    rpow_le_rpow (by positivity) (by norm_num at hj1 ⊢; linarith) (by norm_num at hq ⊢; linarith [hq.1])
  have h2 : (1.484 : ℝ) ^ (rayOf h C).q ≤ 1.3505 := by
    refine rpow_upper (a := 19) (b := 25) (by norm_num) (by norm_num) (by norm_num) ?_ (by norm_num)
    have := hq.2
    norm_num at this ⊢; linarith
  have := pWhite_bounds
  have h3 : 0 ≤ (j / 100) ^ (rayOf h C).q := by positivity
  calc _ ≤ 29.6 * (1.3505 : ℝ) := mul_le_mul this.2 (h1.trans h2) h3 (by norm_num)
    _ ≤ _ := by norm_num

/-- A stimulus at lightness `j`, when the response is at most `α` times the achromatic one. -/
theorem unadapt_upper {a α P s q k K W : ℝ} (hp : 29.4 ≤ W ∧ W ≤ 29.6) (ha : 0 < a) (hP : a ≤ α * P) (hs : 0 < s) (hPs : P = W * s ^ q) (hα : 0 ≤ α)
    (hP12 : a ≤ 12) (hk : 27.13 * α * 29.6 / 388 ≤ k) (hk0 : 0 ≤ k) (hK : 0 ≤ K) (hkK : k ^ 50 ≤ K ^ 21) :
    unadapt a ≤ K * s ^ (q / 0.42) := by
  have hs0 : 0 < s ^ q := rpow_pos_of_pos hs q
  have h1 : 27.13 * a / (400 - a) ≤ k * s ^ q := by
    calc 27.13 * a / (400 - a) ≤ 27.13 * (α * P) / 388 := by
          apply div_le_div₀ (by rw [hPs]; have := hp.1; positivity) (by linarith) (by norm_num) (by linarith)
      _ ≤ 27.13 * (α * (29.6 * s ^ q)) / 388 := by
          rw [hPs]; gcongr; exact hp.2
      _ = 27.13 * α * 29.6 / 388 * s ^ q := by ring
      _ ≤ _ := by gcongr
  have h2 : 0 < 400 - a := by linarith
  unfold unadapt
  calc (27.13 * a / (400 - a)) ^ (1 / 0.42 : ℝ) ≤ (k * s ^ q) ^ (1 / 0.42 : ℝ) :=
        rpow_le_rpow (by positivity) h1 (by norm_num)
    _ = k ^ (1 / 0.42 : ℝ) * s ^ (q / 0.42) := by
        rw [mul_rpow hk0 hs0.le, ← rpow_mul hs.le]; congr 2; ring
    _ ≤ _ := by
        gcongr
        rw [show (1 / 0.42 : ℝ) = ((50 : ℕ) : ℝ) / ((21 : ℕ) : ℝ) by norm_num]
        exact rpow_le_of_le_pow (by norm_num) hK hk0 hkK

theorem unadapt_lower {a α P s q k K W : ℝ} (hp : 29.4 ≤ W ∧ W ≤ 29.6) (ha : 0 < a) (ha4 : a < 400) (hP : α * P ≤ a) (hs : 0 < s) (hPs : P = W * s ^ q) (hα : 0 ≤ α)
    (hk : k ≤ 27.13 * α * 29.4 / 400) (hk0 : 0 ≤ k) (hK : 0 ≤ K) (hkK : K ^ 21 ≤ k ^ 50) :
    K * s ^ (q / 0.42) ≤ unadapt a := by
  have hs0 : 0 < s ^ q := rpow_pos_of_pos hs q
  have h2 : 0 < 400 - a := by linarith
  have h1 : k * s ^ q ≤ 27.13 * a / (400 - a) := by
    calc k * s ^ q ≤ 27.13 * α * 29.4 / 400 * s ^ q := by gcongr
      _ = 27.13 * (α * (29.4 * s ^ q)) / 400 := by ring
      _ ≤ 27.13 * (α * P) / 400 := by rw [hPs]; gcongr; exact hp.1
      _ ≤ 27.13 * a / (400 - a) := by
          apply div_le_div₀ (by positivity) (by linarith) h2 (by linarith)
  unfold unadapt
  calc _ ≤ k ^ (1 / 0.42 : ℝ) * s ^ (q / 0.42) := by
        gcongr
        rw [show (1 / 0.42 : ℝ) = ((50 : ℕ) : ℝ) / ((21 : ℕ) : ℝ) by norm_num]
        exact le_rpow_of_pow_le (by norm_num) hK hk0 hkK
    _ = (k * s ^ q) ^ (1 / 0.42 : ℝ) := by
        rw [mul_rpow hk0 hs0.le, ← rpow_mul hs.le]; congr 2; ring
    _ ≤ _ := rpow_le_rpow (by positivity) h1 (by norm_num)

/-- How the luminance of a colour near the gamut compares with the square of its lightness. -/
theorem lum_upper {R : Ray} {s v W : ℝ} (hW : 29.4 ≤ W ∧ W ≤ 29.6) (hn : NearGamut (R.Ar v) (R.Ag v) (R.Ab v)) (hs : 0 < s)
    (hP : R.P v = W * s ^ R.q) (hp : R.P v ≤ 32) : R.lum wR wG wB v ≤ 128 * s ^ (R.q / 0.42) := by
  have e := Ray.achromatic_eq (R := R) v
  unfold achromatic at e
  have hr := hn.r_pos; have hg := hn.pos; have hb := hn.b_pos
  have a1 := hn.r_lo; have a2 := hn.r_hi; have a3 := hn.b_lo; have a4 := hn.b_hi
  have hx := unadapt_upper (α := 0.3652) (k := 0.756) (K := 0.514) hW hr (by norm_num at *; linarith) hs hP (by norm_num) (by norm_num at *; linarith)
    (by norm_num) (by norm_num) (by norm_num) (by norm_num)
  have hy := unadapt_upper (α := 0.3547) (k := 0.7342) (K := 0.4793) hW hg (by norm_num at *; linarith) hs hP (by norm_num) (by norm_num at *; linarith)
    (by norm_num) (by norm_num) (by norm_num) (by norm_num)
  have hz := unadapt_pos hb (by norm_num at *; linarith)
  obtain ⟨w1, w2, w3, w4, w5, w6⟩ := weights
  have hx0 := unadapt_pos hr (by norm_num at *; linarith)
  have hy0 := unadapt_pos hg (by norm_num at *; linarith)
  have hs' : 0 < s ^ (R.q / 0.42) := rpow_pos_of_pos hs _
  unfold Ray.lum
  have m1 := mul_le_mul_of_nonneg_right w2 hx0.le
  have m2 := mul_le_mul_of_nonneg_right w4 hy0.le
  have m3 : 0 ≤ wB * unadapt (R.Ab v) := mul_nonneg (by norm_num at *; linarith) hz.le
  norm_num at *; linarith

theorem lum_lower {R : Ray} {s v W : ℝ} (hW : 29.4 ≤ W ∧ W ≤ 29.6) (hn : NearGamut (R.Ar v) (R.Ag v) (R.Ab v)) (hs : 0 < s)
    (hP : R.P v = W * s ^ R.q) (hp : R.P v ≤ 32) (hbg : unadapt (R.Ab v) ≤ 10.09 * unadapt (R.Ag v)) :
    59.2 * s ^ (R.q / 0.42) ≤ R.lum wR wG wB v := by
  have e := Ray.achromatic_eq (R := R) v
  unfold achromatic at e
  have hr := hn.r_pos; have hg := hn.pos; have hb := hn.b_pos
  have a1 := hn.r_lo; have a2 := hn.r_hi; have a3 := hn.b_lo; have a4 := hn.b_hi
  have hx := unadapt_lower (α := 0.308) (k := 0.614) (K := 0.313) hW hr (by norm_num at *; linarith) (by norm_num at *; linarith) hs hP (by norm_num)
    (by norm_num) (by norm_num) (by norm_num) (by norm_num)
  have hy := unadapt_lower (α := 0.2604) (k := 0.519) (K := 0.2095) hW hg (by norm_num at *; linarith) (by norm_num at *; linarith) hs hP (by norm_num)
    (by norm_num) (by norm_num) (by norm_num) (by norm_num)
  have hz := unadapt_pos hb (by norm_num at *; linarith)
  obtain ⟨w1, w2, w3, w4, w5, w6⟩ := weights
  have hx0 := unadapt_pos hr (by norm_num at *; linarith)
  have hy0 := unadapt_pos hg (by norm_num at *; linarith)
  have hs' : 0 < s ^ (R.q / 0.42) := rpow_pos_of_pos hs _
  unfold Ray.lum
  have m1 := mul_le_mul_of_nonneg_right w1 hx0.le
  have m2 := mul_le_mul_of_nonneg_right w3 hy0.le
  have m3 := mul_le_mul_of_nonneg_right w6 hz.le
  norm_num at *; linarith

theorem lum_gray {R : Ray} {s v W : ℝ} (hW : 29.4 ≤ W ∧ W ≤ 29.6) (hg : R.gam v = 0) (hs : 0 < s) (h0 : 0 < R.P v)
    (hP : R.P v = W * s ^ R.q) (hp : R.P v ≤ 32) : 93 * s ^ (R.q / 0.42) ≤ R.lum wR wG wB v := by
  have er : R.Ar v = R.P v / 3.05 := by unfold Ray.Ar; rw [hg]; norm_num; ring
  have eg : R.Ag v = R.P v / 3.05 := by unfold Ray.Ag; rw [hg]; norm_num; ring
  have eb : R.Ab v = R.P v / 3.05 := by unfold Ray.Ab; rw [hg]; norm_num; ring
  have hx := unadapt_lower (a := R.P v / 3.05) (α := 1 / 3.05) (k := 0.6537) (K := 0.3633) hW (by positivity) (by norm_num at *; linarith) (by ring_nf; rfl) hs hP (by norm_num)
    (by norm_num) (by norm_num) (by norm_num) (by norm_num)
  obtain ⟨w1, w2, w3, w4, w5, w6⟩ := weights
  unfold Ray.lum
  rw [er, eg, eb]
  have hs' : 0 < s ^ (R.q / 0.42) := rpow_pos_of_pos hs _
  have hx0 := unadapt_pos (a := R.P v / 3.05) (by positivity) (by norm_num at *; linarith)
  have : 257.2 * unadapt (R.P v / 3.05) ≤ (wR + wG - wB) * unadapt (R.P v / 3.05) :=
    mul_le_mul_of_nonneg_right (by norm_num at *; linarith) hx0.le
  norm_num at *; linarith

/-- The excess of the power of the lightness in the luminance over a square. -/
theorem power_split {s q : ℝ} (hs : 0 < s) : s ^ (q / 0.42) = s ^ 2 * (s⁻¹) ^ (2 - q / 0.42) := by
  rw [inv_rpow hs.le, ← rpow_neg hs.le, ← rpow_natCast s 2, ← rpow_add hs]
  congr 1; push_cast; ring

theorem excess {q : ℝ} (hq : 0.7591 ≤ q ∧ q ≤ 0.7592) : 0.1923 ≤ 2 - q / 0.42 ∧ 2 - q / 0.42 ≤ 0.1927 := by
  norm_num at *; constructor <;> linarith [hq.1, hq.2]

/-- The start of the search: compare luminances.  The lightness is `100 s` and the wanted luminance `y`. -/
theorem start_near {h C y : ℝ} (hC : 0 < C) (hy : 0 < y) (hy1 : y ≤ 100)
    (h0 : ∀ i, 0 ≤ (linrgbOfJ h C (sqrt y * 11)).get i) (hl : 0 < luminance (linrgbOfJ h C (sqrt y * 11))) :
    0.69 * y ≤ luminance (linrgbOfJ h C (sqrt y * 11)) ∧
    (1 / 2 ≤ y → luminance (linrgbOfJ h C (sqrt y * 11)) ≤ 2.6 * y) ∧
    (1.1e-5 ≤ y → luminance (linrgbOfJ h C (sqrt y * 11)) ≤ 7.5 * y) ∧
    ((rayOf h C).den (log (sqrt y * 11)) = 0 → y < luminance (linrgbOfJ h C (sqrt y * 11))) := by
  have hu : 0 < sqrt y := sqrt_pos.2 hy
  have hj : 0 < sqrt y * 11 := by positivity
  have hu10 : sqrt y ≤ 10 := by rw [sqrt_le_left (by norm_num)]; norm_num; exact hy1
  have sq : sqrt y ^ 2 = y := sq_sqrt hy.le
  have hh := visited_near (h := h) hC (log (sqrt y * 11)) (by rwa [exp_log hj]) (by rwa [exp_log hj])
  rw [exp_log hj] at hh
  obtain ⟨hn, hlum, hbg⟩ := hh
  rw [hlum]
  have hP := ray_P h C hj
  set R := rayOf h C with hR
  set s := sqrt y * 11 / 100 with hs'
  have hok : R.Ok := rayOf_ok hC
  have hs : 0 < s := by positivity
  have hs11 : s ≤ 1.1 := by rw [hs']; norm_num; linarith
  have ss : s ^ 2 = 0.0121 * y := by rw [hs', div_pow, mul_pow, sq]; norm_num; ring
  obtain ⟨x1, x2⟩ := excess hok.q
  set δ := 2 - R.q / 0.42 with hδ
  have hp32 : R.P (log (sqrt y * 11)) ≤ 32 := by
    rw [hP]
    have h1 : s ^ R.q ≤ 1.1 ^ R.q := rpow_le_rpow hs.le hs11 (by have := hok.q.1; norm_num at this ⊢; linarith)
    have h2 : (1.1 : ℝ) ^ R.q ≤ 1.08 := by
      refine rpow_upper (a := 19) (b := 25) (by norm_num) (by norm_num) (by norm_num) ?_ (by norm_num)
      have := hok.q.2; norm_num at this ⊢; linarith
    have := pWhite_bounds
    calc _ ≤ 29.6 * (1.08 : ℝ) := mul_le_mul this.2 (h1.trans h2) (by positivity) (by norm_num)
      _ ≤ _ := by norm_num
  have up := lum_upper pWhite_bounds hn hs hP hp32
  have lo := lum_lower pWhite_bounds hn hs hP hp32 (hbg.trans (mul_le_mul_of_nonneg_right (by norm_num) (unadapt_pos hn.pos (by
    have := hn.g_small (by rw [Ray.achromatic_eq]; linarith : achromatic (R.Ar (log (sqrt y * 11))) (R.Ag (log (sqrt y * 11))) (R.Ab (log (sqrt y * 11))) ≤ 40)
    linarith)).le))
  rw [power_split hs, ss] at up lo
  rw [← hδ] at up lo
  have hinv : 0 < s⁻¹ := by positivity
  have eL : 0.9816 ≤ (s⁻¹) ^ δ := by
    have h1 : (1.1 : ℝ)⁻¹ ≤ s⁻¹ := inv_anti₀ hs hs11
    have h2 : (1.1 : ℝ)⁻¹ ^ δ ≤ (s⁻¹) ^ δ := rpow_le_rpow (by norm_num) h1 (by norm_num at x1 ⊢; linarith)
    refine le_trans ?_ h2
    refine rpow_lower' (a := 6) (b := 31) (by norm_num) (by norm_num) (by norm_num) (by norm_num) ?_ ?_
    · norm_num at x2 ⊢; linarith
    · norm_num
  refine ⟨?_, ?_, ?_, ?_⟩
  · have : 0.0121 * y * 0.9816 ≤ 0.0121 * y * (s⁻¹) ^ δ := by gcongr
    norm_num at *; linarith
  · intro hy2
    have h1 : s⁻¹ ≤ 13 := by
      rw [inv_le_comm₀ hs (by norm_num)]
      have : (0.7 : ℝ) ≤ sqrt y := le_sqrt_of_sq_le (by norm_num at hy2 ⊢; linarith)
      rw [hs']; norm_num at this ⊢; linarith
    have h2 : (s⁻¹) ^ δ ≤ 13 ^ δ := rpow_le_rpow hinv.le h1 (by norm_num at x1 ⊢; linarith)
    have h3 : (13 : ℝ) ^ δ ≤ 1.645 := by
      refine rpow_upper (a := 6) (b := 31) (by norm_num) (by norm_num) (by norm_num) ?_ ?_
      · norm_num at x2 ⊢; linarith
      · norm_num
    have : 0.0121 * y * (s⁻¹) ^ δ ≤ 0.0121 * y * 1.645 := mul_le_mul_of_nonneg_left (h2.trans h3) (by positivity)
    norm_num at *; linarith
  · intro hy2
    have h1 : s⁻¹ ≤ 2800 := by
      rw [inv_le_comm₀ hs (by norm_num)]
      have : (0.0033 : ℝ) ≤ sqrt y := le_sqrt_of_sq_le (by norm_num at hy2 ⊢; linarith)
      rw [hs']; norm_num at this ⊢; linarith
    have h2 : (s⁻¹) ^ δ ≤ 2800 ^ δ := rpow_le_rpow hinv.le h1 (by norm_num at x1 ⊢; linarith)
    have h3 : (2800 : ℝ) ^ δ ≤ 4.8 := by
      refine rpow_upper (a := 6) (b := 31) (by norm_num) (by norm_num) (by norm_num) ?_ ?_
      · norm_num at x2 ⊢; linarith
      · norm_num
    have : 0.0121 * y * (s⁻¹) ^ δ ≤ 0.0121 * y * 4.8 := mul_le_mul_of_nonneg_left (h2.trans h3) (by positivity)
    norm_num at *; linarith
  · intro hd
    have hg : R.gam (log (sqrt y * 11)) = 0 := by unfold Ray.gam; rw [hd, div_zero]
    have := lum_gray pWhite_bounds hg hs (Ray.P_pos hok _) hP hp32
    rw [power_split hs, ss, ← hδ] at this
    have h1 : 0.0121 * y * 0.9816 ≤ 0.0121 * y * (s⁻¹) ^ δ := by gcongr
    norm_num at *; linarith

end Mcu.Lemmas
