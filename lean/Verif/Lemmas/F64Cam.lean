import Verif.Lemmas.F64Forward
import Verif.Spec.LibmRange

/-! The CAM16 coordinates of a colour in IEEE-754 binary64 are finite and in range. -/

namespace Mcu.Lemmas

open Mcu.Ieee Props Props.Binary64 MathUtils ColorUtils HctSolver Real

variable {L : Libm}

local notation "𝔻" => F64 L

/-! ### Arithmetic of numbers that are not negative -/

theorem nn_rnd {x : 𝔻} {v B B' : ℝ} (h : |rnd v| < 2 ^ 1024 → Is x (rnd v)) (h0 : 0 ≤ v) (hv : v ≤ B) (hB : B + 1 ≤ B') (h1 : B' ≤ 10 ^ 10) : In x 0 B' := by
  obtain ⟨w, iw, hw⟩ := bd_rnd h (by rw [abs_of_nonneg h0]; exact hv) hB h1
  refine ⟨w, iw, ?_, (abs_le.1 hw).2⟩
  have hb : |v| ≤ 10 ^ 10 := by rw [abs_of_nonneg h0]; linarith
  rw [iw.unique (h (rnd_huge (hb.trans (by norm_num))))]
  exact rnd_nonneg h0

theorem In.add0 {x y : 𝔻} {a b : ℝ} (hx : In x 0 a) (hy : In y 0 b) (B : ℝ) (hB : a + b + 1 ≤ B) (h1 : B ≤ 10 ^ 10) : In (x + y) 0 B := by
  obtain ⟨v, iv, v0, v1⟩ := hx
  obtain ⟨w, iw, w0, w1⟩ := hy
  exact nn_rnd (fun h => iv.add iw h) (add_nonneg v0 w0) (add_le_add v1 w1) hB h1

theorem In.mul0 {x y : 𝔻} {a b : ℝ} (hx : In x 0 a) (hy : In y 0 b) (B : ℝ) (hB : a * b + 1 ≤ B) (h1 : B ≤ 10 ^ 10) : In (x * y) 0 B := by
  obtain ⟨v, iv, v0, v1⟩ := hx
  obtain ⟨w, iw, w0, w1⟩ := hy
  exact nn_rnd (fun h => iv.mul iw h) (mul_nonneg v0 w0) (mul_le_mul v1 w1 w0 (v0.trans v1)) hB h1

theorem In.div0 {x y : 𝔻} {a b c : ℝ} (hx : In x 0 a) (hy : In y b c) (hb : 0 < b) (B : ℝ) (hB : a / b + 1 ≤ B) (h1 : B ≤ 10 ^ 10) : In (x / y) 0 B := by
  obtain ⟨v, iv, v0, v1⟩ := hx
  obtain ⟨w, iw, w0, w1⟩ := hy
  have hw : 0 < w := hb.trans_le w0
  exact nn_rnd (fun h => iv.div iw hw.ne' h) (div_nonneg v0 hw.le) (div_le_div₀ (v0.trans v1) v1 hb w0) hB h1

theorem In.sqrt0 {x : 𝔻} {a : ℝ} (hx : In x 0 a) (B : ℝ) (hB0 : 1 ≤ B) (hB : a ≤ (B - 1) ^ 2) (h1 : B ≤ 10 ^ 10) : In (Fl.sqrt x) 0 B := by
  obtain ⟨v, iv, v0, v1⟩ := hx
  refine nn_rnd (B := B - 1) (fun h => iv.sqrt v0 h) (Real.sqrt_nonneg _) ?_ (by linarith) h1
  rw [Real.sqrt_le_left (by linarith)]
  linarith

theorem In.zero {x : 𝔻} {a b : ℝ} (h : In x a b) (h0 : 0 ≤ a) (B : ℝ) (hB : b ≤ B) : In x 0 B := by
  obtain ⟨v, iv, v0, v1⟩ := h
  exact ⟨v, iv, h0.trans v0, v1.trans hB⟩

theorem Bd.sq {x : 𝔻} {a : ℝ} (hx : Bd x a) (B : ℝ) (hB : a ^ 2 + 1 ≤ B) (h1 : B ≤ 10 ^ 10) : In (x * x) 0 B := by
  obtain ⟨v, iv, hv⟩ := hx
  refine nn_rnd (fun h => iv.mul iv h) (mul_self_nonneg v) ?_ hB h1
  rw [← abs_mul_abs_self, ← pow_two]
  exact pow_le_pow_left₀ (abs_nonneg _) hv 2

theorem Bd.div {x y : 𝔻} {a b c : ℝ} (hx : Bd x a) (hy : In y b c) (hb : 1 ≤ b) (B : ℝ) (hB : a + 1 ≤ B) (h1 : B ≤ 10 ^ 10) : Bd (x / y) B := by
  obtain ⟨v, iv, hv⟩ := hx
  obtain ⟨w, iw, w0, w1⟩ := hy
  have hw : 0 < w := by linarith
  refine bd_rnd (fun h => iv.div iw hw.ne' h) ?_ hB h1
  rw [abs_div, abs_of_pos hw, div_le_iff₀ hw]
  nlinarith [abs_nonneg v]

/-- Powers with exponents up to 1 or up to 2. -/
theorem In.pow0 (hL : L.PowOk) (hD : L.PowDark) {x y : 𝔻} {a l u : ℝ} (hx : In x 0 a) (hy : In y l u) (hl : 0.1 ≤ l) {k : ℕ} (hu : u ≤ k) (hk : k = 1 ∨ k = 2) (ha : 1 ≤ a)
    (B : ℝ) (hB : a ^ k + a ^ k / 10 + 1 ≤ B) (h1 : B ≤ 10 ^ 60) : In (Fl.powf x y) 0 B := by
  obtain ⟨v, iv, v0, v1⟩ := hx
  obtain ⟨e, ie, e0, e1⟩ := hy
  have p2 : 1 ≤ a ^ k := one_le_pow₀ ha
  have k2 : (k : ℝ) ≤ 2 := by rcases hk with rfl | rfl <;> norm_num
  rcases le_or_gt v (1 / 10 ^ 6) with h | h
  · obtain ⟨a1, a2, a3⟩ := hD x y iv.1 ie.1 (by rw [iv.2]; exact v0) (by rw [iv.2]; exact h) (by rw [ie.2]; linarith) (by rw [ie.2]; linarith)
    exact ⟨_, ⟨a1, rfl⟩, a2, a3.trans (by linarith)⟩
  · have hb : a ≤ 10 ^ 60 := by
      have : a ≤ a ^ k := le_self_pow₀ ha (by rcases hk with rfl | rfl <;> norm_num)
      linarith
    have he : 0 ≤ e := by norm_num at hl; linarith
    obtain ⟨a1, a2⟩ := hL x y iv.1 ie.1 (by rw [iv.2]; exact h.le) (by rw [iv.2]; linarith) (by rw [ie.2]; exact he) (by rw [ie.2]; linarith)
    rw [iv.2, ie.2] at a2
    have p0 : 0 ≤ v ^ e := Real.rpow_nonneg v0 _
    have p1 : v ^ e ≤ a ^ k := by
      calc v ^ e ≤ a ^ e := Real.rpow_le_rpow v0 v1 he
        _ ≤ a ^ (k : ℝ) := Real.rpow_le_rpow_of_exponent_le ha (by linarith)
        _ = a ^ k := Real.rpow_natCast a k
    refine ⟨_, ⟨a1, rfl⟩, ?_, ?_⟩
    · change 0 ≤ (L.powf x y).val
      have := abs_le.1 a2
      generalize v ^ e = q at *
      generalize a ^ k = ak at *
      norm_num at *
      linarith
    · change (L.powf x y).val ≤ B
      have := abs_le.1 a2
      generalize v ^ e = q at *
      generalize a ^ k = ak at *
      norm_num at *
      linarith

/-! ### The cone responses -/

theorem is_linearized_zero : Is (linearized 0 : 𝔻) 0 := by
  have h0 : Is (Fl.ofInt 0 : 𝔻) ((0 : ℤ) : ℝ) := is_ofInt (by norm_num)
  have l255 : Is (255.0 : 𝔻) 255 := by simpa using lit (L := L) 2550 1 true 255 (by norm_num) (by norm_num)
  have hn : Is (Fl.ofInt 0 / 255.0 : 𝔻) 0 := by
    have := h0.div l255 (by norm_num) (by simp [rnd_zero])
    simpa [rnd_zero] using this
  obtain ⟨t, it, t0, t1⟩ := in_lit (L := L) (m := 40449936) (s := true) (e := 9) 0.040449936 (by norm_num) (by norm_num [abs_le])
  obtain ⟨w, iw, w0, w1⟩ := in_lit (L := L) (m := 1292) (s := true) (e := 2) 12.92 (by norm_num) (by norm_num [abs_le])
  have hle : (Fl.ofInt 0 / 255.0 : 𝔻) ≤ 0.040449936 := by
    change _ ≤ (OfScientific.ofScientific 40449936 true 9 : 𝔻)
    rw [hn.le_iff it]; norm_num at t0; linarith
  simp only [linearized]
  rw [if_pos hle]
  have hd : Is (Fl.ofInt 0 / 255.0 / 12.92 : 𝔻) 0 := by
    have := hn.div iw (by norm_num at w0; linarith) (by simp [rnd_zero])
    simpa [rnd_zero] using this
  have := hd.mul l100 (by simp [rnd_zero])
  simpa [rnd_zero] using this

theorem Is.zero_mul {x y : 𝔻} {a : ℝ} (hx : Is x 0) (hy : Is y a) : Is (x * y) 0 := by
  have := hx.mul hy (by simp [rnd_zero])
  simpa [rnd_zero] using this
theorem Is.mul_zero {x y : 𝔻} {a : ℝ} (hx : Is x a) (hy : Is y 0) : Is (x * y) 0 := by
  have := hx.mul hy (by simp [rnd_zero])
  simpa [rnd_zero] using this
theorem Is.add_zero {x y : 𝔻} (hx : Is x 0) (hy : Is y 0) : Is (x + y) 0 := by
  have := hx.add hy (by simp [rnd_zero])
  simpa [rnd_zero] using this
theorem Is.sub_zero {x y : 𝔻} (hx : Is x 0) (hy : Is y 0) : Is (x - y) 0 := by
  have := hx.sub hy (by simp [rnd_zero])
  simpa [rnd_zero] using this

theorem is_some_lit {m e : ℕ} {s : Bool} (v : ℝ) (hv : (OfScientific.ofScientific m s e : ℝ) = v) (h : |v| ≤ 1000) :
    ∃ w, Is (OfScientific.ofScientific m s e : 𝔻) w := by
  obtain ⟨w, iw, -⟩ := in_lit (L := L) (m := m) (s := s) (e := e) v hv (by linarith)
  exact ⟨w, iw⟩

/-- The cone responses before compression, cam16.rs 135-137. -/
noncomputable def conesOf (x y z : 𝔻) : Vec3 𝔻 := ⟨0.401288 * x + 0.650173 * y - 0.051461 * z, (-0.250268) * x + 1.204414 * y + 0.045854 * z,
  (-0.002079) * x + 0.048952 * y + 0.953127 * z⟩

theorem cones_zero {x y z : 𝔻} (hx : Is x 0) (hy : Is y 0) (hz : Is z 0) : Is (conesOf x y z).x0 0 ∧ Is (conesOf x y z).x1 0 ∧ Is (conesOf x y z).x2 0 := by
  obtain ⟨a0, i0⟩ := is_some_lit (L := L) (m := 401288) (s := true) (e := 6) 0.401288 (by norm_num) (by norm_num [abs_le])
  obtain ⟨a1, i1⟩ := is_some_lit (L := L) (m := 650173) (s := true) (e := 6) 0.650173 (by norm_num) (by norm_num [abs_le])
  obtain ⟨a2, i2⟩ := is_some_lit (L := L) (m := 51461) (s := true) (e := 6) 0.051461 (by norm_num) (by norm_num [abs_le])
  obtain ⟨b0, j0⟩ := is_some_lit (L := L) (m := 250268) (s := true) (e := 6) 0.250268 (by norm_num) (by norm_num [abs_le])
  obtain ⟨b1, j1⟩ := is_some_lit (L := L) (m := 1204414) (s := true) (e := 6) 1.204414 (by norm_num) (by norm_num [abs_le])
  obtain ⟨b2, j2⟩ := is_some_lit (L := L) (m := 45854) (s := true) (e := 6) 0.045854 (by norm_num) (by norm_num [abs_le])
  obtain ⟨c0, k0⟩ := is_some_lit (L := L) (m := 2079) (s := true) (e := 6) 0.002079 (by norm_num) (by norm_num [abs_le])
  obtain ⟨c1, k1⟩ := is_some_lit (L := L) (m := 48952) (s := true) (e := 6) 0.048952 (by norm_num) (by norm_num [abs_le])
  obtain ⟨c2, k2⟩ := is_some_lit (L := L) (m := 953127) (s := true) (e := 6) 0.953127 (by norm_num) (by norm_num [abs_le])
  exact ⟨((i0.mul_zero hx).add_zero (i1.mul_zero hy)).sub_zero (i2.mul_zero hz), ((j0.neg.mul_zero hx).add_zero (j1.mul_zero hy)).add_zero (j2.mul_zero hz),
    ((k0.neg.mul_zero hx).add_zero (k1.mul_zero hy)).add_zero (k2.mul_zero hz)⟩

theorem cones_near {x y z : 𝔻} {X Y Z : ℝ} (hx : Ap x X (13 / 10 ^ 8)) (hy : Ap y Y (13 / 10 ^ 8)) (hz : Ap z Z (13 / 10 ^ 8)) (bx : |X| ≤ 110) (bY : |Y| ≤ 110) (bz : |Z| ≤ 110) :
    Ap (conesOf x y z).x0 (0.401288 * X + 0.650173 * Y - 0.051461 * Z) (1 / 10 ^ 6) ∧ Ap (conesOf x y z).x1 (-0.250268 * X + 1.204414 * Y + 0.045854 * Z) (1 / 10 ^ 6) ∧
    Ap (conesOf x y z).x2 (-0.002079 * X + 0.048952 * Y + 0.953127 * Z) (1 / 10 ^ 6) := by
  have hρ : ρ = 1 / 10 ^ 12 := rfl
  have term {c v : 𝔻} {C V : ℝ} (hc : Ap c C ρ) (hv : Ap v V (13 / 10 ^ 8)) (bc : |C| ≤ 1.3) (bv : |V| ≤ 110) : Ap (c * v) (C * V) (2 / 10 ^ 7) ∧ |C * V| ≤ 143 := by
    refine ⟨(hc.mul hv bc bv (by rw [hρ]; norm_num)).weaken (by rw [hρ]; norm_num), ?_⟩
    rw [abs_mul]
    exact (mul_le_mul bc bv (abs_nonneg _) (by norm_num)).trans (by norm_num)
  have sum {p q r : 𝔻} {P Q R : ℝ} (hp : Ap p P (2 / 10 ^ 7) ∧ |P| ≤ 143) (hq : Ap q Q (2 / 10 ^ 7) ∧ |Q| ≤ 143) (hr : Ap r R (2 / 10 ^ 7) ∧ |R| ≤ 143) :
      Ap (p + q + r) (P + Q + R) (1 / 10 ^ 6) := by
    have a := abs_add_le P Q
    have b := abs_add_le (P + Q) R
    refine ((hp.1.add hq.1 ?_).add hr.1 ?_).weaken ?_
    · have := hp.2; have := hq.2; norm_num; linarith
    · rw [hρ]; have := hp.2; have := hq.2; have := hr.2; norm_num; linarith
    · rw [hρ]; norm_num
  have neg {p : 𝔻} {P : ℝ} (hp : Ap p P (2 / 10 ^ 7) ∧ |P| ≤ 143) : Ap (-p) (-P) (2 / 10 ^ 7) ∧ |-P| ≤ 143 := ⟨hp.1.neg, by rw [abs_neg]; exact hp.2⟩
  refine ⟨?_, ?_, ?_⟩
  · have := sum (term (ap_lit (m := 401288) (s := true) (e := 6) (v := 0.401288) rfl (by norm_num [abs_of_pos])) hx (by norm_num [abs_of_pos]) bx)
      (term (ap_lit (m := 650173) (s := true) (e := 6) (v := 0.650173) rfl (by norm_num [abs_of_pos])) hy (by norm_num [abs_of_pos]) bY)
      (neg (term (ap_lit (m := 51461) (s := true) (e := 6) (v := 0.051461) rfl (by norm_num [abs_of_pos])) hz (by norm_num [abs_of_pos]) bz))
    rw [← sub_eq_add_neg] at this
    exact this
  · exact sum (term (ap_lit (m := 250268) (s := true) (e := 6) (v := 0.250268) rfl (by norm_num [abs_of_pos])).neg hx (by norm_num [abs_of_pos]) bx)
      (term (ap_lit (m := 1204414) (s := true) (e := 6) (v := 1.204414) rfl (by norm_num [abs_of_pos])) hy (by norm_num [abs_of_pos]) bY)
      (term (ap_lit (m := 45854) (s := true) (e := 6) (v := 0.045854) rfl (by norm_num [abs_of_pos])) hz (by norm_num [abs_of_pos]) bz)
  · exact sum (term (ap_lit (m := 2079) (s := true) (e := 6) (v := 0.002079) rfl (by norm_num [abs_of_pos])).neg hx (by norm_num [abs_of_pos]) bx)
      (term (ap_lit (m := 48952) (s := true) (e := 6) (v := 0.048952) rfl (by norm_num [abs_of_pos])) hy (by norm_num [abs_of_pos]) bY)
      (term (ap_lit (m := 953127) (s := true) (e := 6) (v := 0.953127) rfl (by norm_num [abs_of_pos])) hz (by norm_num [abs_of_pos]) bz)

theorem in_cones (hL : L.PowOk) (argb : Int) : let v : Vec3 𝔻 := xyzFromArgb argb
    In (conesOf v.x0 v.x1 v.x2).x0 0 110 ∧ In (conesOf v.x0 v.x1 v.x2).x1 0 110 ∧ In (conesOf v.x0 v.x1 v.x2).x2 0 110 := by
  intro v
  by_cases hk : redFromArgb argb = 0 ∧ greenFromArgb argb = 0 ∧ blueFromArgb argb = 0
  · have row {m0 m1 m2 : 𝔻} {a0 a1 a2 : ℝ} (h0 : Is m0 a0) (h1 : Is m1 a1) (h2 : Is m2 a2) : Is (linearized 0 * m0 + linearized 0 * m1 + linearized 0 * m2 : 𝔻) 0 :=
      ((is_linearized_zero.zero_mul h0).add_zero (is_linearized_zero.zero_mul h1)).add_zero (is_linearized_zero.zero_mul h2)
    have e : v = matrixMultiply ⟨linearized 0, linearized 0, linearized 0⟩ srgbToXyz := by
      simp only [v, xyzFromArgb, hk.1, hk.2.1, hk.2.2]
    obtain ⟨a0, i0⟩ := is_some_lit (L := L) (m := 41233895) (s := true) (e := 8) 0.41233895 (by norm_num) (by norm_num [abs_le])
    obtain ⟨a1, i1⟩ := is_some_lit (L := L) (m := 35762064) (s := true) (e := 8) 0.35762064 (by norm_num) (by norm_num [abs_le])
    obtain ⟨a2, i2⟩ := is_some_lit (L := L) (m := 18051042) (s := true) (e := 8) 0.18051042 (by norm_num) (by norm_num [abs_le])
    obtain ⟨b0, j0⟩ := is_some_lit (L := L) (m := 2126) (s := true) (e := 4) 0.2126 (by norm_num) (by norm_num [abs_le])
    obtain ⟨b1, j1⟩ := is_some_lit (L := L) (m := 7152) (s := true) (e := 4) 0.7152 (by norm_num) (by norm_num [abs_le])
    obtain ⟨b2, j2⟩ := is_some_lit (L := L) (m := 722) (s := true) (e := 4) 0.0722 (by norm_num) (by norm_num [abs_le])
    obtain ⟨c0, k0⟩ := is_some_lit (L := L) (m := 1932141) (s := true) (e := 8) 0.01932141 (by norm_num) (by norm_num [abs_le])
    obtain ⟨c1, k1⟩ := is_some_lit (L := L) (m := 11916382) (s := true) (e := 8) 0.11916382 (by norm_num) (by norm_num [abs_le])
    obtain ⟨c2, k2⟩ := is_some_lit (L := L) (m := 95034478) (s := true) (e := 8) 0.95034478 (by norm_num) (by norm_num [abs_le])
    have x0 : Is v.x0 0 := by rw [e]; exact row i0 i1 i2
    have x1 : Is v.x1 0 := by rw [e]; exact row j0 j1 j2
    have x2 : Is v.x2 0 := by rw [e]; exact row k0 k1 k2
    obtain ⟨h0, h1, h2⟩ := cones_zero x0 x1 x2
    exact ⟨⟨0, h0, le_rfl, by norm_num⟩, ⟨0, h1, le_rfl, by norm_num⟩, ⟨0, h2, le_rfl, by norm_num⟩⟩
  · obtain ⟨hr, hg, hb⟩ := channel_range argb
    have pos {c : ℤ} (h : 1 ≤ c) : 0.03 ≤ (linearized c : ℝ) := by
      have : (linearized 1 : ℝ) ≤ linearized c := c10_strictMono.monotone h
      rw [linearized_small (c := 1) (by norm_num)] at this
      norm_num at this ⊢; linarith
    have some : 0.03 ≤ (linearized (redFromArgb argb) : ℝ) ∨ 0.03 ≤ (linearized (greenFromArgb argb) : ℝ) ∨ 0.03 ≤ (linearized (blueFromArgb argb) : ℝ) := by
      by_cases h1 : 1 ≤ redFromArgb argb
      · exact .inl (pos h1)
      · by_cases h2 : 1 ≤ greenFromArgb argb
        · exact .inr (.inl (pos h2))
        · exact .inr (.inr (pos (by omega)))
    obtain ⟨⟨r0, r1⟩, ⟨g0, g1⟩, b0, b1⟩ := rgb_bounds argb
    have ex : (xyzFromArgb argb : Vec3 ℝ).x0 = 0.41233895 * linearized (redFromArgb argb) +
        0.35762064 * linearized (greenFromArgb argb) + 0.18051042 * linearized (blueFromArgb argb) := by
      simp only [xyzFromArgb, matrixMultiply, srgbToXyz]; ring
    have ey : (xyzFromArgb argb : Vec3 ℝ).x1 = 0.2126 * linearized (redFromArgb argb) +
        0.7152 * linearized (greenFromArgb argb) + 0.0722 * linearized (blueFromArgb argb) := by
      simp only [xyzFromArgb, matrixMultiply, srgbToXyz]; ring
    have ez : (xyzFromArgb argb : Vec3 ℝ).x2 = 0.01932141 * linearized (redFromArgb argb) +
        0.11916382 * linearized (greenFromArgb argb) + 0.95034478 * linearized (blueFromArgb argb) := by
      simp only [xyzFromArgb, matrixMultiply, srgbToXyz]; ring
    obtain ⟨a0, a1, a2⟩ := ap_xyz hL argb
    rw [ex] at a0; rw [ey] at a1; rw [ez] at a2
    generalize (linearized (redFromArgb argb) : ℝ) = r at *
    generalize (linearized (greenFromArgb argb) : ℝ) = g at *
    generalize (linearized (blueFromArgb argb) : ℝ) = b at *
    clear ex ey ez hr hg hb hk pos
    obtain ⟨c0, c1, c2⟩ := cones_near a0 a1 a2 (by rw [abs_of_nonneg (by positivity)]; norm_num; linarith) (by rw [abs_of_nonneg (by positivity)]; norm_num; linarith)
      (by rw [abs_of_nonneg (by positivity)]; norm_num; linarith)
    have fin {x : 𝔻} {t : ℝ} (h : Ap x t (1 / 10 ^ 6)) (t0 : 1 / 10 ^ 5 ≤ t) (t1 : t ≤ 109) : In x 0 110 := by
      obtain ⟨w, iw, hw⟩ := h
      have := abs_le.1 hw
      exact ⟨w, iw, by norm_num at *; linarith, by norm_num at *; linarith⟩
    refine ⟨fin c0 ?_ ?_, fin c1 ?_ ?_, fin c2 ?_ ?_⟩
    all_goals clear a0 a1 a2 c0 c1 c2 fin
    all_goals norm_num at *
    all_goals first
      | linarith
      | (rcases some with h | h | h <;> linarith)

/-- One adapted cone response, cam16.rs 143-151. -/
noncomputable def coneOf64 (d c : 𝔻) : 𝔻 :=
  Fl.ofInt (signum (d * c)) * 400.0 * Fl.powf ((vc64 L).fl * Fl.abs (d * c) / 100.0) 0.42 / (Fl.powf ((vc64 L).fl * Fl.abs (d * c) / 100.0) 0.42 + 27.13)

theorem in_coneOf64 (hL : L.PowOk) (hD : L.PowDark) {d c : 𝔻} (hd : In d 0.9 1.1) (hc : In c 0 110) : In (coneOf64 d c) 0 900 := by
  have h := (hd.zero (by norm_num) 1.1 le_rfl).mul0 hc 122 (by norm_num) (by norm_num)
  have l100' : In (100.0 : 𝔻) 100 100 := l100.in
  unfold coneOf64
  generalize d * c = x at *
  have ha : In (Fl.abs x) 0 122 := by
    obtain ⟨v, iv, v0, v1⟩ := h
    exact ⟨|v|, iv.abs, abs_nonneg _, by rw [abs_of_nonneg v0]; exact v1⟩
  have hs : In (Fl.ofInt (signum x) : 𝔻) 0 1 := by
    obtain ⟨v, iv, v0, v1⟩ := h
    have : signum x = 0 ∨ signum x = 1 := by
      unfold signum
      rw [if_neg (by rw [iv.lt_iff l0']; exact not_lt.2 v0)]
      split <;> simp
    rcases this with e | e
    · rw [e]; exact ⟨_, is_ofInt (by norm_num), by norm_num, by norm_num⟩
    · rw [e]; exact ⟨_, is_ofInt (by norm_num), by norm_num, by norm_num⟩
  have hf := ((in_fl hL).zero (by norm_num) 0.4 (by norm_num)).mul0 ha 50 (by norm_num) (by norm_num)
  have hp := (hf.div0 l100' (by norm_num) 2 (by norm_num) (by norm_num)).pow0 hL hD
    (in_lit (L := L) (m := 42) (s := true) (e := 2) 0.42 (by norm_num) (by norm_num [abs_le])) (by norm_num) (k := 1) (by norm_num) (.inl rfl) (by norm_num) 3.2 (by norm_num) (by norm_num)
  have l400 : Is (400.0 : 𝔻) 400 := by simpa using lit (L := L) 4000 1 true 400 (by norm_num) (by norm_num)
  generalize Fl.powf ((vc64 L).fl * Fl.abs x / 100.0) 0.42 = y at *
  have hn := (hs.mul0 (l400.in.zero (by norm_num) 400 le_rfl) 401 (by norm_num) (by norm_num)).mul0 hp 1300 (by norm_num) (by norm_num)
  have hq : In (y + 27.13) 27 40 := hp.add (in_lit (L := L) (m := 2713) (s := true) (e := 2) 27.13 (by norm_num) (by norm_num [abs_le])) 27 40 (by norm_num) (by norm_num) (by norm_num) (by norm_num)
  exact hn.div0 hq (by norm_num) 900 (by norm_num) (by norm_num)

theorem in_adapted (hL : L.PowOk) (hD : L.PowDark) (hE : L.ExpOk) (argb : Int) : let v : Vec3 𝔻 := xyzFromArgb argb
    let r := Cam16.adaptedCones v.x0 v.x1 v.x2 (vc64 L)
    In r.x0 0 900 ∧ In r.x1 0 900 ∧ In r.x2 0 900 := by
  intro v r
  obtain ⟨c0, c1, c2⟩ := in_cones hL argb
  obtain ⟨d0, d1, d2⟩ := in_rgbD hE
  have w {x : 𝔻} {a b : ℝ} (h : In x a b) (h0 : 0.9 ≤ a) (h1 : b ≤ 1.1) : In x 0.9 1.1 := by
    obtain ⟨u, iu, u0, u1⟩ := h
    exact ⟨u, iu, h0.trans u0, u1.trans h1⟩
  exact ⟨in_coneOf64 hL hD (w d0 (by norm_num) (by norm_num)) c0, in_coneOf64 hL hD (w d1 (by norm_num) (by norm_num)) c1,
    in_coneOf64 hL hD (w d2 (by norm_num) (by norm_num)) c2⟩

/-! ### The hue -/

theorem in_hueDegrees (hA : L.AtanRange) {a b : 𝔻} (ha : Dbl.Fin a) (hb : Dbl.Fin b) : In (Cam16.hueDegrees a b) 0 360 := by
  obtain ⟨f, hv⟩ := hA b a hb ha
  have h180 : Is (180.0 : 𝔻) 180 := by simpa using lit (L := L) 1800 1 true 180 (by norm_num) (by norm_num)
  have h360 : Is (360.0 : 𝔻) 360 := by simpa using lit (L := L) 3600 1 true 360 (by norm_num) (by norm_num)
  have h : Bd (Fl.atan2 b a : 𝔻) 3.1416 := ⟨_, ⟨f, rfl⟩, hv⟩
  have hd : In (Fl.atan2 b a * 180.0 / Fl.pi : 𝔻) (-181) 181 := by
    obtain ⟨v, iv, hv⟩ := h
    obtain ⟨p, ip, p0, p1⟩ := in_pi (L := L)
    have hm : |v * 180| ≤ 565.488 := by rw [abs_mul, abs_of_pos (show (0:ℝ) < 180 by norm_num)]; norm_num at *; linarith
    obtain ⟨m1, m2⟩ := rnd_ok (v := v * 180) (hm.trans (by norm_num))
    have jm := iv.mul h180 m1
    have p3 : 0 < p := by norm_num at p0; linarith
    have hb2 : |rnd (v * 180)| ≤ 565.4881 := by
      have := abs_le.1 m2; have := abs_le.1 hm; unfold ρ at *
      rw [abs_le]; generalize rnd (v * 180) = w at *; norm_num at *; constructor <;> linarith
    have hq : |rnd (v * 180) / p| ≤ 180.5 := by
      rw [abs_div, abs_of_pos p3, div_le_iff₀ p3]
      generalize |rnd (v * 180)| = w at *
      norm_num at *; linarith
    obtain ⟨q1, q2⟩ := rnd_ok (v := rnd (v * 180) / p) (hq.trans (by norm_num))
    refine ⟨_, jm.div ip p3.ne' q1, ?_, ?_⟩ <;>
      (have := abs_le.1 q2; have := abs_le.1 hq; unfold ρ at *; generalize rnd (rnd (v * 180) / p) = w at *; norm_num at *; linarith)
  unfold Cam16.hueDegrees
  simp only
  generalize (Fl.atan2 b a * 180.0 / Fl.pi : 𝔻) = x at *
  obtain ⟨v, iv, v0, v1⟩ := hd
  by_cases h1 : v < 0
  · rw [if_pos (by rw [iv.lt_iff l0']; exact h1)]
    obtain ⟨r1, r2⟩ := rnd_ok (v := v + 360) (by rw [abs_le]; constructor <;> linarith)
    refine ⟨_, iv.add h360 r1, rnd_nonneg (by linarith), h360.rep.rnd_le (by linarith)⟩
  · rw [if_neg (by rw [iv.lt_iff l0']; exact h1), if_neg (by rw [ge_iff_le, h360.le_iff iv]; linarith)]
    exact ⟨v, iv, not_lt.1 h1, by linarith⟩

/-! ### All coordinates -/

theorem in_scale (hL : L.PowOk) : In (Fl.powf (1.64 - Fl.powf 0.29 (vc64 L).backgroundYToWhitePointY) 0.73 : 𝔻) 0.85 0.93 := by
  have a : In (Fl.powf (0.29 : 𝔻) (vc64 L).backgroundYToWhitePointY) 0.75 0.83 := by
    obtain ⟨n, ii, n1, n2⟩ := in_n (L := L)
    obtain ⟨b, ib, b1, b2⟩ := in_lit (L := L) (m := 29) (s := true) (e := 2) 0.29 (by norm_num) (by norm_num [abs_le])
    norm_num at n1 n2 b1 b2
    obtain ⟨p, ip, hp⟩ := is_pow64 hL ib ii (by linarith) (by linarith [show (10 : ℝ) ^ 60 ≥ 10 by norm_num]) (by linarith) (by linarith)
    have hb : 0 < b := by linarith
    have u : b ^ n ≤ 0.825 := by
      refine rpow_upper' (a := 17) (b := 100) (by norm_num) hb (by linarith) (by norm_num) (by norm_num; linarith) ?_
      refine (pow_le_pow_left₀ hb.le (show b ≤ 0.3 by norm_num; linarith) 17).trans ?_
      norm_num
    have l : 0.76 ≤ b ^ n := by
      refine rpow_lower' (a := 1) (b := 5) (by norm_num) hb (by linarith) (by norm_num) (by norm_num; linarith) ?_
      rw [pow_one]; norm_num; linarith
    have hp := abs_le.1 hp
    refine ⟨p, ip, ?_, ?_⟩ <;> norm_num at * <;> linarith
  have b := (in_lit (L := L) (m := 164) (s := true) (e := 2) 1.64 (by norm_num) (by norm_num [abs_le])).sub a 0.809 0.891 (by norm_num) (by norm_num) (by norm_num) (by norm_num)
  exact b.pow hL (n := 73) (m := 100) (by norm_num) (ap_dec (m := 73) (s := true) (e := 2) 0.73 _ (by norm_num) (by norm_num [abs_le]) (by norm_num)) le_rfl (by norm_num) (by norm_num) (by norm_num) (by norm_num)
    0.85 0.93 (by norm_num) (by norm_num) (by norm_num) (by norm_num)

/-- The factor of the hue, cam16.rs 186-188. -/
theorem in_hue_factor (hL : L.PowOk) (hR : L.TrigOk) {hue : 𝔻} (h : In hue 0 360) :
    In (50000.0 / 13.0 * ((1.0 / 4.0) * (Fl.cos ((if hue < 20.14 then hue + 360.0 else hue) * Fl.pi / 180.0 + 2.0) + 3.8)) * (vc64 L).nC * (vc64 L).ncb) 0 5000 := by
  have h360 : Is (360.0 : 𝔻) 360 := by simpa using lit (L := L) 3600 1 true 360 (by norm_num) (by norm_num)
  have l180 : Is (180.0 : 𝔻) 180 := by simpa using lit (L := L) 1800 1 true 180 (by norm_num) (by norm_num)
  have hp : In (if hue < 20.14 then hue + 360.0 else hue : 𝔻) 20 381 := by
    obtain ⟨t, it, t0, t1⟩ := in_lit (L := L) (m := 2014) (s := true) (e := 2) 20.14 (by norm_num) (by norm_num [abs_le])
    change Is (20.14 : 𝔻) t at it
    obtain ⟨v, iv, v0, v1⟩ := h
    by_cases hv : v < t
    · rw [if_pos (by rw [iv.lt_iff it]; exact hv)]
      exact In.add (x := hue) ⟨v, iv, v0, hv.le.trans t1⟩ h360.in 20 381 (by norm_num) (by norm_num) (by norm_num) (by norm_num)
    · rw [if_neg (by rw [iv.lt_iff it]; exact hv)]
      exact ⟨v, iv, by norm_num at *; linarith, by linarith⟩
  generalize (if hue < 20.14 then hue + 360.0 else hue : 𝔻) = x at *
  have a := (hp.mul in_pi 62 1197 (by norm_num) (by norm_num) (by norm_num) (by norm_num) (by norm_num) (by norm_num)).div l180.in 0.34 6.66 (by norm_num) (by norm_num) (by norm_num) (by norm_num) (by norm_num) (by norm_num)
  obtain ⟨y, iy, y0, y1⟩ := a.add (in_lit (L := L) (m := 20) (s := true) (e := 1) 2 (by norm_num) (by norm_num [abs_le])) 1.9 9.1 (by norm_num) (by norm_num) (by norm_num) (by norm_num)
  change Is (x * Fl.pi / 180.0 + 2.0) y at iy
  obtain ⟨f1, e1, -, -⟩ := hR (x * Fl.pi / 180.0 + 2.0 : 𝔻) iy.1 (by rw [iy.2]; norm_num at y0; linarith) (by rw [iy.2]; norm_num at y1; linarith)
  have hc : In (Fl.cos (x * Fl.pi / 180.0 + 2.0) : 𝔻) (-1.0001) 1.0001 := by
    refine ⟨_, ⟨f1, rfl⟩, ?_⟩
    generalize (x * Fl.pi / 180.0 + 2.0 : 𝔻) = z at *
    change -1.0001 ≤ Dbl.val (L.cos z) ∧ Dbl.val (L.cos z) ≤ 1.0001
    have c1 := Real.neg_one_le_cos (Dbl.val z)
    have c2 := Real.cos_le_one (Dbl.val z)
    rw [abs_le] at e1
    change _ ≤ Dbl.val (L.cos z) - Real.cos (Dbl.val z) ∧ Dbl.val (L.cos z) - Real.cos (Dbl.val z) ≤ _ at e1
    generalize Real.cos (Dbl.val z) = q at *
    generalize Dbl.val (L.cos z) = w at *
    norm_num at *; constructor <;> linarith
  generalize (Fl.cos (x * Fl.pi / 180.0 + 2.0) : 𝔻) = c at *
  have b := hc.add (in_lit (L := L) (m := 38) (s := true) (e := 1) 3.8 (by norm_num) (by norm_num [abs_le])) 2.79 4.81 (by norm_num) (by norm_num) (by norm_num) (by norm_num)
  have q := l1.in.div (in_lit (L := L) (m := 40) (s := true) (e := 1) 4 (by norm_num) (by norm_num [abs_le])) 0.249 0.251 (by norm_num) (by norm_num) (by norm_num) (by norm_num) (by norm_num) (by norm_num)
  have d := q.mul b 0.69 1.21 (by norm_num) (by norm_num) (by norm_num) (by norm_num) (by norm_num) (by norm_num)
  have e := (in_lit (L := L) (m := 500000) (s := true) (e := 1) 50000 (by norm_num) (by norm_num [abs_le])).div
    (in_lit (L := L) (m := 130) (s := true) (e := 1) 13 (by norm_num) (by norm_num [abs_le])) 3846 3847 (by norm_num) (by norm_num) (by norm_num) (by norm_num) (by norm_num) (by norm_num)
  have f := e.mul d 2650 4660 (by norm_num) (by norm_num) (by norm_num) (by norm_num) (by norm_num) (by norm_num)
  have g := f.mul in_f 2600 4700 (by norm_num) (by norm_num) (by norm_num) (by norm_num) (by norm_num) (by norm_num)
  have k : In (vc64 L).ncb 1.0169 1.01694 := in_nbb hL
  exact (g.mul k 2000 5000 (by norm_num) (by norm_num) (by norm_num) (by norm_num) (by norm_num) (by norm_num)).zero (by norm_num) _ le_rfl

theorem in_root (hL : L.PowOk) : In (vc64 L).fLroot 0 1 := by
  have e : (vc64 L).fLroot = Fl.powf (vc64 L).fl 0.25 := rfl
  rw [e]
  exact ((in_fl hL).pow hL (n := 1) (m := 4) (by norm_num) (ap_dec (m := 25) (s := true) (e := 2) 0.25 _ (by norm_num) (by norm_num [abs_le]) (by norm_num)) le_rfl (by norm_num) (by norm_num) (by norm_num) (by norm_num)
    0.7 0.9 (by norm_num) (by norm_num) (by norm_num) (by norm_num)).zero (by norm_num) _ (by norm_num)

theorem in_int {m e : ℕ} {s : Bool} (n : ℤ) (hv : (OfScientific.ofScientific m s e : ℝ) = n) (h : |n| ≤ 2 ^ 53) : In (OfScientific.ofScientific m s e : 𝔻) n n := by
  obtain ⟨v, iv, hd⟩ := ap_int (L := L) n hv h
  obtain rfl : v = n := by rw [abs_nonpos_iff, sub_eq_zero] at hd; exact hd
  exact iv.in

theorem in_opponents {rA gA bA : 𝔻} (hr : In rA 0 900) (hg : In gA 0 900) (hb : In bA 0 900) :
    Bd ((11.0 * rA + (-12.0) * gA + bA) / 11.0) 2100 ∧ Bd ((rA + gA - 2.0 * bA) / 9.0) 500 ∧ In ((20.0 * rA + 20.0 * gA + 21.0 * bA) / 20.0) 0 2800 ∧
    In ((40.0 * rA + 20.0 * gA + bA) / 20.0) 0 2800 := by
  have i11 : In (11.0 : 𝔻) 11 11 := by simpa using in_int (L := L) (m := 110) (s := true) (e := 1) 11 (by norm_num) (by norm_num)
  have i12 : In (12.0 : 𝔻) 12 12 := by simpa using in_int (L := L) (m := 120) (s := true) (e := 1) 12 (by norm_num) (by norm_num)
  have i2 : In (2.0 : 𝔻) 2 2 := by simpa using in_int (L := L) (m := 20) (s := true) (e := 1) 2 (by norm_num) (by norm_num)
  have i9 : In (9.0 : 𝔻) 9 9 := by simpa using in_int (L := L) (m := 90) (s := true) (e := 1) 9 (by norm_num) (by norm_num)
  have i20 : In (20.0 : 𝔻) 20 20 := by simpa using in_int (L := L) (m := 200) (s := true) (e := 1) 20 (by norm_num) (by norm_num)
  have i21 : In (21.0 : 𝔻) 21 21 := by simpa using in_int (L := L) (m := 210) (s := true) (e := 1) 21 (by norm_num) (by norm_num)
  have i40 : In (40.0 : 𝔻) 40 40 := by simpa using in_int (L := L) (m := 400) (s := true) (e := 1) 40 (by norm_num) (by norm_num)
  have z {x : 𝔻} {n : ℝ} (h : In x n n) (h0 : 0 ≤ n) : In x 0 n := h.zero h0 n le_rfl
  have b {x : 𝔻} {n : ℝ} (h : In x 0 n) (h0 : 0 ≤ n) : Bd x n := h.bd n (by linarith) le_rfl
  have hr' := b hr (by norm_num)
  have hg' := b hg (by norm_num)
  have hb' := b hb (by norm_num)
  refine ⟨?_, ?_, ?_, ?_⟩
  · have s := (((b (z i11 (by norm_num)) (by norm_num)).mul hr' 9901 (by norm_num) (by norm_num)).add ((b (z i12 (by norm_num)) (by norm_num)).neg.mul hg' 10801 (by norm_num) (by norm_num)) 20703 (by norm_num) (by norm_num)).add hb' 21604 (by norm_num) (by norm_num)
    obtain ⟨v, iv, hv⟩ := s
    obtain ⟨w, iw, w0, w1⟩ := i11
    have hw : 0 < w := by linarith
    refine bd_rnd (B := 2000) (fun h => iv.div iw hw.ne' h) ?_ (by norm_num) (by norm_num)
    rw [abs_div, abs_of_pos hw, div_le_iff₀ hw]; linarith
  · have s := (hr'.add hg' 1801 (by norm_num) (by norm_num)).sub ((b (z i2 (by norm_num)) (by norm_num)).mul hb' 1801 (by norm_num) (by norm_num)) 3603 (by norm_num) (by norm_num)
    obtain ⟨v, iv, hv⟩ := s
    obtain ⟨w, iw, w0, w1⟩ := i9
    have hw : 0 < w := by linarith
    refine bd_rnd (B := 490) (fun h => iv.div iw hw.ne' h) ?_ (by norm_num) (by norm_num)
    rw [abs_div, abs_of_pos hw, div_le_iff₀ hw]; linarith
  · exact ((((z i20 (by norm_num)).mul0 hr 18001 (by norm_num) (by norm_num)).add0 ((z i20 (by norm_num)).mul0 hg 18001 (by norm_num) (by norm_num)) 36003 (by norm_num) (by norm_num)).add0
      ((z i21 (by norm_num)).mul0 hb 18901 (by norm_num) (by norm_num)) 54905 (by norm_num) (by norm_num)).div0 i20 (by norm_num) 2800 (by norm_num) (by norm_num)
  · exact ((((z i40 (by norm_num)).mul0 hr 36001 (by norm_num) (by norm_num)).add0 ((z i20 (by norm_num)).mul0 hg 18001 (by norm_num) (by norm_num)) 54003 (by norm_num) (by norm_num)).add0
      hb 54904 (by norm_num) (by norm_num)).div0 i20 (by norm_num) 2800 (by norm_num) (by norm_num)

theorem in_lightness (hL : L.PowOk) (hD : L.PowDark) (hE : L.ExpOk) {p2 : 𝔻} (h : In p2 0 2800) :
    In (100.0 * Fl.powf (p2 * (vc64 L).nbb / (vc64 L).aw) ((vc64 L).c * (vc64 L).z)) 0 2000000 ∧
    In (Fl.sqrt (100.0 * Fl.powf (p2 * (vc64 L).nbb / (vc64 L).aw) ((vc64 L).c * (vc64 L).z) / 100.0)) 0 200 := by
  have a := h.mul0 ((in_nbb hL).zero (by norm_num) 1.02 (by norm_num)) 2900 (by norm_num) (by norm_num)
  have b := a.div0 (in_aw hL hE) (by norm_num) 100 (by norm_num) (by norm_num)
  have c := (in_c (L := L)).mul in_z 1.3 1.4 (by norm_num) (by norm_num) (by norm_num) (by norm_num) (by norm_num) (by norm_num)
  have d := b.pow0 hL hD c (by norm_num) (k := 2) (by norm_num) (.inr rfl) (by norm_num) 12000 (by norm_num) (by norm_num)
  generalize Fl.powf (p2 * (vc64 L).nbb / (vc64 L).aw) ((vc64 L).c * (vc64 L).z) = x at *
  have i100 : In (100.0 : 𝔻) 100 100 := l100.in
  have e := (i100.zero (by norm_num) 100 le_rfl).mul0 d 2000000 (by norm_num) (by norm_num)
  exact ⟨e, (e.div0 i100 (by norm_num) 20001 (by norm_num) (by norm_num)).sqrt0 200 (by norm_num) (by norm_num) (by norm_num)⟩

theorem in_alpha (hL : L.PowOk) (hD : L.PowDark) {a b u p1 : 𝔻} (ha : Bd a 2100) (hb : Bd b 500) (hu : In u 0 2800) (hp : In p1 0 5000) :
    In (Fl.powf (p1 * Fl.sqrt (a * a + b * b) / (u + 0.305)) 0.9 * Fl.powf (1.64 - Fl.powf 0.29 (vc64 L).backgroundYToWhitePointY) 0.73) 0 45000000 := by
  have s := ((ha.sq 4410001 (by norm_num) (by norm_num)).add0 (hb.sq 250001 (by norm_num) (by norm_num)) 4660003 (by norm_num) (by norm_num)).sqrt0 2200 (by norm_num) (by norm_num) (by norm_num)
  have n := hp.mul0 s 11000001 (by norm_num) (by norm_num)
  have d : In (u + 0.305) 0.3 2900 := hu.add (in_lit (L := L) (m := 305) (s := true) (e := 3) 0.305 (by norm_num) (by norm_num [abs_le])) 0.3 2900 (by norm_num) (by norm_num) (by norm_num) (by norm_num)
  have t := n.div0 d (by norm_num) 36666900 (by norm_num) (by norm_num)
  have p := t.pow0 hL hD (in_lit (L := L) (m := 9) (s := true) (e := 1) 0.9 (by norm_num) (by norm_num [abs_le])) (by norm_num) (k := 1) (by norm_num) (.inl rfl) (by norm_num) 40400000 (by norm_num) (by norm_num)
  exact p.mul0 ((in_scale hL).zero (by norm_num) 1 (by norm_num)) 45000000 (by norm_num) (by norm_num)

/-- The CAM16 coordinates of a colour. -/
theorem cam64 (hL : L.PowOk) (hD : L.PowDark) (hE : L.ExpOk) (hR : L.TrigOk) (hA : L.AtanRange) (argb : Int) : let k : Cam16 𝔻 := Cam16.fromInt argb
    In k.hue 0 360 ∧ In k.chroma 0 (9.1 * 10 ^ 9) ∧ In k.j 0 (10 ^ 10) ∧ In k.q 0 (10 ^ 10) ∧ In k.m 0 (10 ^ 10) ∧ In k.s 0 (10 ^ 10) := by
  intro k
  obtain ⟨hr, hg, hb⟩ := in_adapted hL hD hE argb
  have e : k = Cam16.fromXyzInViewingConditions (xyzFromArgb argb : Vec3 𝔻).x0 (xyzFromArgb argb : Vec3 𝔻).x1 (xyzFromArgb argb : Vec3 𝔻).x2 (vc64 L) := rfl
  simp only [Cam16.fromXyzInViewingConditions] at e
  generalize Cam16.adaptedCones (xyzFromArgb argb : Vec3 𝔻).x0 (xyzFromArgb argb : Vec3 𝔻).x1 (xyzFromArgb argb : Vec3 𝔻).x2 (vc64 L) = v at *
  obtain ⟨oa, ob, ou, op⟩ := in_opponents hr hg hb
  have fa : Dbl.Fin ((11.0 * v.x0 + (-12.0) * v.x1 + v.x2) / 11.0 : 𝔻) := by obtain ⟨_, i, -⟩ := oa; exact i.1
  have fb : Dbl.Fin ((v.x0 + v.x1 - 2.0 * v.x2) / 9.0 : 𝔻) := by obtain ⟨_, i, -⟩ := ob; exact i.1
  have hh := in_hueDegrees hA fa fb
  have hf := in_hue_factor hL hR hh
  have al := in_alpha hL hD oa ob ou hf
  obtain ⟨j, sj⟩ := in_lightness hL hD hE op
  have c := al.mul0 sj (9 * 10 ^ 9 + 1) (by norm_num) (by norm_num)
  have w {x : 𝔻} {B : ℝ} (h : In x 0 B) (hB : B ≤ 10 ^ 10) : In x 0 (10 ^ 10) := h.zero le_rfl _ hB
  have i4 : In (4.0 : 𝔻) 4 4 := by simpa using in_int (L := L) (m := 40) (s := true) (e := 1) 4 (by norm_num) (by norm_num)
  have i50 : In (50.0 : 𝔻) 50 50 := by simpa using in_int (L := L) (m := 500) (s := true) (e := 1) 50 (by norm_num) (by norm_num)
  have aw4 : In ((vc64 L).aw + 4.0) 33 36 := (in_aw hL hE).add i4 33 36 (by norm_num) (by norm_num) (by norm_num) (by norm_num)
  have q0 := (i4.zero (by norm_num) 4 le_rfl).div0 (in_c (L := L)) (by norm_num) 10 (by norm_num) (by norm_num)
  rw [e]
  refine ⟨hh, c.zero le_rfl _ (by norm_num), w j (by norm_num), ?_, ?_, ?_⟩
  · exact w (((q0.mul0 sj 2001 (by norm_num) (by norm_num)).mul0 (aw4.zero (by norm_num) 36 le_rfl) 72100 (by norm_num) (by norm_num)).mul0 (in_root hL) 72200 (by norm_num) (by norm_num)) (by norm_num)
  · exact c.mul0 (in_root hL) _ (by norm_num) (by norm_num)
  · have s := ((al.mul0 ((in_c (L := L)).zero (by norm_num) 1 (by norm_num)) 45000001 (by norm_num) (by norm_num)).div0 aw4 (by norm_num) 1500000 (by norm_num) (by norm_num)).sqrt0 2000 (by norm_num) (by norm_num) (by norm_num)
    exact w ((i50.zero (by norm_num) 50 le_rfl).mul0 s 100100 (by norm_num) (by norm_num)) (by norm_num)

end Mcu.Lemmas
