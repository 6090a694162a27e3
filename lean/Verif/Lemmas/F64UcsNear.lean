import Verif.Lemmas.F64CamNear
import Verif.Spec.LibmCam

/-! Black, and the uniform colour space coordinates, in IEEE-754 binary64. -/

namespace Mcu.Lemmas

open Mcu.Ieee Props Props.Binary64 MathUtils ColorUtils Real

variable {L : Libm}

local notation "𝔻" => F64 L

/-! ### Black -/

theorem Is.zero_div {x y : 𝔻} {a : ℝ} (hx : Is x 0) (hy : Is y a) (ha : a ≠ 0) : Is (x / y) 0 := by
  have := hx.div hy ha (by simp [rnd_zero])
  simpa [rnd_zero] using this

theorem coneOf64_zero (hL : L.PowOk) (hD : L.PowDark) {d c : 𝔻} (hd : In d 0.9 1.1) (hc : Is c 0) : Is (coneOf64 d c) 0 := by
  obtain ⟨w, iw, -⟩ := hd
  have h := iw.mul_zero hc
  have l100' : In (100.0 : 𝔻) 100 100 := l100.in
  unfold coneOf64
  generalize d * c = x at *
  have hs : signum x = 0 := by
    simp only [signum]
    rw [if_neg (by rw [h.lt_iff l0']; exact lt_irrefl _), if_pos (by rw [h.beq_iff l0'])]
  rw [hs]
  have ha : In (Fl.abs x) 0 0 := ⟨0, by simpa using h.abs, le_rfl, le_rfl⟩
  have a := (((in_fl hL).zero (by norm_num) 1 (by norm_num)).mul0 ha 1 (by norm_num) (by norm_num)).div0 l100' (by norm_num) 2 (by norm_num) (by norm_num)
  obtain ⟨p, ip, p0, p1⟩ := a.pow0 hL hD (in_lit (L := L) (m := 42) (s := true) (e := 2) 0.42 (by norm_num) (by norm_num [abs_le])) (by norm_num) (k := 1) (by norm_num) (.inl rfl) (by norm_num) 4 (by norm_num) (by norm_num)
  change Is (Fl.powf ((vc64 L).fl * Fl.abs x / 100.0) 0.42 : 𝔻) p at ip
  have h0 : Is (Fl.ofInt 0 : 𝔻) 0 := by simpa using is_ofInt (L := L) (n := 0) (by norm_num)
  have i400 : Is (400.0 : 𝔻) 400 := by simpa using lit (L := L) 4000 1 true 400 (by norm_num) (by norm_num)
  obtain ⟨q, iq, q0, q1⟩ : In (Fl.powf ((vc64 L).fl * Fl.abs x / 100.0) 0.42 + 27.13 : 𝔻) 27 40 :=
    In.add ⟨p, ip, p0, p1⟩ (in_lit (L := L) (m := 2713) (s := true) (e := 2) 27.13 (by norm_num) (by norm_num [abs_le])) 27 40 (by norm_num) (by norm_num) (by norm_num) (by norm_num)
  exact ((h0.zero_mul i400).zero_mul ip).zero_div iq (by linarith)

theorem cones_black (hS : L.Sound) {argb : Int} (h : ¬ NotBlack argb) : Is (cones64 L argb).x0 0 ∧ Is (cones64 L argb).x1 0 ∧ Is (cones64 L argb).x2 0 := by
  have hk : redFromArgb argb = 0 ∧ greenFromArgb argb = 0 ∧ blueFromArgb argb = 0 := not_not.1 h
  have row {m0 m1 m2 : 𝔻} {a0 a1 a2 : ℝ} (h0 : Is m0 a0) (h1 : Is m1 a1) (h2 : Is m2 a2) : Is (linearized 0 * m0 + linearized 0 * m1 + linearized 0 * m2 : 𝔻) 0 :=
    ((is_linearized_zero.zero_mul h0).add_zero (is_linearized_zero.zero_mul h1)).add_zero (is_linearized_zero.zero_mul h2)
  have e : (xyzFromArgb argb : Vec3 𝔻) = matrixMultiply ⟨linearized 0, linearized 0, linearized 0⟩ srgbToXyz := by
    simp only [xyzFromArgb, hk.1, hk.2.1, hk.2.2]
  obtain ⟨a0, i0⟩ := is_some_lit (L := L) (m := 41233895) (s := true) (e := 8) 0.41233895 (by norm_num) (by norm_num [abs_le])
  obtain ⟨a1, i1⟩ := is_some_lit (L := L) (m := 35762064) (s := true) (e := 8) 0.35762064 (by norm_num) (by norm_num [abs_le])
  obtain ⟨a2, i2⟩ := is_some_lit (L := L) (m := 18051042) (s := true) (e := 8) 0.18051042 (by norm_num) (by norm_num [abs_le])
  obtain ⟨b0, j0⟩ := is_some_lit (L := L) (m := 2126) (s := true) (e := 4) 0.2126 (by norm_num) (by norm_num [abs_le])
  obtain ⟨b1, j1⟩ := is_some_lit (L := L) (m := 7152) (s := true) (e := 4) 0.7152 (by norm_num) (by norm_num [abs_le])
  obtain ⟨b2, j2⟩ := is_some_lit (L := L) (m := 722) (s := true) (e := 4) 0.0722 (by norm_num) (by norm_num [abs_le])
  obtain ⟨c0, k0⟩ := is_some_lit (L := L) (m := 1932141) (s := true) (e := 8) 0.01932141 (by norm_num) (by norm_num [abs_le])
  obtain ⟨c1, k1⟩ := is_some_lit (L := L) (m := 11916382) (s := true) (e := 8) 0.11916382 (by norm_num) (by norm_num [abs_le])
  obtain ⟨c2, k2⟩ := is_some_lit (L := L) (m := 95034478) (s := true) (e := 8) 0.95034478 (by norm_num) (by norm_num [abs_le])
  have x0 : Is (xyzFromArgb argb : Vec3 𝔻).x0 0 := by rw [e]; exact row i0 i1 i2
  have x1 : Is (xyzFromArgb argb : Vec3 𝔻).x1 0 := by rw [e]; exact row j0 j1 j2
  have x2 : Is (xyzFromArgb argb : Vec3 𝔻).x2 0 := by rw [e]; exact row k0 k1 k2
  obtain ⟨h0, h1, h2⟩ := cones_zero x0 x1 x2
  obtain ⟨d0, d1, d2⟩ := in_rgbD hS.exp
  have w {x : 𝔻} {a b : ℝ} (h : In x a b) (h0 : 0.9 ≤ a) (h1 : b ≤ 1.1) : In x 0.9 1.1 := by
    obtain ⟨u, iu, u0, u1⟩ := h
    exact ⟨u, iu, h0.trans u0, u1.trans h1⟩
  exact ⟨coneOf64_zero hS.pow hS.dark (w d0 (by norm_num) (by norm_num)) h0, coneOf64_zero hS.pow hS.dark (w d1 (by norm_num) (by norm_num)) h1,
    coneOf64_zero hS.pow hS.dark (w d2 (by norm_num) (by norm_num)) h2⟩

theorem black_cam (hS : L.Sound) (hC : L.CamOk) {argb : Int} (h : ¬ NotBlack argb) :
    Is (Cam16.fromInt argb : Cam16 𝔻).j 0 ∧ Is (Cam16.fromInt argb : Cam16 𝔻).chroma 0 ∧ Is (Cam16.fromInt argb : Cam16 𝔻).q 0 ∧ Is (Cam16.fromInt argb : Cam16 𝔻).m 0 := by
  obtain ⟨z0, z1, z2⟩ := cones_black hS h
  have i40 : Is (40.0 : 𝔻) 40 := by simpa using lit (L := L) 400 1 true 40 (by norm_num) (by norm_num)
  have i20 : Is (20.0 : 𝔻) 20 := by simpa using lit (L := L) 200 1 true 20 (by norm_num) (by norm_num)
  have i4 : Is (4.0 : 𝔻) 4 := by simpa using lit (L := L) 40 1 true 4 (by norm_num) (by norm_num)
  have i100 : Is (100.0 : 𝔻) 100 := l100
  obtain ⟨N, iN, -⟩ := in_nbb hS.pow
  obtain ⟨A, iA, A0, A1⟩ := in_aw hS.pow hS.exp
  obtain ⟨K, iK, K0, K1⟩ := (in_c (L := L)).mul in_z 1.3 1.4 (by norm_num) (by norm_num) (by norm_num) (by norm_num) (by norm_num) (by norm_num)
  have p : Is (op64 (cones64 L argb)) 0 := (((i40.mul_zero z0).add_zero (i20.mul_zero z1)).add_zero z2).zero_div i20 (by norm_num)
  have q : Is (op64 (cones64 L argb) * (vc64 L).nbb / (vc64 L).aw) 0 := (p.zero_mul iN).zero_div iA (by norm_num at A0; linarith)
  obtain ⟨f, hf⟩ := hC.zero _ _ q.1 iK.1 q.2 (by rw [iK.2]; norm_num at K0; linarith)
  have pw : Is (Fl.powf (op64 (cones64 L argb) * (vc64 L).nbb / (vc64 L).aw) ((vc64 L).c * (vc64 L).z)) 0 := ⟨f, hf⟩
  have j : Is (j64 L argb) 0 := i100.mul_zero pw
  have r : Is (Fl.sqrt (j64 L argb / 100.0)) 0 := by
    have := (j.zero_div i100 (by norm_num)).sqrt le_rfl (by simp [rnd_zero])
    simpa [rnd_zero] using this
  obtain ⟨hr, hg, hb⟩ := in_adapted hS.pow hS.dark hS.exp argb
  obtain ⟨oa, ob, ou, op⟩ := in_opponents hr hg hb
  have fa : Dbl.Fin (oa64 (cones64 L argb)) := by obtain ⟨_, i, -⟩ := oa; exact i.1
  have fb : Dbl.Fin (ob64 (cones64 L argb)) := by obtain ⟨_, i, -⟩ := ob; exact i.1
  obtain ⟨al, ial, -⟩ : In (alpha64 L argb) 0 45000000 := in_alpha hS.pow hS.dark oa ob ou (in_hue_factor hS.pow hS.trig (in_hueDegrees hS.atan fa fb))
  obtain ⟨R, iR, -⟩ := in_root hS.pow
  have ch : Is (alpha64 L argb * Fl.sqrt (j64 L argb / 100.0)) 0 := ial.mul_zero r
  obtain ⟨B, iB, -⟩ := (in_aw hS.pow hS.exp).add i4.in 33 36 (by norm_num) (by norm_num) (by norm_num) (by norm_num)
  obtain ⟨D, iD, -⟩ := (i4.in.zero (by norm_num) 4 le_rfl).div0 (in_c (L := L)) (by norm_num) 10 (by norm_num) (by norm_num)
  exact ⟨j, ch, (((iD.mul_zero r).zero_mul iB).zero_mul iR), ch.zero_mul iR⟩

/-! ### Uniform colour space -/

theorem nr_jstar (hL : L.PowOk) (hE : L.ExpOk) {argb : Int} (h : NotBlack argb) :
    Nr (Cam16.fromInt argb : Cam16 𝔻).jstar (Cam16.fromInt argb : Cam16 ℝ).jstar (1 / 10 ^ 10) 30 := by
  have e : (Cam16.fromInt argb : Cam16 𝔻).jstar = (1.0 + 100.0 * 0.007) * j64 L argb / (1.0 + 0.007 * j64 L argb) := rfl
  have e' : (Cam16.fromInt argb : Cam16 ℝ).jstar = (1.0 + 100.0 * 0.007) * jR argb / (1.0 + 0.007 * jR argb) := rfl
  rw [e, e']
  have j := nr_j hL hE h
  have l1' : Nr (1.0 : 𝔻) (1.0 : ℝ) (1 / 10 ^ 15) 0 := nr_lit 0 (by norm_num) (by norm_num) (by norm_num)
  have l100' : Nr (100.0 : 𝔻) (100.0 : ℝ) (1 / 10 ^ 15) 2 := nr_lit 2 (by norm_num) (by norm_num) (by norm_num)
  have l7 : Nr (0.007 : 𝔻) (0.007 : ℝ) (1 / 10 ^ 15) 3 := nr_lit 3 (by norm_num) (by norm_num) (by norm_num)
  have a := l1'.add (l100'.mul l7 (4 / 10 ^ 15) (by norm_num) (by norm_num) (by norm_num)) 6 (5 / 10 ^ 15) (by norm_num) (by norm_num) (by norm_num) (by norm_num) (by norm_num) (by norm_num)
  have b := l1'.add (l7.mul j (42 / 10 ^ 12) (by norm_num) (by norm_num) (by norm_num)) 11 (43 / 10 ^ 12) (by norm_num) (by norm_num) (by norm_num) (by norm_num) (by norm_num) (by norm_num)
  have c := (a.mul j (42 / 10 ^ 12) (by norm_num) (by norm_num) (by norm_num)).div b (1 / 10 ^ 10) (by norm_num) (by norm_num) (by norm_num)
  exact ⟨c.rl, c.e0, (inv_ten_le (by norm_num)).trans c.lo, c.hi.trans (ten_pow_le (by norm_num))⟩

theorem alpha_bounds {argb : Int} (h : NotBlack argb) : 1 / 10 ^ 4 ≤ alphaTerm (conesR argb) vcR ∧ alphaTerm (conesR argb) vcR ≤ 10 ^ 5 := by
  obtain ⟨t0, t1⟩ := t_bounds h
  obtain ⟨L, hL⟩ := powOk_exists
  have k := nr_kappa hL
  have k0 := k.lo
  have k1 := k.hi
  unfold alphaTerm
  generalize kappaV vcR = κ at *
  generalize tTerm (conesR argb) vcR = t at *
  have tp : 0 < t := lt_of_lt_of_le (by norm_num) t0
  have b : 0.001 ≤ t ^ (0.9 : ℝ) ∧ t ^ (0.9 : ℝ) ≤ 10 ^ 4 := by
    rcases le_total t 1 with h1 | h1
    · have := rpow_le_rpow_of_exponent_ge tp h1 (show (0.9 : ℝ) ≤ 1 by norm_num)
      rw [rpow_one] at this
      exact ⟨t0.trans this, (rpow_le_one tp.le h1 (by norm_num)).trans (by norm_num)⟩
    · have := rpow_le_rpow_of_exponent_le h1 (show (0.9 : ℝ) ≤ 1 by norm_num)
      rw [rpow_one] at this
      exact ⟨le_trans (by norm_num) (one_le_rpow h1 (by norm_num)), this.trans t1⟩
  have kp : 0 < κ := k.pos
  constructor
  · refine le_trans ?_ (mul_le_mul b.1 k0 (by norm_num) (le_trans (by norm_num) b.1))
    norm_num
  · refine (mul_le_mul b.2 k1 kp.le (by norm_num)).trans (by norm_num)

theorem m_bounds {argb : Int} (h : NotBlack argb) : 8 / 10 ^ 8 ≤ (Cam16.fromInt argb : Cam16 ℝ).m ∧ (Cam16.fromInt argb : Cam16 ℝ).m ≤ 10 ^ 7 := by
  have e : (Cam16.fromInt argb : Cam16 ℝ).m = (Cam16.fromInt argb : Cam16 ℝ).chroma * vcR.fLroot := rfl
  have ec : (Cam16.fromInt argb : Cam16 ℝ).chroma = alphaTerm (conesR argb) vcR * Real.sqrt (jR argb / 100.0) := cam_chroma
  rw [e, ec]
  obtain ⟨a0, a1⟩ := alpha_bounds h
  obtain ⟨j0, j1⟩ := j_bounds h
  have ej : jR argb / 100.0 = (opP2 (conesR argb) * vcR.nbb / vcR.aw) ^ (vcR.c * vcR.z) := by
    unfold jR; norm_num
  rw [ej]
  have r0 : 3 / 10 ^ 3 ≤ Real.sqrt ((opP2 (conesR argb) * vcR.nbb / vcR.aw) ^ (vcR.c * vcR.z)) := by
    apply Real.le_sqrt_of_sq_le
    refine le_trans (by norm_num) j0
  have r1 : Real.sqrt ((opP2 (conesR argb) * vcR.nbb / vcR.aw) ^ (vcR.c * vcR.z)) ≤ 2 := by
    rw [Real.sqrt_le_left (by norm_num)]; linarith
  have f0 : 0.3 ≤ vcR.fLroot ∧ vcR.fLroot ≤ 1 := by
    have e' : vcR.fLroot = vcR.fl ^ (0.25 : ℝ) := rfl
    have fb := fl_bounds
    change _ < vcR.fl ∧ vcR.fl < _ at fb
    rw [e']
    generalize vcR.fl = f at *
    norm_num at fb
    have := rpow_le_rpow_of_exponent_ge (show 0 < f by linarith) (by linarith) (show (0.25 : ℝ) ≤ 1 by norm_num)
    rw [rpow_one] at this
    exact ⟨by norm_num at *; linarith, rpow_le_one (by linarith) (by linarith) (by norm_num)⟩
  generalize Real.sqrt ((opP2 (conesR argb) * vcR.nbb / vcR.aw) ^ (vcR.c * vcR.z)) = r at *
  generalize alphaTerm (conesR argb) vcR = al at *
  generalize vcR.fLroot = f at *
  have ap : 0 < al := lt_of_lt_of_le (by norm_num) a0
  have rp : 0 < r := lt_of_lt_of_le (by norm_num) r0
  have x0 := mul_le_mul a0 r0 (by norm_num) ap.le
  have x1 := mul_le_mul a1 r1 rp.le (by norm_num)
  have y0 := mul_le_mul x0 f0.1 (by norm_num) (mul_pos ap rp).le
  have y1 := mul_le_mul x1 f0.2 (le_trans (by norm_num) f0.1) (by norm_num)
  constructor
  · refine le_trans (by norm_num) y0
  · exact y1.trans (by norm_num)

/-- The exact radius in the uniform colour space. -/
noncomputable def mstarR (argb : Int) : ℝ := Real.log (1.0 + 0.0228 * (Cam16.fromInt argb : Cam16 ℝ).m) / 0.0228

theorem nr_mstar (hS : L.Sound) (hT : L.TempOk) (hC : L.CamOk) {argb : Int} (h : NotBlack argb) :
    Nr (Fl.ln (1.0 + 0.0228 * (Cam16.fromInt argb : Cam16 𝔻).m) / 0.0228) (mstarR argb) (46 / 10 ^ 7) 15 := by
  obtain ⟨-, -, -, -, m, -⟩ := cam_near hS hT h
  obtain ⟨m0, m1⟩ := m_bounds h
  have m := m.to (381 / 10 ^ 8) 8 le_rfl (le_trans (by norm_num) m0) (m1.trans (by norm_num))
  have l2 : Nr (0.0228 : 𝔻) (0.0228 : ℝ) (1 / 10 ^ 15) 2 := nr_lit 2 (by norm_num) (by norm_num) (by norm_num)
  have y := l2.mul m (3811 / 10 ^ 9) (by norm_num) (by norm_num) (by norm_num)
  have i1 : Is (1.0 : 𝔻) 1 := by simpa using lit (L := L) 10 1 true 1 (by norm_num) (by norm_num)
  unfold mstarR
  have e1 : (1.0 : ℝ) = 1 := by norm_num
  rw [e1]
  have y0 : 18 / 10 ^ 10 ≤ 0.0228 * (Cam16.fromInt argb : Cam16 ℝ).m := by
    norm_num at m0 ⊢; linarith
  have y1 : 0.0228 * (Cam16.fromInt argb : Cam16 ℝ).m ≤ 228000 := by
    norm_num at m1 ⊢; linarith
  generalize 0.0228 * (Cam16.fromInt argb : Cam16 ℝ).m = Y at *
  generalize (0.0228 * (Cam16.fromInt argb : Cam16 𝔻).m : 𝔻) = yy at *
  have Yp : 0 < Y := y.pos
  obtain ⟨v, iv, hv⟩ := y.rl
  have hv' := abs_le.1 hv
  have v0 : 0 ≤ v := by norm_num at hv'; linarith
  have v1 : v ≤ 229000 := by norm_num at hv'; linarith
  have hb : |1 + v| ≤ 10 ^ 120 := by rw [abs_of_nonneg (by linarith)]; exact le_trans (by linarith) (show (229001 : ℝ) ≤ 10 ^ 120 by norm_num)
  have ix := i1.add iv (rnd_huge hb)
  have x1 : 1 ≤ rnd (1 + v) := i1.rep.le_rnd (by linarith)
  have xr := rnd_any (1 + v)
  rw [abs_of_nonneg (show 0 ≤ 1 + v by linarith)] at xr
  have xd : |rnd (1 + v) - (1 + Y)| ≤ 3814 / 10 ^ 9 * Y + (1 + Y) * (3 / 10 ^ 16) := by
    have hh := abs_add_le (rnd (1 + v) - (1 + v)) (v - Y)
    rw [show rnd (1 + v) - (1 + v) + (v - Y) = rnd (1 + v) - (1 + Y) by ring] at hh
    refine hh.trans ((add_le_add xr hv).trans ?_)
    norm_num at *; linarith
  generalize rnd (1 + v) = X at *
  have xd' := abs_le.1 xd
  have X2 : X ≤ 10 ^ 6 := by norm_num at xd'; norm_num; linarith
  obtain ⟨fl, hl⟩ := hC.ln _ ix.1 (by rw [ix.2]; exact x1) (by rw [ix.2]; exact X2)
  rw [ix.2] at hl
  have il : Is (Fl.ln (1.0 + yy) : 𝔻) (L.ln (1.0 + yy : 𝔻)).val := ⟨fl, rfl⟩
  generalize (L.ln (1.0 + yy : 𝔻)).val = lv at *
  -- logarithms
  have Lp : 0 < Real.log (1 + Y) := Real.log_pos (by linarith)
  have hlow : Y / (1 + Y) ≤ Real.log (1 + Y) := by
    have := Real.one_sub_inv_le_log_of_pos (show 0 < 1 + Y by linarith)
    have e : 1 - (1 + Y)⁻¹ = Y / (1 + Y) := by field_simp; ring
    rwa [e] at this
  have key : |Real.log X - Real.log (1 + Y)| ≤ 3817 / 10 ^ 9 * Real.log (1 + Y) + 4 / 10 ^ 16 := by
    have Xp : 0 < X := by linarith
    have yp : 0 < 1 + Y := by linarith
    have up : Real.log X - Real.log (1 + Y) ≤ (X - (1 + Y)) / (1 + Y) := by
      rw [← Real.log_div Xp.ne' yp.ne']
      refine (Real.log_le_sub_one_of_pos (div_pos Xp yp)).trans (le_of_eq ?_)
      field_simp
    have dn : Real.log (1 + Y) - Real.log X ≤ ((1 + Y) - X) / X := by
      rw [← Real.log_div yp.ne' Xp.ne']
      refine (Real.log_le_sub_one_of_pos (div_pos yp Xp)).trans (le_of_eq ?_)
      field_simp
    have q : (3814 / 10 ^ 9 * Y + (1 + Y) * (3 / 10 ^ 16)) / (1 + Y) = 3814 / 10 ^ 9 * (Y / (1 + Y)) + 3 / 10 ^ 16 := by field_simp
    have hX : (1 + Y) * (1 - 1 / 10 ^ 5) ≤ X := by norm_num at xd' ⊢; linarith
    have b1 : (X - (1 + Y)) / (1 + Y) ≤ 3814 / 10 ^ 9 * (Y / (1 + Y)) + 3 / 10 ^ 16 := by
      rw [← q]; gcongr; exact xd'.2
    have b2 : ((1 + Y) - X) / X ≤ (3814 / 10 ^ 9 * (Y / (1 + Y)) + 3 / 10 ^ 16) * (1 + 2 / 10 ^ 5) := by
      rw [← q, div_le_iff₀ Xp]
      have b3 : (1 + Y) ≤ (1 + 2 / 10 ^ 5) * X := by norm_num at hX ⊢; linarith
      have b4 : (3814 / 10 ^ 9 * Y + (1 + Y) * (3 / 10 ^ 16)) / (1 + Y) * (1 + Y) ≤ (3814 / 10 ^ 9 * Y + (1 + Y) * (3 / 10 ^ 16)) / (1 + Y) * ((1 + 2 / 10 ^ 5) * X) := by
        gcongr
      rw [div_mul_cancel₀ _ yp.ne'] at b4
      linarith
    rw [abs_le]
    generalize Y / (1 + Y) = z at *
    generalize Real.log (1 + Y) = l at *
    norm_num at *
    constructor <;> linarith
  have L0 : 16 / 10 ^ 10 ≤ Real.log (1 + Y) := by
    refine le_trans ?_ hlow
    rw [le_div_iff₀ (by linarith)]
    norm_num at y0 y1 ⊢
    linarith
  have L1 : Real.log (1 + Y) ≤ 10 ^ 10 := by
    have := Real.log_le_sub_one_of_pos (show 0 < 1 + Y by linarith)
    norm_num at y1 ⊢; linarith
  have nl : Nr (Fl.ln (1.0 + yy) : 𝔻) (Real.log (1 + Y)) (41 / 10 ^ 7) 10 := by
    refine ⟨⟨lv, il, ?_⟩, by norm_num, le_trans (by norm_num) L0, L1⟩
    have hl := abs_le.1 hl
    have key := abs_le.1 key
    generalize Real.log X = lx at *
    generalize Real.log (1 + Y) = l at *
    rw [abs_le]
    norm_num at *
    constructor <;> linarith
  have r := nl.div l2 (46 / 10 ^ 7) (by norm_num) (by norm_num) (by norm_num)
  exact ⟨r.rl, r.e0, (inv_ten_le (by norm_num)).trans r.lo, r.hi.trans (ten_pow_le (by norm_num))⟩

/-- Cosine and sine of a hue. -/
theorem ap_trig (hR : L.TrigOk) {hue : 𝔻} {v H : ℝ} {k : ℤ} (ig : Is hue v) (g0 : 0 ≤ v) (g1 : v ≤ 360) (hk : |v - (H + k * 360)| ≤ 168 / 10 ^ 6) :
    Ap (Fl.cos (hue * Fl.pi / 180.0) : 𝔻) (cos (H * π / 180)) (2933 / 10 ^ 9) ∧ Ap (Fl.sin (hue * Fl.pi / 180.0) : 𝔻) (sin (H * π / 180)) (2933 / 10 ^ 9) := by
  have h180 : Is (180.0 : 𝔻) 180 := by simpa using lit (L := L) 1800 1 true 180 (by norm_num) (by norm_num)
  have pp := pi_gt_d6
  have pu := pi_lt_d6
  have gp : 0 ≤ v * π := mul_nonneg g0 pi_pos.le
  have gp1 : v * π ≤ 1198 := (mul_le_mul (g1.trans (show (360 : ℝ) ≤ 381 by norm_num)) (show π ≤ 3.142 by norm_num at *; linarith) pi_pos.le (by norm_num)).trans (by norm_num)
  have G : ∃ a : ℝ, Is (hue * Fl.pi / 180.0 : 𝔻) a ∧ 0 ≤ a ∧ |a - v * π / 180| ≤ 2 / 10 ^ 14 := by
    obtain ⟨p, ip, hp'⟩ := (nr_pi (L := L)).rl
    have hp2 := abs_le.1 hp'
    have p0 : 0 ≤ p := by norm_num at *; linarith
    obtain ⟨q, iq, hq⟩ : Ap (hue * Fl.pi : 𝔻) (v * π) (2 / 10 ^ 12) := by
      refine ap_rndS (B := 1198) (a := 381 * (4 / 10 ^ 15)) (fun h => ig.mul ip h) ?_ ?_ (by norm_num) (by norm_num)
      · rw [← mul_sub, abs_mul, abs_of_nonneg g0]
        refine mul_le_mul (g1.trans (by norm_num)) (hp'.trans ?_) (abs_nonneg _) (by norm_num)
        norm_num at pu ⊢; linarith
      · rw [abs_of_nonneg (mul_nonneg g0 p0)]
        refine (mul_le_mul (g1.trans (show (360 : ℝ) ≤ 381 by norm_num)) (show p ≤ 3.142 by norm_num at *; linarith) p0 (by norm_num)).trans (by norm_num)
    have q0 : 0 ≤ q := by
      have hb : |v * p| ≤ 10 ^ 120 := by
        rw [abs_of_nonneg (mul_nonneg g0 p0)]
        refine (mul_le_mul (g1.trans (show (360 : ℝ) ≤ 381 by norm_num)) (show p ≤ 3.142 by norm_num at *; linarith) p0 (by norm_num)).trans (by norm_num)
      rw [iq.unique (ig.mul ip (rnd_huge hb))]
      exact rnd_nonneg (mul_nonneg g0 p0)
    obtain ⟨a, ia, ha⟩ : Ap (hue * Fl.pi / 180.0 : 𝔻) (v * π / 180) (2 / 10 ^ 14) := by
      refine ap_rndS (B := 7) (a := 2 / 10 ^ 12 / 180) (fun h => iq.div h180 (by norm_num) h) ?_ ?_ (by norm_num) (by norm_num)
      · rw [← sub_div, abs_div, abs_of_pos (show (0:ℝ) < 180 by norm_num)]; gcongr
      · have hq := abs_le.1 hq
        rw [abs_le]; constructor <;> norm_num at * <;> linarith
    refine ⟨a, ia, ?_, ha⟩
    have hq' := abs_le.1 hq
    have hb : |q / 180| ≤ 10 ^ 120 := by
      rw [abs_of_nonneg (by positivity)]
      refine le_trans ?_ (show (7 : ℝ) ≤ 10 ^ 120 by norm_num)
      norm_num at *; linarith
    rw [ia.unique (iq.div h180 (by norm_num) (rnd_huge hb))]
    exact rnd_nonneg (by positivity)
  obtain ⟨a, ia, a0, ha⟩ := G
  have ha' := abs_le.1 ha
  obtain ⟨fc, hc, fs, hs⟩ := hR _ ia.1 (by rw [ia.2]; exact a0) (by rw [ia.2]; norm_num at *; linarith)
  rw [ia.2] at hc hs
  have e2 : a - (H * π / 180 + k * (2 * π)) = (a - v * π / 180) + (v - (H + k * 360)) * (π / 180) := by ring
  have h2 : |(v - (H + k * 360)) * (π / 180)| ≤ 168 / 10 ^ 6 * 0.01745330 := by
    rw [abs_mul, abs_of_pos (show 0 < π / 180 by positivity)]
    exact mul_le_mul hk (by norm_num at *; linarith) (by positivity) (by norm_num)
  constructor
  · refine ⟨_, ⟨fc, rfl⟩, ?_⟩
    rw [← cos_add_int_mul_two_pi _ k]
    have h1 := abs_cos_sub_cos_le a (H * π / 180 + k * (2 * π))
    rw [e2] at h1
    have h4 := (abs_add_le _ _).trans (add_le_add hc (h1.trans ((abs_add_le _ _).trans (add_le_add ha h2))))
    rw [sub_add_sub_cancel] at h4
    exact h4.trans (by norm_num)
  · refine ⟨_, ⟨fs, rfl⟩, ?_⟩
    rw [← sin_add_int_mul_two_pi _ k]
    have h1 := abs_sin_sub_sin_le a (H * π / 180 + k * (2 * π))
    rw [e2] at h1
    have h4 := (abs_add_le _ _).trans (add_le_add hs (h1.trans ((abs_add_le _ _).trans (add_le_add ha h2))))
    rw [sub_add_sub_cancel] at h4
    exact h4.trans (by norm_num)

theorem prod_near {x y : 𝔻} {M C : ℝ} (hx : Nr x M (46 / 10 ^ 7) 15) (hy : Ap y C (2933 / 10 ^ 9)) (hC : |C| ≤ 1) :
    Ap (x * y) (M * C) (8 / 10 ^ 6 * M) := by
  obtain ⟨w, iw, hw⟩ := hx.rl
  obtain ⟨c, ic, hc⟩ := hy
  have Mp := hx.pos
  have M0 := hx.lo
  have M1 := hx.hi
  have hw' := abs_le.1 hw
  have w0 : 0 ≤ w := by norm_num at hw'; linarith
  have w1 : w ≤ M * 1.0001 := by norm_num at *; linarith
  have c1 : |c| ≤ 1.0001 := by
    have hc' := abs_le.1 hc
    have hC' := abs_le.1 hC
    rw [abs_le]; constructor <;> norm_num at * <;> linarith
  have wc : |w * c| ≤ M * 1.001 := by
    rw [abs_mul, abs_of_nonneg w0]
    refine (mul_le_mul w1 c1 (abs_nonneg _) (by positivity)).trans ?_
    norm_num; linarith
  have hb : |w * c| ≤ 10 ^ 120 := wc.trans ((mul_le_mul_of_nonneg_right M1 (by norm_num)).trans (by norm_num))
  refine ⟨_, iw.mul ic (rnd_huge hb), ?_⟩
  have r := rnd_any (w * c)
  have d : |w * c - M * C| ≤ M * 1.0001 * (2933 / 10 ^ 9) + 46 / 10 ^ 7 * M := by
    rw [show w * c - M * C = w * (c - C) + (w - M) * C by ring]
    refine (abs_add_le _ _).trans (add_le_add ?_ ?_)
    · rw [abs_mul, abs_of_nonneg w0]
      exact mul_le_mul w1 hc (abs_nonneg _) (by positivity)
    · rw [abs_mul]
      exact (mul_le_mul hw hC (abs_nonneg _) (by positivity)).trans (by rw [mul_one])
  have h := (abs_add_le _ _).trans (add_le_add r d)
  rw [sub_add_sub_cancel] at h
  refine h.trans ?_
  generalize |w * c| = z at *
  norm_num at *
  linarith

theorem ucs_near (hS : L.Sound) (hT : L.TempOk) (hC : L.CamOk) {argb : Int} (h : NotBlack argb) :
    Ap (Cam16.fromInt argb : Cam16 𝔻).astar (Cam16.fromInt argb : Cam16 ℝ).astar (8 / 10 ^ 6 * mstarR argb) ∧
    Ap (Cam16.fromInt argb : Cam16 𝔻).bstar (Cam16.fromInt argb : Cam16 ℝ).bstar (8 / 10 ^ 6 * mstarR argb) := by
  obtain ⟨⟨v, n, iv, v0, v1, hv⟩, -⟩ := cam_near hS hT h
  obtain ⟨c, s⟩ := ap_trig hS.trig iv v0 v1 hv
  have m := nr_mstar hS hT hC h
  have ea : (Cam16.fromInt argb : Cam16 ℝ).astar = mstarR argb * cos ((Cam16.fromInt argb : Cam16 ℝ).hue * π / 180) := by
    have e : (Cam16.fromInt argb : Cam16 ℝ).astar = mstarR argb * cos ((Cam16.fromInt argb : Cam16 ℝ).hue * π / 180.0) := rfl
    rw [e]; norm_num
  have eb : (Cam16.fromInt argb : Cam16 ℝ).bstar = mstarR argb * sin ((Cam16.fromInt argb : Cam16 ℝ).hue * π / 180) := by
    have e : (Cam16.fromInt argb : Cam16 ℝ).bstar = mstarR argb * sin ((Cam16.fromInt argb : Cam16 ℝ).hue * π / 180.0) := rfl
    rw [e]; norm_num
  rw [ea, eb]
  exact ⟨prod_near m c (abs_cos_le_one _), prod_near m s (abs_sin_le_one _)⟩

theorem mstar_radius (argb : Int) (h : NotBlack argb) :
    mstarR argb = Real.sqrt ((Cam16.fromInt argb : Cam16 ℝ).astar ^ 2 + (Cam16.fromInt argb : Cam16 ℝ).bstar ^ 2) := by
  have ea : (Cam16.fromInt argb : Cam16 ℝ).astar = mstarR argb * cos ((Cam16.fromInt argb : Cam16 ℝ).hue * π / 180.0) := rfl
  have eb : (Cam16.fromInt argb : Cam16 ℝ).bstar = mstarR argb * sin ((Cam16.fromInt argb : Cam16 ℝ).hue * π / 180.0) := rfl
  rw [ea, eb, mul_pow, mul_pow, ← mul_add, cos_sq_add_sin_sq, mul_one, Real.sqrt_sq]
  unfold mstarR
  have m := (m_bounds h).1
  refine div_nonneg (Real.log_nonneg ?_) (by norm_num)
  norm_num at *; linarith

end Mcu.Lemmas
