import Verif.Lemmas.F64Rel

/-! The default viewing conditions in binary64, as intervals. -/

namespace Mcu.Lemmas

open Mcu.Ieee Props Props.Binary64 ColorUtils MathUtils

variable {L : Libm}

local notation "𝔻" => F64 L
/-- The default viewing conditions in binary64. -/
noncomputable abbrev vc64 (L : Libm) : ViewingConditions (F64 L) := ViewingConditions.sRgb

theorem in_y50 : In (yFromLstar (50.0 : 𝔻)) 18.41865 18.41866 := by
  have h50 : Is (50.0 : 𝔻) 50 := by simpa using lit (L := L) 500 1 true 50 (by norm_num) (by norm_num)
  have h := (ap_yFromLstar h50.ap (by norm_num) (by norm_num) (by norm_num)).in
  have e : yFromLstar (50 : ℝ) = 100 * (33 / 58) ^ 3 := by rw [y50]
  rw [e] at h
  exact h.mono (by norm_num) (by norm_num)

theorem in_pi : In (Fl.pi : 𝔻) 3.14159 3.1416 := by
  have h1 := Real.pi_gt_d6
  have h2 := Real.pi_lt_d6
  norm_num at h1 h2
  refine in_rnd (w := Real.pi) (fun h => is_ofReal _ h) ?_ ?_ (by norm_num) (by norm_num) <;> norm_num <;> linarith

theorem in_la : In (vc64 L).adaptingLuminance 11.7256 11.7258 := by
  have e : (vc64 L).adaptingLuminance = if (-1.0 : 𝔻) > 0.0 then -1.0 else 200.0 / Fl.pi * yFromLstar 50.0 / 100.0 := rfl
  have h1 : Is (1.0 : 𝔻) 1 := l1
  rw [e, if_neg]
  · have a := (in_lit (L := L) (m := 2000) (s := true) (e := 1) 200 (by norm_num) (by norm_num [abs_le])).div in_pi 63.6617 63.6621 (by norm_num) (by norm_num) (by norm_num)
      (by norm_num) (by norm_num) (by norm_num)
    have b := a.mul in_y50 1172.562 1172.577 (by norm_num) (by norm_num) (by norm_num) (by norm_num) (by norm_num) (by norm_num)
    exact b.div l100.in _ _ (by norm_num) (by norm_num) (by norm_num) (by norm_num) (by norm_num) (by norm_num)
  · rw [show ((-1.0 : 𝔻) > 0.0) = ((0.0 : 𝔻) < -1.0) from rfl, l0.lt_iff h1.neg]
    norm_num

theorem in_f : In (vc64 L).nC 0.999999999 1.000000001 := by
  have e : (vc64 L).nC = 0.8 + 2.0 / 10.0 := rfl
  rw [e]
  have a := (in_lit (L := L) (m := 20) (s := true) (e := 1) 2 (by norm_num) (by norm_num [abs_le])).div
    (in_lit (L := L) (m := 100) (s := true) (e := 1) 10 (by norm_num) (by norm_num [abs_le])) 0.1999999998 0.2000000002 (by norm_num) (by norm_num) (by norm_num)
      (by norm_num) (by norm_num) (by norm_num)
  exact (in_lit (L := L) (m := 8) (s := true) (e := 1) 0.8 (by norm_num) (by norm_num [abs_le])).add a _ _ (by norm_num) (by norm_num) (by norm_num) (by norm_num)

theorem in_c : In (vc64 L).c 0.689999 0.690001 := by
  have e : (vc64 L).c = if (vc64 L).nC ≥ 0.9 then lerp 0.59 0.69 (((vc64 L).nC - 0.9) * 10.0) else lerp 0.525 0.59 (((vc64 L).nC - 0.8) * 10.0) := rfl
  have l9 := in_lit (L := L) (m := 9) (s := true) (e := 1) 0.9 (by norm_num) (by norm_num [abs_le])
  change In (0.9 : 𝔻) _ _ at l9
  rw [e, if_pos]
  · have a := in_f.sub l9 0.0999999985 0.1000000015 (by norm_num) (by norm_num) (by norm_num) (by norm_num)
    have b := a.mul (in_lit (L := L) (m := 100) (s := true) (e := 1) 10 (by norm_num) (by norm_num [abs_le])) 0.99999998 1.00000002 (by norm_num) (by norm_num) (by norm_num)
      (by norm_num) (by norm_num) (by norm_num)
    have c := l1.in.sub b (-0.000000021) 0.000000021 (by norm_num) (by norm_num) (by norm_num) (by norm_num)
    -- (1 - amount) * 0.59 may have either sign
    have d : In ((1.0 - ((vc64 L).nC - 0.9) * 10.0) * 0.59 : 𝔻) (-0.00000002) 0.00000002 := by
      obtain ⟨v, iv, v1, v2⟩ := c
      obtain ⟨w, iw, w1, w2⟩ := in_lit (L := L) (m := 59) (s := true) (e := 2) 0.59 (by norm_num) (by norm_num [abs_le])
      have hb : |v * w| ≤ 0.00000002 - 1 / 10 ^ 10 := by
        rw [abs_mul]
        have h1 : |v| ≤ 0.000000021 := by rw [abs_le]; constructor <;> linarith
        have h2 : |w| ≤ 0.6 := by rw [abs_le]; norm_num at *; constructor <;> linarith
        refine (mul_le_mul h1 h2 (abs_nonneg _) (by norm_num)).trans (by norm_num)
      have hb := abs_le.1 hb
      exact in_rnd (fun h => iv.mul iw h) (by linarith) (by linarith) (by norm_num) (by norm_num)
    have g := b.mul (in_lit (L := L) (m := 69) (s := true) (e := 2) 0.69 (by norm_num) (by norm_num [abs_le])) 0.68999998 0.69000002 (by norm_num) (by norm_num) (by norm_num)
      (by norm_num) (by norm_num) (by norm_num)
    have r := d.add g 0.6899999 0.6900001 (by norm_num) (by norm_num) (by norm_num) (by norm_num)
    exact r.mono (by norm_num) (by norm_num)
  · obtain ⟨v, iv, v1, v2⟩ := in_f (L := L)
    obtain ⟨w, iw, w1, w2⟩ := l9
    rw [show ((vc64 L).nC ≥ 0.9) = ((0.9 : 𝔻) ≤ (vc64 L).nC) from rfl, iw.le_iff iv]
    norm_num at *; linarith

/-- The unclamped degree of adaptation. -/
noncomputable def degree (L : Libm) : F64 L :=
  (vc64 L).nC * (1.0 - (1.0 / 3.6) * Fl.exp ((-(vc64 L).adaptingLuminance - 42.0) / 92.0))

theorem in_exp (hE : L.ExpOk) : In (Fl.exp ((-(vc64 L).adaptingLuminance - 42.0) / 92.0) : 𝔻) 0.548 0.5602 := by
  obtain ⟨v, iv, v1, v2⟩ := in_la (L := L)
  have n : In (-(vc64 L).adaptingLuminance) (-11.7258) (-11.7256) := ⟨-v, iv.neg, by linarith, by linarith⟩
  have a := n.sub (in_lit (L := L) (m := 420) (s := true) (e := 1) 42 (by norm_num) (by norm_num [abs_le])) (-53.7259) (-53.7255) (by norm_num) (by norm_num) (by norm_num) (by norm_num)
  have b : In ((-(vc64 L).adaptingLuminance - 42.0) / 92.0) (-0.584) (-0.583) := by
    obtain ⟨w, iw, w1, w2⟩ := a
    have i92 : Is (92.0 : 𝔻) 92 := by simpa using lit (L := L) 920 1 true 92 (by norm_num) (by norm_num)
    refine in_rnd (w := w / 92) (fun h => iw.div i92 (by norm_num) h) ?_ ?_ (by norm_num) (by norm_num) <;> norm_num at * <;> linarith
  obtain ⟨w, ⟨f, rfl⟩, w1, w2⟩ := b
  norm_num at w1 w2
  obtain ⟨g1, g2⟩ := hE _ f (by linarith) (by linarith)
  refine ⟨_, ⟨g1, rfl⟩, ?_⟩
  have g2 := abs_le.1 g2
  have e1 := Real.exp_one_gt_d9
  have e2 := Real.exp_one_lt_d9
  generalize Dbl.val ((-(vc64 L).adaptingLuminance - 42.0) / 92.0 : 𝔻) = w at *
  have h0 := Real.exp_pos (-w)
  have u : Real.exp (-w) ≤ 1.8223 := by
    have h1 : Real.exp (-w) ≤ Real.exp (3 / 5) := Real.exp_le_exp.2 (by linarith)
    have h2 : Real.exp (3 / 5) ^ 5 ≤ 1.8223 ^ 5 := by
      rw [← Real.exp_nat_mul, show ((5 : ℕ) : ℝ) * (3 / 5) = ((3 : ℕ) : ℝ) * 1 by norm_num, Real.exp_nat_mul]
      refine (pow_le_pow_left₀ (Real.exp_pos _).le e2.le 3).trans ?_
      norm_num
    exact h1.trans (le_of_pow_le_pow_left₀ (by norm_num) (by norm_num) h2)
  have l : 1.786 ≤ Real.exp (-w) := by
    have h1 : Real.exp (29 / 50) ≤ Real.exp (-w) := Real.exp_le_exp.2 (by linarith)
    have h2 : 1.786 ^ 50 ≤ Real.exp (29 / 50) ^ 50 := by
      rw [← Real.exp_nat_mul, show ((50 : ℕ) : ℝ) * (29 / 50) = ((29 : ℕ) : ℝ) * 1 by norm_num, Real.exp_nat_mul]
      refine le_trans ?_ (pow_le_pow_left₀ (by norm_num) e1.le 29)
      norm_num
    exact (le_of_pow_le_pow_left₀ (by norm_num) (Real.exp_pos _).le h2).trans h1
  have ee : Real.exp w = (Real.exp (-w))⁻¹ := by rw [Real.exp_neg, inv_inv]
  have u' : (1.8223 : ℝ)⁻¹ ≤ Real.exp w := by rw [ee]; exact inv_anti₀ h0 u
  have l' : Real.exp w ≤ (1.786 : ℝ)⁻¹ := by rw [ee]; exact inv_anti₀ (by norm_num) l
  norm_num at *
  change 137 / 250 ≤ Dbl.val (L.exp _) ∧ Dbl.val (L.exp _) ≤ 2801 / 5000
  constructor <;> linarith

theorem in_degree (hE : L.ExpOk) : In (degree L) 0.844 0.848 := by
  have a := l1.in.div (in_lit (L := L) (m := 36) (s := true) (e := 1) 3.6 (by norm_num) (by norm_num [abs_le])) 0.2777 0.2778 (by norm_num) (by norm_num) (by norm_num)
    (by norm_num) (by norm_num) (by norm_num)
  have b := a.mul (in_exp hE) 0.1521 0.1557 (by norm_num) (by norm_num) (by norm_num) (by norm_num) (by norm_num) (by norm_num)
  have c := l1.in.sub b 0.8442 0.84791 (by norm_num) (by norm_num) (by norm_num) (by norm_num)
  exact in_f.mul c _ _ (by norm_num) (by norm_num) (by norm_num) (by norm_num) (by norm_num) (by norm_num)

theorem clamp_degree (hE : L.ExpOk) : (if degree L > 1.0 then 1.0 else if degree L < 0.0 then 0.0 else degree L) = degree L := by
  obtain ⟨v, iv, v1, v2⟩ := in_degree hE
  norm_num at v1 v2
  rw [if_neg, if_neg]
  · rw [iv.lt_iff l0]; linarith
  · rw [show (degree L > 1.0) = ((1.0 : 𝔻) < degree L) from rfl, l1.lt_iff iv]; linarith

/-- The cone responses of the white point, viewing_conditions.rs 95-97. -/
noncomputable def white (L : Libm) : Vec3 (F64 L) :=
  ⟨(whitePointD65 : Vec3 (F64 L)).x0 * 0.401288 + (whitePointD65 : Vec3 (F64 L)).x1 * 0.650173 + (whitePointD65 : Vec3 (F64 L)).x2 * (-0.051461),
   (whitePointD65 : Vec3 (F64 L)).x0 * (-0.250268) + (whitePointD65 : Vec3 (F64 L)).x1 * 1.204414 + (whitePointD65 : Vec3 (F64 L)).x2 * 0.045854,
   (whitePointD65 : Vec3 (F64 L)).x0 * (-0.002079) + (whitePointD65 : Vec3 (F64 L)).x1 * 0.048952 + (whitePointD65 : Vec3 (F64 L)).x2 * 0.953127⟩

theorem in_wx : In (whitePointD65 : Vec3 𝔻).x0 (95.047 - 1 / 10 ^ 10) (95.047 + 1 / 10 ^ 10) :=
  in_lit (m := 95047) (s := true) (e := 3) 95.047 (by norm_num) (by norm_num [abs_le])
theorem in_wz : In (whitePointD65 : Vec3 𝔻).x2 (108.883 - 1 / 10 ^ 10) (108.883 + 1 / 10 ^ 10) :=
  in_lit (m := 108883) (s := true) (e := 3) 108.883 (by norm_num) (by norm_num [abs_le])
theorem in_wy : In (whitePointD65 : Vec3 𝔻).x1 100 100 := l100.in

theorem in_neg {x : 𝔻} {l u : ℝ} (h : In x l u) : In (-x) (-u) (-l) := by
  obtain ⟨v, iv, a, b⟩ := h
  exact ⟨-v, iv.neg, by linarith, by linarith⟩

theorem in_white0 : In (white L).x0 97.555 97.556 := by
  have a := in_wx.mul (in_lit (L := L) (m := 401288) (s := true) (e := 6) 0.401288 (by norm_num) (by norm_num [abs_le])) 38.1412 38.14123 (by norm_num) (by norm_num) (by norm_num)
    (by norm_num) (by norm_num) (by norm_num)
  have b := in_wy.mul (in_lit (L := L) (m := 650173) (s := true) (e := 6) 0.650173 (by norm_num) (by norm_num [abs_le])) 65.01729 65.01731 (by norm_num) (by norm_num) (by norm_num)
    (by norm_num) (by norm_num) (by norm_num)
  have c := in_wz.mul_neg (in_neg (in_lit (L := L) (m := 51461) (s := true) (e := 6) 0.051461 (by norm_num) (by norm_num [abs_le]))) (-5.6033) (-5.6031) (by norm_num) (by norm_num) (by norm_num)
    (by norm_num) (by norm_num) (by norm_num)
  exact (a.add b 103.1584 103.1586 (by norm_num) (by norm_num) (by norm_num) (by norm_num)).add c _ _ (by norm_num) (by norm_num) (by norm_num) (by norm_num)

theorem in_white1 : In (white L).x1 101.6467 101.6472 := by
  have a := in_wx.mul_neg (in_neg (in_lit (L := L) (m := 250268) (s := true) (e := 6) 0.250268 (by norm_num) (by norm_num [abs_le]))) (-23.78725) (-23.7872) (by norm_num) (by norm_num) (by norm_num)
    (by norm_num) (by norm_num) (by norm_num)
  have b := in_wy.mul (in_lit (L := L) (m := 1204414) (s := true) (e := 6) 1.204414 (by norm_num) (by norm_num [abs_le])) 120.4413 120.4415 (by norm_num) (by norm_num) (by norm_num)
    (by norm_num) (by norm_num) (by norm_num)
  have c := in_wz.mul (in_lit (L := L) (m := 45854) (s := true) (e := 6) 0.045854 (by norm_num) (by norm_num [abs_le])) 4.9927 4.9928 (by norm_num) (by norm_num) (by norm_num)
    (by norm_num) (by norm_num) (by norm_num)
  exact (a.add b 96.65404 96.65432 (by norm_num) (by norm_num) (by norm_num) (by norm_num)).add c _ _ (by norm_num) (by norm_num) (by norm_num) (by norm_num)

theorem in_white2 : In (white L).x2 108.4768 108.4771 := by
  have a := in_wx.mul_neg (in_neg (in_lit (L := L) (m := 2079) (s := true) (e := 6) 0.002079 (by norm_num) (by norm_num [abs_le]))) (-0.19761) (-0.1976) (by norm_num) (by norm_num) (by norm_num)
    (by norm_num) (by norm_num) (by norm_num)
  have b := in_wy.mul (in_lit (L := L) (m := 48952) (s := true) (e := 6) 0.048952 (by norm_num) (by norm_num [abs_le])) 4.89519 4.89521 (by norm_num) (by norm_num) (by norm_num)
    (by norm_num) (by norm_num) (by norm_num)
  have c := in_wz.mul (in_lit (L := L) (m := 953127) (s := true) (e := 6) 0.953127 (by norm_num) (by norm_num [abs_le])) 103.7793 103.77935 (by norm_num) (by norm_num) (by norm_num)
    (by norm_num) (by norm_num) (by norm_num)
  exact (a.add b 4.69757 4.69762 (by norm_num) (by norm_num) (by norm_num) (by norm_num)).add c _ _ (by norm_num) (by norm_num) (by norm_num) (by norm_num)

theorem in_gain (hE : L.ExpOk) {w : 𝔻} {a b : ℝ} (hw : In w a b) (a0 : 50 ≤ a) (l u r1 r2 : ℝ) (r0 : 0 ≤ r1) (hr1 : r1 + 1 / 10 ^ 10 ≤ 100 / b) (hr2 : 100 / a + 1 / 10 ^ 10 ≤ r2) (hr : r2 ≤ 10)
    (hl : 0.844 ≤ l) (hl' : l + 1 / 10 ^ 3 ≤ 1 + 0.844 * (r1 - 1)) (hl'' : l + 1 / 10 ^ 3 ≤ 1 + 0.848 * (r1 - 1)) (hu : 1 + 0.844 * (r2 - 1) + 1 / 10 ^ 3 ≤ u) (hu' : 1 + 0.848 * (r2 - 1) + 1 / 10 ^ 3 ≤ u)
    (hu1 : u ≤ 10) : In (degree L * (100.0 / w) + 1.0 - degree L) l u := by
  obtain ⟨ρ', iρ, p1, p2⟩ := l100.in.div hw r1 r2 (by norm_num) (by linarith) hr1 hr2 (by linarith [show (-10 ^ 5 : ℝ) ≤ 0 by norm_num]) (by linarith [show (10 : ℝ) ≤ 10 ^ 5 by norm_num])
  obtain ⟨d, id, d1, d2⟩ := in_degree hE
  norm_num at d1 d2 hl
  have hm : |d * ρ'| ≤ 100 := by
    rw [abs_of_nonneg (mul_nonneg (by linarith) (by linarith))]
    nlinarith
  obtain ⟨m1, m2⟩ := rnd_ok (hm.trans (by norm_num))
  have im := id.mul iρ m1
  have m2 := abs_le.1 m2
  unfold ρ at m2
  have hm := abs_le.1 hm
  obtain ⟨s1, s2⟩ := rnd_ok (v := rnd (d * ρ') + 1) (by rw [abs_le]; norm_num at *; constructor <;> linarith)
  have is := im.add l1 s1
  have s2 := abs_le.1 s2
  unfold ρ at s2
  refine in_rnd (fun h => is.sub id h) ?_ ?_ (by linarith [show (-10 ^ 5 : ℝ) ≤ 0 by norm_num]) (by linarith [show (10 : ℝ) ≤ 10 ^ 5 by norm_num])
  · have k : l + 1 / 10 ^ 3 ≤ 1 + d * (r1 - 1) := by
      rcases le_total 1 r1 with h | h
      · have := mul_le_mul_of_nonneg_right d1 (show 0 ≤ r1 - 1 by linarith)
        norm_num at *; linarith
      · have := mul_le_mul_of_nonpos_right d2 (show r1 - 1 ≤ 0 by linarith)
        norm_num at *; linarith
    have k2 : d * r1 ≤ d * ρ' := mul_le_mul_of_nonneg_left p1 (by linarith)
    generalize rnd (rnd (d * ρ') + 1) = z at *
    generalize rnd (d * ρ') = z' at *
    norm_num at *; linarith
  · have k : 1 + d * (r2 - 1) + 1 / 10 ^ 3 ≤ u := by
      rcases le_total 1 r2 with h | h
      · have := mul_le_mul_of_nonneg_right d2 (show 0 ≤ r2 - 1 by linarith)
        norm_num at *; linarith
      · have := mul_le_mul_of_nonpos_right d1 (show r2 - 1 ≤ 0 by linarith)
        norm_num at *; linarith
    have k2 : d * ρ' ≤ d * r2 := mul_le_mul_of_nonneg_left p2 (by linarith)
    generalize rnd (rnd (d * ρ') + 1) = z at *
    generalize rnd (d * ρ') = z' at *
    norm_num at *; linarith

theorem rgbD_eq (hE : L.ExpOk) : (vc64 L).rgbD = ⟨degree L * (100.0 / (white L).x0) + 1.0 - degree L,
    degree L * (100.0 / (white L).x1) + 1.0 - degree L, degree L * (100.0 / (white L).x2) + 1.0 - degree L⟩ := by
  have e : (vc64 L).rgbD = (fun d : 𝔻 => (⟨d * (100.0 / (white L).x0) + 1.0 - d,
    d * (100.0 / (white L).x1) + 1.0 - d, d * (100.0 / (white L).x2) + 1.0 - d⟩ : Vec3 𝔻))
      (if degree L > 1.0 then 1.0 else if degree L < 0.0 then 0.0 else degree L) := rfl
  rw [e, clamp_degree hE]

theorem in_rgbD (hE : L.ExpOk) : In (vc64 L).rgbD.x0 1.0195 1.0225 ∧ In (vc64 L).rgbD.x1 0.985 0.9876 ∧ In (vc64 L).rgbD.x2 0.9325 0.9353 := by
  rw [rgbD_eq hE]
  refine ⟨?_, ?_, ?_⟩
  · exact in_gain hE in_white0 (by norm_num) _ _ 1.02505 1.02507 (by norm_num) (by norm_num) (by norm_num) (by norm_num) (by norm_num) (by norm_num) (by norm_num) (by norm_num) (by norm_num) (by norm_num)
  · exact in_gain hE in_white1 (by norm_num) _ _ 0.98379 0.98381 (by norm_num) (by norm_num) (by norm_num) (by norm_num) (by norm_num) (by norm_num) (by norm_num) (by norm_num) (by norm_num) (by norm_num)
  · exact in_gain hE in_white2 (by norm_num) _ _ 0.92185 0.92187 (by norm_num) (by norm_num) (by norm_num) (by norm_num) (by norm_num) (by norm_num) (by norm_num) (by norm_num) (by norm_num) (by norm_num)

theorem ap_frac {m e m' e' : ℕ} {s s' : Bool} (a b q : ℝ) (ha : (OfScientific.ofScientific m s e : ℝ) = a) (hb : (OfScientific.ofScientific m' s' e' : ℝ) = b)
    (a1 : |a| ≤ 10) (b0 : 2 / 5 ≤ b) (b1 : b ≤ 10) (hq : a / b = q) :
    Ap (OfScientific.ofScientific m s e / OfScientific.ofScientific m' s' e' : 𝔻) q (1 / 10 ^ 10) := by
  have h := (ap_lit (L := L) ha (a1.trans (by norm_num))).div (ap_lit (L := L) hb (by rw [abs_of_pos (by linarith)]; linarith)) (β := 2 / 5) (Q := 25)
    (by rw [abs_of_pos (by linarith)]; exact b0) (by unfold ρ; norm_num) (by norm_num; exact a1) (by unfold ρ; norm_num)
  rw [hq] at h
  exact h.weaken (by unfold ρ; norm_num)

theorem in_fl (hL : L.PowOk) : In (vc64 L).fl 0.3884 0.3886 := by
  have e : (vc64 L).fl = (fun k : 𝔻 => k * k * k * k * (vc64 L).adaptingLuminance + 0.1 * (1.0 - k * k * k * k) * (1.0 - k * k * k * k) *
    Fl.powf (5.0 * (vc64 L).adaptingLuminance) (1.0 / 3.0)) (1.0 / (5.0 * (vc64 L).adaptingLuminance + 1.0)) := rfl
  rw [e]
  have a := (in_lit (L := L) (m := 50) (s := true) (e := 1) 5 (by norm_num) (by norm_num [abs_le])).mul in_la 58.6279 58.6291 (by norm_num) (by norm_num) (by norm_num) (by norm_num) (by norm_num) (by norm_num)
  have b := a.add l1.in 59.6278 59.6292 (by norm_num) (by norm_num) (by norm_num) (by norm_num)
  have k := l1.in.div b 0.01677 0.016771 (by norm_num) (by norm_num) (by norm_num) (by norm_num) (by norm_num) (by norm_num)
  generalize (1.0 / (OfScientific.ofScientific 50 true 1 * (vc64 L).adaptingLuminance + 1.0) : 𝔻) = kk at k
  have k2 := k.mul k 0.00028 0.000282 (by norm_num) (by norm_num) (by norm_num) (by norm_num) (by norm_num) (by norm_num)
  have k3 := k2.mul k 0.000004 0.000005 (by norm_num) (by norm_num) (by norm_num) (by norm_num) (by norm_num) (by norm_num)
  have k4 := k3.mul k 0.00000001 0.0000001 (by norm_num) (by norm_num) (by norm_num) (by norm_num) (by norm_num) (by norm_num)
  have g := l1.in.sub k4 0.9999998 1.0000001 (by norm_num) (by norm_num) (by norm_num) (by norm_num)
  have h := (in_lit (L := L) (m := 1) (s := true) (e := 1) 0.1 (by norm_num) (by norm_num [abs_le])).mul g 0.0999999 0.1000001 (by norm_num) (by norm_num) (by norm_num) (by norm_num) (by norm_num) (by norm_num)
  have h := h.mul g 0.0999998 0.1000002 (by norm_num) (by norm_num) (by norm_num) (by norm_num) (by norm_num) (by norm_num)
  have p := a.pow hL (n := 1) (m := 3) (by norm_num) (ap_frac (m := 10) (e := 1) (s := true) (m' := 30) (e' := 1) (s' := true) 1 3 _ (by norm_num) (by norm_num) (by norm_num) (by norm_num) (by norm_num) (by norm_num)) le_rfl (by norm_num) (by norm_num) (by norm_num) (by norm_num)
    3.8846 3.8850 (by norm_num) (by norm_num) (by norm_num) (by norm_num)
  have r := h.mul p 0.38845 0.38851 (by norm_num) (by norm_num) (by norm_num) (by norm_num) (by norm_num) (by norm_num)
  have q := k4.mul in_la 0 0.00001 (by norm_num) (by norm_num) (by norm_num) (by norm_num) (by norm_num) (by norm_num)
  exact q.add r _ _ (by norm_num) (by norm_num) (by norm_num) (by norm_num)

theorem max50 : Fl.fmax (0.1 : 𝔻) 50.0 = 50.0 := by
  have h50 : Is (50.0 : 𝔻) 50 := by simpa using lit (L := L) 500 1 true 50 (by norm_num) (by norm_num)
  obtain ⟨v, iv, v1, v2⟩ := in_lit (L := L) (m := 1) (s := true) (e := 1) 0.1 (by norm_num) (by norm_num [abs_le])
  change Is (0.1 : 𝔻) v at iv
  have h : Fl.fmax (0.1 : 𝔻) 50.0 = open Classical in if ((0.1 : 𝔻) < 50.0) then 50.0 else 0.1 := dbl_fmax _ _ (fin_num iv.1) (fin_num h50.1)
  rw [h, if_pos]
  rw [iv.lt_iff h50]
  norm_num at *; linarith

theorem in_n : In (vc64 L).backgroundYToWhitePointY 0.184186 0.184187 := by
  have e : (vc64 L).backgroundYToWhitePointY = yFromLstar (Fl.fmax 0.1 50.0) / (whitePointD65 : Vec3 𝔻).x1 := rfl
  rw [e, max50]
  exact in_y50.div in_wy _ _ (by norm_num) (by norm_num) (by norm_num) (by norm_num) (by norm_num) (by norm_num)

theorem in_z : In (vc64 L).z 1.90916 1.90918 := by
  have e : (vc64 L).z = 1.48 + Fl.sqrt (vc64 L).backgroundYToWhitePointY := rfl
  rw [e]
  have a := (in_n (L := L)).sqrt 0.429165 0.429171 (by norm_num) (by norm_num) (by norm_num) (by norm_num) (by norm_num) (by norm_num)
  exact (in_lit (L := L) (m := 148) (s := true) (e := 2) 1.48 (by norm_num) (by norm_num [abs_le])).add a _ _ (by norm_num) (by norm_num) (by norm_num) (by norm_num)

theorem ap_dec {m e : ℕ} {s : Bool} (v q : ℝ) (hv : (OfScientific.ofScientific m s e : ℝ) = v) (h : |v| ≤ 1000) (hq : v = q) :
    Ap (OfScientific.ofScientific m s e : 𝔻) q (1 / 10 ^ 10) := by
  subst hq
  exact (ap_lit hv h).weaken (by unfold ρ; norm_num)

theorem in_nbb (hL : L.PowOk) : In (vc64 L).nbb 1.0169 1.01694 := by
  have e : (vc64 L).nbb = 0.725 / Fl.powf (vc64 L).backgroundYToWhitePointY 0.2 := rfl
  rw [e]
  have p := (in_n (L := L)).pow hL (n := 1) (m := 5) (by norm_num) (ap_dec (m := 2) (s := true) (e := 1) 0.2 _ (by norm_num) (by norm_num [abs_le]) (by norm_num)) le_rfl (by norm_num) (by norm_num) (by norm_num) (by norm_num)
    0.71293 0.71294 (by norm_num) (by norm_num) (by norm_num) (by norm_num)
  exact (in_lit (L := L) (m := 725) (s := true) (e := 3) 0.725 (by norm_num) (by norm_num [abs_le])).div p _ _ (by norm_num) (by norm_num) (by norm_num) (by norm_num) (by norm_num) (by norm_num)

theorem ncb_eq : (vc64 L).ncb = (vc64 L).nbb := rfl

/-- A cone response, viewing_conditions.rs 159-167. -/
noncomputable def coneOf (L : Libm) (d w : F64 L) : F64 L :=
  400.0 * Fl.powf ((vc64 L).fl * d * w / 100.0) 0.42 / (Fl.powf ((vc64 L).fl * d * w / 100.0) 0.42 + 27.13)

theorem in_response {x : 𝔻} {a b : ℝ} (hx : In x a b) (a0 : 0.6 ≤ a) (b0 : b ≤ 0.7) (l u : ℝ) (l0 : 0 ≤ l) (u0 : u ≤ 100)
    (hl : l + 1 / 10 ^ 6 ≤ 400 * a / (b + 27.13)) (hu : 400 * b / (a + 27.13) + 1 / 10 ^ 6 ≤ u) : In (400.0 * x / (x + 27.13)) l u := by
  obtain ⟨v, iv, v1, v2⟩ := hx
  obtain ⟨w, iw, w1, w2⟩ := in_lit (L := L) (m := 2713) (s := true) (e := 2) 27.13 (by norm_num) (by norm_num [abs_le])
  change Is (27.13 : 𝔻) w at iw
  have i4 : Is (400.0 : 𝔻) 400 := by simpa using lit (L := L) 4000 1 true 400 (by norm_num) (by norm_num)
  norm_num at a0 b0
  obtain ⟨m1, m2⟩ := rnd_ok (v := 400 * v) (by rw [abs_le]; constructor <;> linarith)
  obtain ⟨s1, s2⟩ := rnd_ok (v := v + w) (by rw [abs_le]; norm_num at *; constructor <;> linarith)
  have im := i4.mul iv m1
  have is := iv.add iw s1
  have m2 := abs_le.1 m2
  have s2 := abs_le.1 s2
  unfold ρ at m2 s2
  generalize rnd (400 * v) = p at *
  generalize rnd (v + w) = q at *
  have q0 : 27 ≤ q := by norm_num at *; linarith
  have ha : 0 < a + 27.13 := by norm_num; linarith
  have hb : 0 < b + 27.13 := by norm_num; linarith
  refine in_rnd (fun h => im.div is (by linarith) h) ?_ ?_ (by linarith [show (-10 ^ 5 : ℝ) ≤ 0 by norm_num]) (by linarith [show (100 : ℝ) ≤ 10 ^ 5 by norm_num])
  · rw [le_div_iff₀ (by linarith)]
    rw [le_div_iff₀ hb] at hl
    have hq : q ≤ b + 27.13 + 1 / 10 ^ 9 := by norm_num at *; linarith
    have h1 : 0 ≤ l + 1 / 10 ^ 10 := by positivity
    have h2 := mul_le_mul_of_nonneg_left hq h1
    have h3 : l ≤ 100 := by
      have : 400 * a / (b + 27.13) ≤ 100 := by rw [div_le_iff₀ hb]; norm_num; linarith
      rw [← le_div_iff₀ hb] at hl
      norm_num at hl ⊢; linarith
    norm_num at *; linarith
  · have hq : a + 27.13 - 1 / 10 ^ 9 ≤ q := by norm_num at *; linarith
    have h1 : p / q ≤ u - 1 / 10 ^ 10 := by
      rw [div_le_iff₀ (by linarith)]
      have hu' : 400 * b / (a + 27.13) ≤ u - 1 / 10 ^ 6 := by linarith
      rw [div_le_iff₀ ha] at hu'
      have hu0 : 0 ≤ u - 1 / 10 ^ 6 := by
        have : 0 ≤ 400 * b / (a + 27.13) := by
          apply div_nonneg _ ha.le; linarith
        linarith
      have h2 := mul_le_mul_of_nonneg_left hq (show 0 ≤ u - 1 / 10 ^ 10 by norm_num at *; linarith)
      norm_num at *; linarith
    linarith

theorem in_cone0 (hL : L.PowOk) (hE : L.ExpOk) : In (coneOf L (vc64 L).rgbD.x0 (white L).x0) 9.6491 9.6638 := by
  have a := (in_fl hL).mul (in_rgbD hE).1 0.395972 0.397345 (by norm_num) (by norm_num) (by norm_num) (by norm_num) (by norm_num) (by norm_num)
  have b := a.mul in_white0 38.62903 38.7634 (by norm_num) (by norm_num) (by norm_num) (by norm_num) (by norm_num) (by norm_num)
  have c := b.div l100.in 0.386289 0.387635 (by norm_num) (by norm_num) (by norm_num) (by norm_num) (by norm_num) (by norm_num)
  have d := c.pow hL (n := 21) (m := 50) (by norm_num) (ap_dec (m := 42) (s := true) (e := 2) 0.42 _ (by norm_num) (by norm_num [abs_le]) (by norm_num)) le_rfl (by norm_num) (by norm_num) (by norm_num) (by norm_num)
    0.670659 0.671644 (by norm_num) (by norm_num) (by norm_num) (by norm_num)
  exact in_response d (by norm_num) (by norm_num) _ _ (by norm_num) (by norm_num) (by norm_num) (by norm_num)

theorem in_cone1 (hL : L.PowOk) (hE : L.ExpOk) : In (coneOf L (vc64 L).rgbD.x1 (white L).x1) 9.6755 9.6889 := by
  have a := (in_fl hL).mul (in_rgbD hE).2.1 0.382573 0.383783 (by norm_num) (by norm_num) (by norm_num) (by norm_num) (by norm_num) (by norm_num)
  have b := a.mul in_white1 38.88727 39.01048 (by norm_num) (by norm_num) (by norm_num) (by norm_num) (by norm_num) (by norm_num)
  have c := b.div l100.in 0.388871 0.390106 (by norm_num) (by norm_num) (by norm_num) (by norm_num) (by norm_num) (by norm_num)
  have d := c.pow hL (n := 21) (m := 50) (by norm_num) (ap_dec (m := 42) (s := true) (e := 2) 0.42 _ (by norm_num) (by norm_num [abs_le]) (by norm_num)) le_rfl (by norm_num) (by norm_num) (by norm_num) (by norm_num)
    0.672538 0.673439 (by norm_num) (by norm_num) (by norm_num) (by norm_num)
  exact in_response d (by norm_num) (by norm_num) _ _ (by norm_num) (by norm_num) (by norm_num) (by norm_num)

theorem in_cone2 (hL : L.PowOk) (hE : L.ExpOk) : In (coneOf L (vc64 L).rgbD.x2 (white L).x2) 9.7163 9.7312 := by
  have a := (in_fl hL).mul (in_rgbD hE).2.2 0.362182 0.363459 (by norm_num) (by norm_num) (by norm_num) (by norm_num) (by norm_num) (by norm_num)
  have b := a.mul in_white2 39.28833 39.42699 (by norm_num) (by norm_num) (by norm_num) (by norm_num) (by norm_num) (by norm_num)
  have c := b.div l100.in 0.392882 0.394271 (by norm_num) (by norm_num) (by norm_num) (by norm_num) (by norm_num) (by norm_num)
  have d := c.pow hL (n := 21) (m := 50) (by norm_num) (ap_dec (m := 42) (s := true) (e := 2) 0.42 _ (by norm_num) (by norm_num [abs_le]) (by norm_num)) le_rfl (by norm_num) (by norm_num) (by norm_num) (by norm_num)
    0.675443 0.67645 (by norm_num) (by norm_num) (by norm_num) (by norm_num)
  exact in_response d (by norm_num) (by norm_num) _ _ (by norm_num) (by norm_num) (by norm_num) (by norm_num)

theorem in_aw (hL : L.PowOk) (hE : L.ExpOk) : In (vc64 L).aw 29.952 30.008 := by
  have e : (vc64 L).aw = (40.0 * coneOf L (vc64 L).rgbD.x0 (white L).x0 + 20.0 * coneOf L (vc64 L).rgbD.x1 (white L).x1 +
    coneOf L (vc64 L).rgbD.x2 (white L).x2) / 20.0 * (vc64 L).nbb := rfl
  rw [e]
  have i20 := in_lit (L := L) (m := 200) (s := true) (e := 1) 20 (by norm_num) (by norm_num [abs_le])
  have a := (in_lit (L := L) (m := 400) (s := true) (e := 1) 40 (by norm_num) (by norm_num [abs_le])).mul (in_cone0 hL hE) 385.963 386.553 (by norm_num) (by norm_num) (by norm_num) (by norm_num) (by norm_num) (by norm_num)
  have b := i20.mul (in_cone1 hL hE) 193.509 193.78 (by norm_num) (by norm_num) (by norm_num) (by norm_num) (by norm_num) (by norm_num)
  have c := (a.add b 579.469 580.335 (by norm_num) (by norm_num) (by norm_num) (by norm_num)).add (in_cone2 hL hE) 589.18 590.08 (by norm_num) (by norm_num) (by norm_num) (by norm_num)
  have d := c.div i20 29.458 29.505 (by norm_num) (by norm_num) (by norm_num) (by norm_num) (by norm_num) (by norm_num)
  exact d.mul (in_nbb hL) _ _ (by norm_num) (by norm_num) (by norm_num) (by norm_num) (by norm_num) (by norm_num)

theorem white_ratio64 (hL : L.PowOk) (hE : L.ExpOk) {A B : ℝ} (ha : Is (vc64 L).aw A) (hb : Is (vc64 L).nbb B) :
    0 < A ∧ 1.0169 ≤ B ∧ B ≤ 1.01694 ∧ A ≤ 31 ∧ 29.4 ≤ A / B ∧ A / B ≤ 29.6 := by
  obtain ⟨a, ia, a1, a2⟩ := in_aw hL hE
  obtain ⟨b, ib, b1, b2⟩ := in_nbb hL
  obtain rfl := ha.unique ia
  obtain rfl := hb.unique ib
  norm_num at a1 a2 b1 b2 ⊢
  have hB : 0 < B := by linarith
  refine ⟨by linarith, b1, b2, by linarith, ?_, ?_⟩
  · rw [le_div_iff₀ hB]; linarith
  · rw [div_le_iff₀ hB]; linarith

/-- The exponent of the lightness. -/
noncomputable def qOf (L : Libm) : F64 L := 1.0 / (vc64 L).c / (vc64 L).z

theorem in_q : In (qOf L) 0.7591 0.7592 := by
  have a := l1.in.div (in_c (L := L)) 1.44927 1.44928 (by norm_num) (by norm_num) (by norm_num) (by norm_num) (by norm_num) (by norm_num)
  exact a.div in_z _ _ (by norm_num) (by norm_num) (by norm_num) (by norm_num) (by norm_num) (by norm_num)

/-- The coefficient of the chroma. -/
noncomputable def kOf (L : Libm) : F64 L := 1.0 / Fl.powf (1.64 - Fl.powf 0.29 (vc64 L).backgroundYToWhitePointY) 0.73

theorem in_k (hL : L.PowOk) : In (kOf L) 1 1.2 := by
  have a : In (Fl.powf (0.29 : 𝔻) (vc64 L).backgroundYToWhitePointY) 0.75 0.83 := by
    obtain ⟨n, ii, n1, n2⟩ := in_n (L := L)
    obtain ⟨b, ib, b1, b2⟩ := in_lit (L := L) (m := 29) (s := true) (e := 2) 0.29 (by norm_num) (by norm_num [abs_le])
    norm_num at n1 n2 b1 b2
    obtain ⟨p, ip, hp⟩ := is_pow64 hL ib ii (by linarith) (by linarith [show (10 : ℝ) ^ 60 ≥ 10 by norm_num]) (by linarith) (by linarith)
    have hb : 0 < b := by linarith
    have u : b ^ n ≤ 0.825 := by
      refine rpow_upper' (a := 17) (b := 100) (by norm_num) hb (by linarith) (by norm_num) (by norm_num; linarith) ?_
      refine (pow_le_pow_left₀ hb.le (show b ≤ 0.3 by norm_num; linarith) 17).trans ?_
      norm_num
    have l : 0.76 ≤ b ^ n := by
      refine rpow_lower' (a := 1) (b := 5) (by norm_num) hb (by linarith) (by norm_num) (by norm_num; linarith) ?_
      rw [pow_one]; norm_num; linarith
    have hp := abs_le.1 hp
    refine ⟨p, ip, ?_, ?_⟩ <;> norm_num at * <;> linarith
  have b := (in_lit (L := L) (m := 164) (s := true) (e := 2) 1.64 (by norm_num) (by norm_num [abs_le])).sub a 0.809 0.891 (by norm_num) (by norm_num) (by norm_num) (by norm_num)
  have p := b.pow hL (n := 73) (m := 100) (by norm_num) (ap_dec (m := 73) (s := true) (e := 2) 0.73 _ (by norm_num) (by norm_num [abs_le]) (by norm_num)) le_rfl (by norm_num) (by norm_num) (by norm_num) (by norm_num)
    0.85 0.93 (by norm_num) (by norm_num) (by norm_num) (by norm_num)
  exact (l1.in.div p 1.07 1.18 (by norm_num) (by norm_num) (by norm_num) (by norm_num) (by norm_num) (by norm_num)).mono (by norm_num) (by norm_num)

end Mcu.Lemmas
