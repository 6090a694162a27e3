import Verif.Lemmas.F64BackXyz
import Verif.Lemmas.F64UcsNear

/-! From the CAM16 coordinates of black back to black, in IEEE-754 binary64. -/

namespace Mcu.Lemmas

open Mcu.Ieee Props Props.Binary64 MathUtils ColorUtils HctSolver Real

variable {L : Libm}

local notation "𝔻" => F64 L

theorem xyz64_zero_eq {c : Cam16 𝔻} (hj : (c.j == (0.0 : 𝔻)) = true) :
    c.xyzInViewingConditions (vc64 L) =
      (fun γ : 𝔻 => (fun r g b : 𝔻 => (⟨1.86206786 * r - 1.01125463 * g + 0.14918677 * b, 0.38752654 * r + 0.62144744 * g - 0.00897398 * b, (-0.01584150) * r - 0.03412294 * g + 1.04996444 * b⟩ : Vec3 𝔻))
      (stimOf (respR (p2Of c.j) (γ * Fl.cos (radOf c)) (γ * Fl.sin (radOf c))) (vc64 L).rgbD.x0)
      (stimOf (respG (p2Of c.j) (γ * Fl.cos (radOf c)) (γ * Fl.sin (radOf c))) (vc64 L).rgbD.x1)
      (stimOf (respB (p2Of c.j) (γ * Fl.cos (radOf c)) (γ * Fl.sin (radOf c))) (vc64 L).rgbD.x2))
      (gammaWith (radOf c) c.j (Fl.powf (0.0 / Fl.powf (1.64 - Fl.powf 0.29 (vc64 L).backgroundYToWhitePointY) 0.73) (1.0 / 0.9))) := by
  simp only [Cam16.xyzInViewingConditions, hj, Bool.or_true, if_true]
  rfl

theorem stim_zero (hL : L.PowOk) (hC : L.CamOk) {x d : 𝔻} {v : ℝ} (hx : Is x 0) (hd : Is d v) (v0 : v ≠ 0) : Is (stimOf x d) 0 := by
  have hs : signum x = 0 := by
    unfold signum
    rw [if_neg (by rw [hx.lt_iff l0']; exact lt_irrefl _), if_pos ((hx.beq_iff l0').2 rfl)]
  have e : stimOf x d = Fl.ofInt (signum x) * (100.0 / (vc64 L).fl) * Fl.powf (baseOf (Fl.abs x)) (1.0 / 0.42) / d := rfl
  rw [e, hs]
  have i0 : Is (Fl.ofInt 0 : 𝔻) 0 := by simpa using is_ofInt (L := L) (n := 0) (by norm_num)
  obtain ⟨f, iff, -⟩ := ((l100 (L := L)).in.zero (by norm_num) 100 le_rfl).div0 (in_fl hL) (by norm_num) 1000 (by norm_num) (by norm_num)
  have ax : Is (Fl.abs x) 0 := by simpa using hx.abs
  obtain ⟨m, im⟩ := is_some_lit (L := L) (m := 2713) (s := true) (e := 2) 27.13 (by norm_num) (by norm_num [abs_le])
  have i400 : Is (400.0 : 𝔻) 400 := by simpa using lit (L := L) 4000 1 true 400 (by norm_num) (by norm_num)
  obtain ⟨q, iq, q0, -⟩ := i400.in.sub ax.in 399 401 (by norm_num) (by norm_num) (by norm_num) (by norm_num)
  have q' : Is (27.13 * Fl.abs x / (400.0 - Fl.abs x)) 0 := (im.mul_zero ax).zero_div iq (by norm_num at q0; linarith)
  have b : Is (baseOf (Fl.abs x)) 0 := by
    unfold baseOf
    have := l0'.fmax q'
    simpa using this
  obtain ⟨y, iy, y0, -⟩ := (l1 (L := L)).in.div (in_lit (L := L) (m := 42) (s := true) (e := 2) 0.42 (by norm_num) (by norm_num [abs_le])) 2 3 (by norm_num) (by norm_num) (by norm_num) (by norm_num) (by norm_num) (by norm_num)
  obtain ⟨g, hg⟩ := hC.zero _ _ b.1 iy.1 b.2 (by rw [iy.2]; norm_num at y0; linarith)
  have pw : Is (Fl.powf (baseOf (Fl.abs x)) (1.0 / 0.42)) 0 := ⟨g, hg⟩
  exact ((i0.zero_mul iff).zero_mul pw).zero_div hd v0

/-- Lightness and chroma 0 give black, whatever the hue. -/
theorem back_zero (hS : L.Sound) (hC : L.CamOk) {c : Cam16 𝔻} (hj : Is c.j 0) (hh : In c.hue 0 361) : c.toInt = 0xFF000000 := by
  obtain ⟨H, iH, H0, H1⟩ := hh
  obtain ⟨r, ir, r0, r1, -⟩ := rad_of iH H0 H1
  have ir : Is (radOf c) r := ir
  have hL := hS.pow
  obtain ⟨p, ip, p0, p1⟩ := in_p1 hL hS.trig ⟨r, ir, r0, r1⟩
  obtain ⟨fc, -, fs, -⟩ := hS.trig _ ir.1 (by rw [ir.2]; exact r0) (by rw [ir.2]; linarith)
  obtain ⟨co, ico⟩ : ∃ v, Is (Fl.cos (radOf c)) v := ⟨_, fc, rfl⟩
  obtain ⟨si, isi⟩ : ∃ v, Is (Fl.sin (radOf c)) v := ⟨_, fs, rfl⟩
  have hz : (c.j == (0.0 : 𝔻)) = true := (hj.beq_iff l0').2 rfl
  obtain ⟨κ, iκ, κ0, -⟩ := in_scale hL
  have z : Is (0.0 / Fl.powf (1.64 - Fl.powf 0.29 (vc64 L).backgroundYToWhitePointY) 0.73 : 𝔻) 0 := (l0' (L := L)).zero_div iκ (by norm_num at κ0; linarith)
  obtain ⟨y, iy, y0, -⟩ := (l1 (L := L)).in.div (in_lit (L := L) (m := 9) (s := true) (e := 1) 0.9 (by norm_num) (by norm_num [abs_le])) 1 2 (by norm_num) (by norm_num) (by norm_num) (by norm_num) (by norm_num) (by norm_num)
  obtain ⟨g, hg⟩ := hC.zero _ _ z.1 iy.1 z.2 (by rw [iy.2]; linarith)
  have t0 : Is (Fl.powf (0.0 / Fl.powf (1.64 - Fl.powf 0.29 (vc64 L).backgroundYToWhitePointY) 0.73) (1.0 / 0.9) : 𝔻) 0 := ⟨g, hg⟩
  have i100 : Is (100.0 : 𝔻) 100 := l100
  obtain ⟨Q, iQ, Q0, -⟩ := in_q (L := L)
  have jz := hj.zero_div i100 (by norm_num)
  obtain ⟨g', hg'⟩ := hC.zero _ _ jz.1 iQ.1 jz.2 (by rw [iQ.2]; norm_num at Q0; linarith)
  have jp : Is (Fl.powf (c.j / 100.0) (qOf L)) 0 := ⟨g', hg'⟩
  obtain ⟨N, iN, N0, -⟩ := in_nbb hL
  obtain ⟨A, iA, -⟩ := in_aw hL hS.exp
  have p2 : Is (p2Of c.j) 0 := (iA.mul_zero jp).zero_div iN (by norm_num at N0; linarith)
  rw [Cam16.toInt, Cam16.viewed]
  change argbFromXyz (c.xyzInViewingConditions (vc64 L)).x0 _ _ = _
  rw [xyz64_zero_eq hz]
  generalize Fl.powf (0.0 / Fl.powf (1.64 - Fl.powf 0.29 (vc64 L).backgroundYToWhitePointY) 0.73 : 𝔻) (1.0 / 0.9) = t at *
  have i23 : Is (23.0 : 𝔻) 23 := by simpa using lit (L := L) 230 1 true 23 (by norm_num) (by norm_num)
  have i11 : Is (11.0 : 𝔻) 11 := by simpa using lit (L := L) 110 1 true 11 (by norm_num) (by norm_num)
  have i108 : Is (108.0 : 𝔻) 108 := by simpa using lit (L := L) 1080 1 true 108 (by norm_num) (by norm_num)
  obtain ⟨s, is⟩ := is_some_lit (L := L) (m := 305) (s := true) (e := 3) 0.305 (by norm_num) (by norm_num [abs_le])
  have n0 : In (p2Of c.j + 0.305) 0.3 0.31 := p2.in.add (in_lit (L := L) (m := 305) (s := true) (e := 3) 0.305 (by norm_num) (by norm_num [abs_le])) _ _ (by norm_num) (by norm_num) (by norm_num) (by norm_num)
  obtain ⟨n1, in1, -⟩ := i23.in.mul n0 6 8 (by norm_num) (by norm_num) (by norm_num) (by norm_num) (by norm_num) (by norm_num)
  have nu : Is (numOf (p2Of c.j) t) 0 := in1.mul_zero t0
  have d2 : Is (11.0 * t * Fl.cos (radOf c)) 0 := (i11.mul_zero t0).zero_mul ico
  have d3 : Is (108.0 * t * Fl.sin (radOf c)) 0 := (i108.mul_zero t0).zero_mul isi
  obtain ⟨D, iD, D0⟩ : ∃ D, Is (denOf (p1Of (radOf c)) t (Fl.cos (radOf c)) (Fl.sin (radOf c))) D ∧ D ≠ 0 := by
    have i1 := i23.mul ip (rnd_huge (by rw [abs_of_nonneg (show (0 : ℝ) ≤ 23 * p by linarith)]; exact le_trans (show 23 * p ≤ 115000 by linarith) (by norm_num)))
    have w1 := rnd_any (23 * p)
    rw [abs_of_nonneg (show (0 : ℝ) ≤ 23 * p by linarith)] at w1
    generalize rnd (23 * p) = w at *
    have w1' := abs_le.1 w1
    have wl : 40000 ≤ w := by norm_num at w1'; linarith
    have wu : w ≤ 120000 := by norm_num at w1'; linarith
    have i2 := i1.add d2 (rnd_huge (by rw [abs_of_nonneg (show (0 : ℝ) ≤ w + 0 by linarith)]; exact le_trans (show w + 0 ≤ 120000 by linarith) (by norm_num)))
    have w2 := rnd_any (w + 0)
    rw [abs_of_nonneg (show (0 : ℝ) ≤ w + 0 by linarith)] at w2
    generalize rnd (w + 0) = w' at *
    have w2' := abs_le.1 w2
    have wl' : 39000 ≤ w' := by norm_num at w2'; linarith
    have wu' : w' ≤ 130000 := by norm_num at w2'; linarith
    have i3 := i2.add d3 (rnd_huge (by rw [abs_of_nonneg (show (0 : ℝ) ≤ w' + 0 by linarith)]; exact le_trans (show w' + 0 ≤ 130000 by linarith) (by norm_num)))
    have w3 := rnd_any (w' + 0)
    rw [abs_of_nonneg (show (0 : ℝ) ≤ w' + 0 by linarith)] at w3
    refine ⟨_, i3, ?_⟩
    have := (abs_le.1 w3).1
    intro h0
    rw [h0] at this
    norm_num at this; linarith
  have γ0 : Is (gammaWith (radOf c) c.j t) 0 := nu.zero_div iD D0
  generalize gammaWith (radOf c) c.j t = γ at *
  dsimp only
  have a0 := γ0.zero_mul ico
  have b0 := γ0.zero_mul isi
  generalize γ * Fl.cos (radOf c) = a at *
  generalize γ * Fl.sin (radOf c) = b at *
  generalize p2Of c.j = P at *
  have i1403 : Is (1403.0 : 𝔻) 1403 := by simpa using lit (L := L) 14030 1 true 1403 (by norm_num) (by norm_num)
  have i460 : Is (460.0 : 𝔻) 460 := by simpa using lit (L := L) 4600 1 true 460 (by norm_num) (by norm_num)
  have i451 : Is (451.0 : 𝔻) 451 := by simpa using lit (L := L) 4510 1 true 451 (by norm_num) (by norm_num)
  have i288 : Is (288.0 : 𝔻) 288 := by simpa using lit (L := L) 2880 1 true 288 (by norm_num) (by norm_num)
  have i891 : Is (891.0 : 𝔻) 891 := by simpa using lit (L := L) 8910 1 true 891 (by norm_num) (by norm_num)
  have i261 : Is (261.0 : 𝔻) 261 := by simpa using lit (L := L) 2610 1 true 261 (by norm_num) (by norm_num)
  have i220 : Is (220.0 : 𝔻) 220 := by simpa using lit (L := L) 2200 1 true 220 (by norm_num) (by norm_num)
  have i6300 : Is (6300.0 : 𝔻) 6300 := by simpa using lit (L := L) 63000 1 true 6300 (by norm_num) (by norm_num)
  have R0 : Is (respR P a b) 0 := (((i460.mul_zero p2).add_zero (i451.mul_zero a0)).add_zero (i288.mul_zero b0)).zero_div i1403 (by norm_num)
  have R1 : Is (respG P a b) 0 := (((i460.mul_zero p2).sub_zero (i891.mul_zero a0)).sub_zero (i261.mul_zero b0)).zero_div i1403 (by norm_num)
  have R2 : Is (respB P a b) 0 := (((i460.mul_zero p2).sub_zero (i220.mul_zero a0)).sub_zero (i6300.mul_zero b0)).zero_div i1403 (by norm_num)
  obtain ⟨⟨e0, ie0, E0, -⟩, ⟨e1, ie1, E1, -⟩, ⟨e2, ie2, E2, -⟩⟩ := in_rgbD hS.exp (L := L)
  have S0 := stim_zero hL hC R0 ie0 (by norm_num at E0; linarith)
  have S1 := stim_zero hL hC R1 ie1 (by norm_num at E1; linarith)
  have S2 := stim_zero hL hC R2 ie2 (by norm_num at E2; linarith)
  generalize stimOf _ (vc64 L).rgbD.x0 = R at *
  generalize stimOf _ (vc64 L).rgbD.x1 = G at *
  generalize stimOf _ (vc64 L).rgbD.x2 = B at *
  obtain ⟨m0, j0⟩ := is_some_lit (L := L) (m := 186206786) (s := true) (e := 8) 1.86206786 (by norm_num) (by norm_num [abs_le])
  obtain ⟨m1, j1⟩ := is_some_lit (L := L) (m := 101125463) (s := true) (e := 8) 1.01125463 (by norm_num) (by norm_num [abs_le])
  obtain ⟨m2, j2⟩ := is_some_lit (L := L) (m := 14918677) (s := true) (e := 8) 0.14918677 (by norm_num) (by norm_num [abs_le])
  obtain ⟨m3, j3⟩ := is_some_lit (L := L) (m := 38752654) (s := true) (e := 8) 0.38752654 (by norm_num) (by norm_num [abs_le])
  obtain ⟨m4, j4⟩ := is_some_lit (L := L) (m := 62144744) (s := true) (e := 8) 0.62144744 (by norm_num) (by norm_num [abs_le])
  obtain ⟨m5, j5⟩ := is_some_lit (L := L) (m := 897398) (s := true) (e := 8) 0.00897398 (by norm_num) (by norm_num [abs_le])
  obtain ⟨m6, j6⟩ := is_some_lit (L := L) (m := 1584150) (s := true) (e := 8) 0.01584150 (by norm_num) (by norm_num [abs_le])
  obtain ⟨m7, j7⟩ := is_some_lit (L := L) (m := 3412294) (s := true) (e := 8) 0.03412294 (by norm_num) (by norm_num [abs_le])
  obtain ⟨m8, j8⟩ := is_some_lit (L := L) (m := 104996444) (s := true) (e := 8) 1.04996444 (by norm_num) (by norm_num [abs_le])
  have w0 := ((j0.mul_zero S0).sub_zero (j1.mul_zero S1)).add_zero (j2.mul_zero S2)
  have w1 := ((j3.mul_zero S0).add_zero (j4.mul_zero S1)).sub_zero (j5.mul_zero S2)
  have w2 := ((j6.neg.mul_zero S0).sub_zero (j7.mul_zero S1)).add_zero (j8.mul_zero S2)
  have l0 : (linearized 0 : ℝ) = 0 := linearized_0
  have x0 : (xyzFromArgb 0xFF000000 : Vec3 ℝ) = ⟨0, 0, 0⟩ := by
    have e : redFromArgb 0xFF000000 = 0 ∧ greenFromArgb 0xFF000000 = 0 ∧ blueFromArgb 0xFF000000 = 0 := by decide
    simp [xyzFromArgb, matrixMultiply, e.1, e.2.1, e.2.2, l0]
  have := argbFromXyz_near hL 0xFF000000 (x := _) (y := _) (z := _) ⟨0, w0, by rw [x0]; norm_num⟩ ⟨0, w1, by rw [x0]; norm_num⟩ ⟨0, w2, by rw [x0]; norm_num⟩
  refine this.trans ?_
  decide

theorem hue_in (hS : L.Sound) (argb : Int) : In (hue64 L argb) 0 360 := by
  obtain ⟨hr, hg, hb⟩ := in_adapted hS.pow hS.dark hS.exp argb
  obtain ⟨oa, ob, -, -⟩ := in_opponents hr hg hb
  exact in_hueDegrees hS.atan (a := oa64 (cones64 L argb)) (b := ob64 (cones64 L argb)) (by obtain ⟨_, i, -⟩ := oa; exact i.1) (by obtain ⟨_, i, -⟩ := ob; exact i.1)

theorem close_self (hS : L.Sound) (hT : L.TempOk) {argb : Int} (h : NotBlack argb) {c : Cam16 𝔻}
    (hj : c.j = (Cam16.fromInt argb : Cam16 𝔻).j) (hc : c.chroma = (Cam16.fromInt argb : Cam16 𝔻).chroma) (hh : c.hue = (Cam16.fromInt argb : Cam16 𝔻).hue) : CloseTo L argb c := by
  have hj : c.j = j64 L argb := hj
  have hc : c.chroma = chr64 L argb := hc
  have hh : c.hue = hue64 L argb := hh
  obtain ⟨H, iH, H0, H1⟩ := hue_in hS argb
  obtain ⟨ia, a0, -⟩ := j_any hS.pow hS.exp h
  obtain ⟨ix, x0, -⟩ := chroma_self hS hT h
  refine ⟨⟨_, by rw [hj]; exact ia, ?_⟩, ⟨_, by rw [hc]; exact ix, ?_⟩, ⟨H, H, 0, by rw [hh]; exact iH, iH, H0, by linarith, ?_⟩⟩
  · rw [sub_self, abs_zero]; norm_num at a0; positivity
  · rw [sub_self, abs_zero]; norm_num at x0; positivity
  · simp; norm_num

end Mcu.Lemmas
