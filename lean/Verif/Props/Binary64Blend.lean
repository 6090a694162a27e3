import Verif.Lemmas.F64Distance
import Verif.Props.Binary64CamBack
import Verif.Props.Binary64RoundTrip

/-! Properties C29 and C84 in IEEE-754 binary64: the ends of blending. -/

namespace Mcu.Props.Binary64

open Mcu.Ieee MathUtils ColorUtils Lemmas Spec

variable {L : Libm}

local notation "𝔻" => F64 L

/-- All assumptions on the math library hold for one that rounds correctly. -/
theorem blend_sound_exists : ∃ L : Libm, L.Sound ∧ L.TempOk ∧ L.CamOk ∧ L.AtanZero ∧ L.ExpUp ∧ L.PowPos := by
  obtain ⟨L, hS, hT, hC, hZ, hp⟩ := hue_sound_rounding
  have key : ∀ v : ℝ, -10 ≤ v → v ≤ 10 → (Dbl.ofReal false (Real.exp v)).Fin ∧ |(Dbl.ofReal false (Real.exp v)).val - Real.exp v| ≤ Real.exp v * (2 / 10 ^ 16) + 1 / 10 ^ 72 := by
    intro v v0 v1
    have e1 : Real.exp v ≤ 10 ^ 10 := by
      refine (Real.exp_le_exp.2 v1).trans ?_
      have e : Real.exp 10 = Real.exp 1 ^ 10 := by rw [← Real.exp_nat_mul]; norm_num
      rw [e]
      refine (pow_le_pow_left₀ (Real.exp_pos 1).le Real.exp_one_lt_d9.le 10).trans (by norm_num)
    have ep := Real.exp_pos v
    have hi := is_ofReal (L := L) (v := Real.exp v) false (rnd_huge (by rw [abs_of_pos ep]; exact e1.trans (by norm_num)))
    refine ⟨hi.1, ?_⟩
    rw [show (Dbl.ofReal false (Real.exp v)).val = rnd (Real.exp v) from hi.2]
    have := rnd_any (Real.exp v)
    rwa [abs_of_pos ep] at this
  refine ⟨{ L with exp := fun x => Dbl.ofReal false (Real.exp x.val) }, ⟨hS.pow, ⟨hS.tail.small, hS.tail.nan, hS.tail.inf⟩, hS.dark, hS.trig, ?_, hS.atan⟩, ⟨hT.atan, hT.faint⟩, ⟨hC.zero, hC.ln⟩, hZ, ?_, ?_⟩
  · intro x hx x0 x1
    obtain ⟨f, h⟩ := key x.val x0 (by linarith)
    refine ⟨f, h.trans ?_⟩
    have : Real.exp x.val ≤ 1 := Real.exp_le_one_iff.2 x1
    norm_num; linarith
  · intro x hx x0 x1
    obtain ⟨f, h⟩ := key x.val (by linarith) x1
    refine ⟨f, h.trans ?_⟩
    have : 1 ≤ Real.exp x.val := Real.one_le_exp x0
    norm_num; linarith
  · intro x y hx hy x0 x1 y0 y1
    change 0 < (L.powf x y).val
    rw [hp x y hx]
    generalize x.val = u at *
    generalize y.val = p at *
    have u0 : 0 < u := lt_of_lt_of_le (by norm_num) x0
    have h1 : u ≤ u ^ p := by
      have := Real.rpow_le_rpow_of_exponent_ge u0 (x1.trans (by norm_num)) y1
      rwa [Real.rpow_one] at this
    have h2 : u ^ p ≤ 1 := Real.rpow_le_one u0.le (x1.trans (by norm_num)) (by norm_num at *; linarith)
    have hi := is_ofReal (L := L) (v := u ^ p) false (rnd_huge (by rw [abs_of_pos (u0.trans_le h1)]; exact h2.trans (by norm_num)))
    have r := (rnd_pos_range (u0.le.trans h1)).1
    rw [show (Dbl.ofReal false (u ^ p)).val = rnd (u ^ p) from hi.2]
    refine lt_of_lt_of_le ?_ r
    generalize u ^ p = w at *
    norm_num at *; linarith

/-- The coordinates in the uniform colour space are finite and of moderate size. -/
theorem ucs_bounded (hS : L.Sound) (hT : L.TempOk) (hC : L.CamOk) (argb : Int) :
    ∃ x y z, Is (Cam16.fromInt argb : Cam16 𝔻).jstar x ∧ Is (Cam16.fromInt argb : Cam16 𝔻).astar y ∧ Is (Cam16.fromInt argb : Cam16 𝔻).bstar z ∧
      |x| ≤ 140 ∧ |y| ≤ 140 ∧ |z| ≤ 140 ∧ (¬ NotBlack argb → x = 0) := by
  by_cases h : NotBlack argb
  · obtain ⟨x, y, z, ix, iy, iz, hx, hy, hz⟩ := ucs_size hS hT hC h
    exact ⟨x, y, z, ix, iy, iz, hx, hy, hz, fun h' => absurd h h'⟩
  · obtain ⟨ix, iy, iz⟩ := ucs_black hS hC h
    exact ⟨0, 0, 0, ix, iy, iz, by norm_num, by norm_num, by norm_num, fun _ => rfl⟩

/-- Coordinates close to those of a colour give back the colour; lightness must be 0 for black. -/
theorem ucs_back (hS : L.Sound) (hT : L.TempOk) (hC : L.CamOk) (hU : L.ExpUp) {argb : Int} (h : Opaque32 argb) {x y z : 𝔻}
    (hx : Ap x (Dbl.val (Cam16.fromInt argb : Cam16 𝔻).jstar) (1 / 10 ^ 13)) (hy : Ap y (Dbl.val (Cam16.fromInt argb : Cam16 𝔻).astar) (1 / 10 ^ 13))
    (hz : Ap z (Dbl.val (Cam16.fromInt argb : Cam16 𝔻).bstar) (1 / 10 ^ 13)) (h0 : ¬ NotBlack argb → Is x 0) : (Cam16.fromUcs x y z).toInt = argb := by
  simp only [Opaque32] at h
  by_cases hb : NotBlack argb
  · rw [back_near hS hT hb (ucs_close hS hT hC hU hb hx hy hz)]
    omega
  · have e : argb % 2 ^ 24 = 0 := not_not.1 (fun h' => hb ((not_black_iff argb).2 h'))
    obtain ⟨v, iv, -⟩ := hy
    obtain ⟨w, iw, -⟩ := hz
    rw [ucs_zero hS hC (h0 hb) iv iw]
    omega

/-- The first coordinate plus 0 times something finite. -/
theorem mix_zero {x y t : 𝔻} {a b : ℝ} (hx : Is x a) (hy : Is y b) (hb : |rnd (b - a)| < 2 ^ 1024) (ht : Is t 0) : Is (x + (y - x) * t) a := by
  have d := (hy.sub hx hb).mul_zero ht
  have := hx.add d (by rw [add_zero, hx.rep.rnd_eq]; exact hx.lt_max)
  rwa [add_zero, hx.rep.rnd_eq] at this

/-- Something finite times a difference that is 0. -/
theorem mix_same {x t : 𝔻} {a c : ℝ} (hx : Is x a) (ht : Is t c) : Is (x + (x - x) * t) a := by
  have e : rnd (a - a) = 0 := by rw [sub_self, rnd_zero]
  have d := hx.sub hx (by rw [e]; norm_num)
  rw [e] at d
  have := hx.add (d.zero_mul ht) (by rw [add_zero, hx.rep.rnd_eq]; exact hx.lt_max)
  rwa [add_zero, hx.rep.rnd_eq] at this

/-- The first coordinate plus 1 times the difference. -/
theorem mix_one {x y t : 𝔻} {a b : ℝ} (hx : Is x a) (hy : Is y b) (ha : |a| ≤ 140) (hb : |b| ≤ 140) (ht : Is t 1) : Ap (x + (y - x) * t) b (1 / 10 ^ 13) ∧ (b = 0 → Is (x + (y - x) * t) 0) := by
  have hd : |b - a| ≤ 280 := (abs_sub _ _).trans (by linarith)
  have d := hy.sub hx (rnd_huge (hd.trans (by norm_num)))
  have d1 := d.mul ht (by rw [mul_one, d.rep.rnd_eq]; exact d.lt_max)
  rw [mul_one, d.rep.rnd_eq] at d1
  have r1 := (rnd_any (b - a)).trans (add_le_add (mul_le_mul_of_nonneg_right hd (by norm_num)) le_rfl)
  refine ⟨?_, ?_⟩
  · have h1 : |a + rnd (b - a) - b| ≤ 6 / 10 ^ 14 := by
      rw [show a + rnd (b - a) - b = rnd (b - a) - (b - a) by ring]
      exact r1.trans (by norm_num)
    refine ap_rndS (B := 141) (fun h => hx.add d1 h) h1 ?_ (by norm_num) (by norm_num)
    have := abs_add_le (a + rnd (b - a) - b) b
    rw [sub_add_cancel] at this
    norm_num at *; linarith
  · rintro rfl
    rw [zero_sub, hx.neg.rep.rnd_eq] at d1
    have e : rnd (a + -a) = 0 := by rw [add_neg_cancel, rnd_zero]
    have := hx.add d1 (by rw [e]; norm_num)
    rwa [e] at this

/-! ## C29 -/

/-- C29 in binary64: blending by 0 gives the first colour and blending by 1 the second. -/
theorem c29_binary64_endpoints (hS : L.Sound) (hT : L.TempOk) (hC : L.CamOk) (hU : L.ExpUp) (a b : Int) (ha : Opaque32 a) (hb : Opaque32 b) :
    Blend.cam16Ucs a b (0.0 : 𝔻) = a ∧ Blend.cam16Ucs a b (1.0 : 𝔻) = b := by
  obtain ⟨x, y, z, ix, iy, iz, hx, hy, hz, x0⟩ := ucs_bounded (L := L) hS hT hC a
  obtain ⟨u, v, w, iu, iv, iw, hu, hv, hw, u0⟩ := ucs_bounded (L := L) hS hT hC b
  constructor
  · have m {p q : 𝔻} {s t : ℝ} (hp : Is p s) (hq : Is q t) (hs : |s| ≤ 140) (ht : |t| ≤ 140) : Is (p + (q - p) * 0.0) s :=
      mix_zero hp hq (rnd_huge (((abs_sub _ _).trans (add_le_add ht hs)).trans (by norm_num))) l0'
    refine ucs_back hS hT hC hU ha ⟨x, m ix iu hx hu, ?_⟩ ⟨y, m iy iv hy hv, ?_⟩ ⟨z, m iz iw hz hw, ?_⟩ fun h => ?_
    · rw [ix.2]; norm_num
    · rw [iy.2]; norm_num
    · rw [iz.2]; norm_num
    · have := m ix iu hx hu
      rwa [x0 h] at this
  · have i1 : Is (1.0 : 𝔻) 1 := l1
    obtain ⟨p, hp⟩ := mix_one ix iu hx hu i1
    obtain ⟨q, -⟩ := mix_one iy iv hy hv i1
    obtain ⟨r, -⟩ := mix_one iz iw hz hw i1
    exact ucs_back hS hT hC hU hb (by rw [iu.2]; exact p) (by rw [iv.2]; exact q) (by rw [iw.2]; exact r) fun h => hp (u0 h)

/-- C29 in binary64: blending a colour with itself gives that colour, for every finite amount. -/
theorem c29_binary64_same (hS : L.Sound) (hT : L.TempOk) (hC : L.CamOk) (hU : L.ExpUp) (a : Int) (ha : Opaque32 a) (t : 𝔻) (ht : Fin t) : Blend.cam16Ucs a a t = a := by
  obtain ⟨x, y, z, ix, iy, iz, hx, hy, hz, x0⟩ := ucs_bounded (L := L) hS hT hC a
  have it : Is t (Dbl.val t) := ⟨ht, rfl⟩
  refine ucs_back hS hT hC hU ha ⟨x, mix_same ix it, ?_⟩ ⟨y, mix_same iy it, ?_⟩ ⟨z, mix_same iz it, ?_⟩ fun h => ?_
  · rw [ix.2]; norm_num
  · rw [iy.2]; norm_num
  · rw [iz.2]; norm_num
  · have := mix_same ix it
    rwa [x0 h] at this

/-- C29 in binary64: different colours have different coordinates in the uniform colour space. -/
theorem c29_binary64_injective (hS : L.Sound) (hT : L.TempOk) (hC : L.CamOk) (hU : L.ExpUp) (a b : Int) (ha : Opaque32 a) (hb : Opaque32 b)
    (hj : val (Cam16.fromInt a : Cam16 𝔻).jstar = val (Cam16.fromInt b : Cam16 𝔻).jstar) (hs : val (Cam16.fromInt a : Cam16 𝔻).astar = val (Cam16.fromInt b : Cam16 𝔻).astar)
    (ht : val (Cam16.fromInt a : Cam16 𝔻).bstar = val (Cam16.fromInt b : Cam16 𝔻).bstar) : a = b := by
  obtain ⟨x, y, z, ix, iy, iz, -, -, -, x0⟩ := ucs_bounded (L := L) hS hT hC a
  obtain ⟨u, v, w, iu, iv, iw, -, -, -, u0⟩ := ucs_bounded (L := L) hS hT hC b
  have h1 := ucs_back hS hT hC hU ha (x := (Cam16.fromInt a : Cam16 𝔻).jstar) (y := (Cam16.fromInt a : Cam16 𝔻).astar) (z := (Cam16.fromInt a : Cam16 𝔻).bstar)
    ⟨x, ix, by rw [ix.2]; norm_num⟩ ⟨y, iy, by rw [iy.2]; norm_num⟩ ⟨z, iz, by rw [iz.2]; norm_num⟩ fun h => by rw [← x0 h]; exact ix
  change Dbl.val _ = Dbl.val _ at hj hs ht
  rw [← h1]
  refine ucs_back hS hT hC hU hb ⟨x, ix, by rw [← hj, ix.2]; norm_num⟩ ⟨y, iy, by rw [← hs, iy.2]; norm_num⟩ ⟨z, iz, by rw [← ht, iz.2]; norm_num⟩ fun h => ?_
  rw [ix.2, iu.2, u0 h] at hj
  rw [← hj]; exact ix

/-- The hypotheses can be met: red and black with a correctly rounding library. -/
example : ∃ L : Libm, Blend.cam16Ucs 0xFFFF0000 0xFF000000 (0.0 : F64 L) = 0xFFFF0000 ∧ Blend.cam16Ucs 0xFFFF0000 0xFF000000 (1.0 : F64 L) = 0xFF000000 ∧
    Blend.cam16Ucs 0xFFFF0000 0xFFFF0000 (1.0 : F64 L) = 0xFFFF0000 := by
  obtain ⟨L, hS, hT, hC, -, hU, -⟩ := blend_sound_exists
  have o1 : Opaque32 0xFFFF0000 := by unfold Opaque32; decide
  have o2 : Opaque32 0xFF000000 := by unfold Opaque32; decide
  obtain ⟨h0, h1⟩ := c29_binary64_endpoints hS hT hC hU _ _ o1 o2
  exact ⟨L, h0, h1, c29_binary64_same hS hT hC hU _ o1 _ (l1 (L := L)).1⟩

/-! ## C30 -/

/-- C30 in binary64: the distance is symmetric, for all coordinates, infinities and NaN included, and any math library. -/
theorem c30_binary64_symm (a b : Cam16 𝔻) : a.distance b = b.distance a := by
  simp only [Cam16.distance]
  rw [square_swap a.jstar, square_swap a.astar, square_swap a.bstar]

/-- C30 in binary64: the distance of two colours is finite and not negative, and zero exactly for equal colours. -/
theorem c30_binary64_colors (hS : L.Sound) (hT : L.TempOk) (hC : L.CamOk) (hU : L.ExpUp) (hP : L.PowPos) (a b : Int) (ha : Opaque32 a) (hb : Opaque32 b) :
    let d : 𝔻 := (Cam16.fromInt a).distance (Cam16.fromInt b)
    Fin d ∧ 0 ≤ val d ∧ (val d = 0 ↔ a = b) := by
  obtain ⟨x, y, z, ix, iy, iz, hx, hy, hz, x0⟩ := ucs_bounded (L := L) hS hT hC a
  obtain ⟨u, v, w, iu, iv, iw, hu, hv, hw, u0⟩ := ucs_bounded (L := L) hS hT hC b
  obtain ⟨p, ip, p0, p1, pp, pz⟩ := square_part ix iu hx hu
  obtain ⟨q, iq, q0, q1, qp, qz⟩ := square_part iy iv hy hv
  obtain ⟨r, ir, r0, r1, rp, rz⟩ := square_part iz iw hz hw
  obtain ⟨d, id, d0, dp, dz⟩ := distance_part hS hC hP ip iq ir p0 p1 q0 q1 r0 r1
  have e : val ((Cam16.fromInt a : Cam16 𝔻).distance (Cam16.fromInt b)) = d := id.2
  simp only [e]
  refine ⟨id.1, d0, fun h => ?_, ?_⟩
  · have np : |x - u| < 1 / 10 ^ 13 := by by_contra hc; push Not at hc; linarith [dp (.inl (pp hc))]
    have nq : |y - v| < 1 / 10 ^ 13 := by by_contra hc; push Not at hc; linarith [dp (.inr (.inl (qp hc)))]
    have nr : |z - w| < 1 / 10 ^ 13 := by by_contra hc; push Not at hc; linarith [dp (.inr (.inr (rp hc)))]
    have a1 := ucs_back hS hT hC hU ha ⟨x, ix, by rw [ix.2]; norm_num⟩ ⟨y, iy, by rw [iy.2]; norm_num⟩ ⟨z, iz, by rw [iz.2]; norm_num⟩ fun h => by rw [← x0 h]; exact ix
    have b1 := ucs_back hS hT hC hU hb ⟨u, iu, by rw [iu.2]; norm_num⟩ ⟨v, iv, by rw [iv.2]; norm_num⟩ ⟨w, iw, by rw [iw.2]; norm_num⟩ fun h => by rw [← u0 h]; exact iu
    by_cases bb : NotBlack b
    · rw [← a1]
      exact ucs_back hS hT hC hU hb ⟨x, ix, by rw [iu.2]; exact np.le⟩ ⟨y, iy, by rw [iv.2]; exact nq.le⟩ ⟨z, iz, by rw [iw.2]; exact nr.le⟩ fun h => absurd bb h
    · by_cases ab : NotBlack a
      · rw [← b1]
        exact (ucs_back hS hT hC hU ha ⟨u, iu, by rw [ix.2, abs_sub_comm]; exact np.le⟩ ⟨v, iv, by rw [iy.2, abs_sub_comm]; exact nq.le⟩ ⟨w, iw, by rw [iz.2, abs_sub_comm]; exact nr.le⟩ fun h => absurd ab h).symm
      · rw [not_black_iff, not_not] at ab bb
        simp only [Opaque32] at ha hb
        omega
  · rintro rfl
    exact dz (pz (ix.unique iu)) (qz (iy.unique iv)) (rz (iz.unique iw))

/-- The hypotheses can be met: the distance of red and black is positive. -/
example : ∃ L : Libm, 0 < val ((Cam16.fromInt 0xFFFF0000 : Cam16 (F64 L)).distance (Cam16.fromInt 0xFF000000)) := by
  obtain ⟨L, hS, hT, hC, -, hU, hP⟩ := blend_sound_exists
  obtain ⟨-, h0, h1⟩ := c30_binary64_colors hS hT hC hU hP 0xFFFF0000 0xFF000000 (by unfold Opaque32; decide) (by unfold Opaque32; decide)
  exact ⟨L, lt_of_le_of_ne h0 fun h => absurd (h1.1 h.symm) (by decide)⟩

/-! ## C84 -/

/-- C84 in binary64: blending by hue with amount 0, and blending a colour with itself, give the first colour. -/
theorem c84_binary64_blend (hS : L.Sound) (hT : L.TempOk) (hC : L.CamOk) (hU : L.ExpUp) (a b : Int) (ha : Opaque32 a) (hb : Opaque32 b) (t : 𝔻) (ht : Fin t) :
    Blend.hctHue a b (0.0 : 𝔻) = a ∧ Blend.hctHue a a t = a := by
  have e := c84_binary64_round_trip (L := L) hS hT a ha
  constructor
  · simp only [Blend.hctHue]; rw [(c29_binary64_endpoints hS hT hC hU a b ha hb).1]; exact e
  · simp only [Blend.hctHue]; rw [c29_binary64_same hS hT hC hU a ha t ht]; exact e

end Mcu.Props.Binary64
