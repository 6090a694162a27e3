import Verif.Lemmas.F64UcsKeep
import Verif.Spec.ExactCam
import Verif.Props.Binary64Blend
import Verif.Props.Ucs

/-! C86 in binary64: coordinates of the uniform colour space are kept, blending is an even walk along a straight line. -/

namespace Mcu.Props.Binary64

open Mcu.Ieee MathUtils ColorUtils Lemmas Spec

variable {L : Libm}

local notation "𝔻" => F64 L

/-- All assumptions on the math library hold for one that rounds correctly. -/
theorem ucs_sound_exists : ∃ L : Libm, L.Sound ∧ L.TempOk ∧ L.CamOk ∧ L.ExpUp ∧ L.ExpGe := by
  obtain ⟨L, hS, hT, hC, -⟩ := hue_sound_rounding
  have key : ∀ v : ℝ, -10 ≤ v → v ≤ 10 → (Dbl.ofReal false (Real.exp v)).Fin ∧ (0 ≤ v → 1 ≤ (Dbl.ofReal false (Real.exp v)).val) ∧
      |(Dbl.ofReal false (Real.exp v)).val - Real.exp v| ≤ Real.exp v * (2 / 10 ^ 16) + 1 / 10 ^ 72 := by
    intro v v0 v1
    have e1 : Real.exp v ≤ 10 ^ 10 := by
      refine (Real.exp_le_exp.2 v1).trans ?_
      have e : Real.exp 10 = Real.exp 1 ^ 10 := by rw [← Real.exp_nat_mul]; norm_num
      rw [e]
      refine (pow_le_pow_left₀ (Real.exp_pos 1).le Real.exp_one_lt_d9.le 10).trans (by norm_num)
    have ep := Real.exp_pos v
    have hi := is_ofReal (L := L) (v := Real.exp v) false (rnd_huge (by rw [abs_of_pos ep]; exact e1.trans (by norm_num)))
    have h1 : Is (1.0 : F64 L) 1 := l1
    rw [show (Dbl.ofReal false (Real.exp v)).val = rnd (Real.exp v) from hi.2]
    refine ⟨hi.1, fun h0 => h1.rep.le_rnd (Real.one_le_exp h0), ?_⟩
    have := rnd_any (Real.exp v)
    rwa [abs_of_pos ep] at this
  refine ⟨{ L with exp := fun x => Dbl.ofReal false (Real.exp x.val) }, ⟨hS.pow, ⟨hS.tail.small, hS.tail.nan, hS.tail.inf⟩, hS.dark, hS.trig, ?_, hS.atan⟩, ⟨hT.atan, hT.faint⟩, ⟨hC.zero, hC.ln⟩, ?_, ?_⟩
  · intro x hx x0 x1
    obtain ⟨f, -, h⟩ := key x.val x0 (by linarith)
    refine ⟨f, h.trans ?_⟩
    have : Real.exp x.val ≤ 1 := Real.exp_le_one_iff.2 x1
    norm_num; linarith
  · intro x hx x0 x1
    obtain ⟨f, -, h⟩ := key x.val (by linarith) x1
    refine ⟨f, h.trans ?_⟩
    have : 1 ≤ Real.exp x.val := Real.one_le_exp x0
    norm_num; linarith
  · intro x hx x0 x1
    exact (key x.val (by linarith) x1).2.1 x0

theorem hue_le (hA : L.AtanRange) {a b : 𝔻} {v w : ℝ} (iv : Is a v) (iw : Is b w) : ∃ H, Is (hueUcs a b) H ∧ 0 ≤ H ∧ H ≤ 360 := by
  obtain ⟨H, iH, H0, H1, -⟩ := hue_part hA iv iw
  obtain ⟨f, hθ⟩ := hA _ _ iw.1 iv.1
  obtain ⟨u, iu, hu⟩ := ap_degrees' (L := L) (x := Fl.atan2 b a) ⟨f, rfl⟩ hθ
  have h360 : Is (360.0 : 𝔻) 360 := by simpa using lit (L := L) 3600 1 true 360 (by norm_num) (by norm_num)
  refine ⟨H, iH, H0, ?_⟩
  have hp := Real.pi_pos
  have hp6 := Real.pi_gt_d6
  have ub : |u| ≤ 181 := by
    have h1 := abs_add_le (u - (L.atan2 b a).val * (180 / Real.pi)) ((L.atan2 b a).val * (180 / Real.pi))
    rw [sub_add_cancel] at h1
    have h2 : |(L.atan2 b a).val * (180 / Real.pi)| ≤ 180.1 := by
      generalize (L.atan2 b a).val = θ at *
      rw [show θ * (180 / Real.pi) = θ * 180 / Real.pi by ring, abs_div, abs_mul, abs_of_pos hp, abs_of_pos (show (0:ℝ) < 180 by norm_num), div_le_iff₀ hp]
      norm_num at *; linarith
    have := h1.trans (add_le_add hu h2)
    norm_num at this ⊢; linarith
  have ub' := abs_le.1 ub
  unfold hueUcs at iH
  by_cases hneg : u < 0
  · rw [if_pos (by rw [iu.lt_iff l0']; exact hneg)] at iH
    have r := iu.add h360 (rnd_huge ((show |u + 360| ≤ 1000 by rw [abs_le]; constructor <;> linarith).trans (by norm_num)))
    rw [← iH.2, r.2]
    exact h360.rep.rnd_le (by linarith)
  · rw [if_neg (by rw [iu.lt_iff l0']; exact hneg)] at iH
    rw [← iH.2, iu.2]
    linarith

/-- C86 in binary64: an appearance made from moderate coordinates of the uniform colour space has finite coordinates that are these up
to 10^-8, and its hue is in [0, 360]. -/
theorem c86_binary64_coordinates (hS : L.Sound) (hT : L.TempOk) (hC : L.CamOk) (hU : L.ExpUp) (hG : L.ExpGe) (x y z : 𝔻)
    (fx : Fin x) (fy : Fin y) (fz : Fin z) (hx : |val x| ≤ 141) (hy : |val y| ≤ 141) (hz : |val z| ≤ 141) :
    let cam := Cam16.fromUcs x y z
    (Fin cam.jstar ∧ |val cam.jstar - val x| ≤ 1 / 10 ^ 8) ∧ (Fin cam.astar ∧ |val cam.astar - val y| ≤ 1 / 10 ^ 8) ∧
      (Fin cam.bstar ∧ |val cam.bstar - val z| ≤ 1 / 10 ^ 8) ∧ Fin cam.hue ∧ 0 ≤ val cam.hue ∧ val cam.hue ≤ 360 := by
  intro cam
  have hr : √(val y * val y + val z * val z) ≤ 200 := by
    rw [Real.sqrt_le_left (by norm_num)]
    have h1 := sq_le_sq' (abs_le.1 hy).1 (abs_le.1 hy).2
    have h2 := sq_le_sq' (abs_le.1 hz).1 (abs_le.1 hz).2
    nlinarith
  have ap {c : 𝔻} {t δ : ℝ} (h : Ap c t δ) : Fin c ∧ |val c - t| ≤ δ := by
    obtain ⟨v, iv, hv⟩ := h
    exact ⟨iv.1, by rw [show val c = v from iv.2]; exact hv⟩
  obtain ⟨a, b, c⟩ := ucs_keep hS hT hC hU hG (x := x) (y := y) (z := z) ⟨fx, rfl⟩ ⟨fy, rfl⟩ ⟨fz, rfl⟩ hx hr
  obtain ⟨H, iH, H0, H1⟩ := hue_le hS.atan (a := y) (b := z) ⟨fy, rfl⟩ ⟨fz, rfl⟩
  refine ⟨ap a, ap b, ap c, iH.1, ?_, ?_⟩
  · rw [show val cam.hue = H from iH.2]; exact H0
  · rw [show val cam.hue = H from iH.2]; exact H1

/-- The hypotheses hold for the coordinates 50, 10, -20. -/
example : ∃ L : Libm, L.Sound ∧ L.TempOk ∧ L.CamOk ∧ L.ExpUp ∧ L.ExpGe ∧ Fin (50.0 : F64 L) ∧ |val (50.0 : F64 L)| ≤ 141 := by
  obtain ⟨L, h1, h2, h3, h4, h5⟩ := ucs_sound_exists
  have : Is (50.0 : F64 L) 50 := by simpa using lit (L := L) 500 1 true 50 (by norm_num) (by norm_num)
  exact ⟨L, h1, h2, h3, h4, h5, this.1, by rw [show val (50.0 : F64 L) = 50 from this.2]; norm_num⟩

/-- A coordinate of a blend. -/
theorem mix_near {p q t : 𝔻} {s u τ : ℝ} (hp : Is p s) (hq : Is q u) (ht : Is t τ) (hs : |s| ≤ 140) (hu : |u| ≤ 140) (t0 : 0 ≤ τ) (t1 : τ ≤ 1) :
    ∃ w, Is (p + (q - p) * t) w ∧ |w - (s + (u - s) * τ)| ≤ 1 / 10 ^ 12 ∧ |w| ≤ 140.5 := by
  have hs' := abs_le.1 hs
  have hu' := abs_le.1 hu
  have a := hq.ap.subS hp.ap 280 (6 / 10 ^ 14) (by
    have : |u - s| ≤ 280 := by rw [abs_le]; constructor <;> linarith
    linarith) (by norm_num) (by norm_num)
  have b := a.mulS ht.ap 280 1 281 (2 / 10 ^ 13) (by rw [abs_le]; constructor <;> linarith) (by rw [abs_of_nonneg t0]; exact t1) (by norm_num) (by norm_num) (by norm_num)
  have m : |s + (u - s) * τ| ≤ 140 := by
    rw [abs_le]; constructor <;> nlinarith
  obtain ⟨w, iw, hw⟩ := hp.ap.addS b 141 (1 / 10 ^ 12) (by norm_num at m ⊢; linarith) (by norm_num) (by norm_num)
  refine ⟨w, iw, hw, ?_⟩
  have := abs_le.1 hw
  have := abs_le.1 m
  rw [abs_le]
  norm_num at *
  constructor <;> linarith

/-- Where a blend is in the uniform colour space. -/
theorem blend_place (hS : L.Sound) (hT : L.TempOk) (hC : L.CamOk) (hU : L.ExpUp) (hG : L.ExpGe) (a b : Int) (t : 𝔻) (ft : Fin t) (h0 : 0 ≤ val t) (h1 : val t ≤ 1) :
    let p := exactCam (Cam16.fromInt a : Cam16 𝔻)
    let q := exactCam (Cam16.fromInt b : Cam16 𝔻)
    ∃ m : Cam16 𝔻, Blend.cam16Ucs a b t = m.toInt ∧ |(exactCam m).jstar - (p.jstar + (q.jstar - p.jstar) * val t)| ≤ 2 / 10 ^ 8 ∧
      |(exactCam m).astar - (p.astar + (q.astar - p.astar) * val t)| ≤ 2 / 10 ^ 8 ∧ |(exactCam m).bstar - (p.bstar + (q.bstar - p.bstar) * val t)| ≤ 2 / 10 ^ 8 := by
  intro p q
  obtain ⟨x, y, z, ix, iy, iz, hx, hy, hz, -⟩ := ucs_bounded (L := L) hS hT hC a
  obtain ⟨u, v, w, iu, iv, iw, hu, hv, hw, -⟩ := ucs_bounded (L := L) hS hT hC b
  obtain ⟨j, ij, hj, bj⟩ := mix_near ix iu ⟨ft, rfl⟩ hx hu h0 h1
  obtain ⟨c, ic, hc, bc⟩ := mix_near iy iv ⟨ft, rfl⟩ hy hv h0 h1
  obtain ⟨d, id, hd, bd⟩ := mix_near iz iw ⟨ft, rfl⟩ hz hw h0 h1
  have k {n : ℝ} (h : |n| ≤ 140.5) : |n| ≤ 141 := h.trans (by norm_num)
  obtain ⟨⟨-, r1⟩, ⟨-, r2⟩, ⟨-, r3⟩, -⟩ := c86_binary64_coordinates hS hT hC hU hG _ _ _ ij.1 ic.1 id.1
    (by rw [show val _ = j from ij.2]; exact k bj) (by rw [show val _ = c from ic.2]; exact k bc) (by rw [show val _ = d from id.2]; exact k bd)
  rw [show val _ = j from ij.2] at r1
  rw [show val _ = c from ic.2] at r2
  rw [show val _ = d from id.2] at r3
  have ep : p.jstar = x ∧ p.astar = y ∧ p.bstar = z := ⟨ix.2, iy.2, iz.2⟩
  have eq : q.jstar = u ∧ q.astar = v ∧ q.bstar = w := ⟨iu.2, iv.2, iw.2⟩
  refine ⟨_, rfl, ?_, ?_, ?_⟩
  · rw [ep.1, eq.1]
    exact ((abs_sub_le _ j _).trans (add_le_add r1 hj)).trans (by norm_num)
  · rw [ep.2.1, eq.2.1]
    exact ((abs_sub_le _ c _).trans (add_le_add r2 hc)).trans (by norm_num)
  · rw [ep.2.2, eq.2.2]
    exact ((abs_sub_le _ d _).trans (add_le_add r3 hd)).trans (by norm_num)

theorem ucs_small {a b : Cam16 ℝ} {δ : ℝ} (h0 : |a.jstar - b.jstar| ≤ δ) (h1 : |a.astar - b.astar| ≤ δ) (h2 : |a.bstar - b.bstar| ≤ δ) : ucsDistance a b ≤ 2 * δ := by
  have d0 : 0 ≤ δ := (abs_nonneg _).trans h0
  unfold ucsDistance
  rw [Real.sqrt_le_left (by linarith)]
  have k0 := sq_le_sq' (abs_le.1 h0).1 (abs_le.1 h0).2
  have k1 := sq_le_sq' (abs_le.1 h1).1 (abs_le.1 h1).2
  have k2 := sq_le_sq' (abs_le.1 h2).1 (abs_le.1 h2).2
  nlinarith

/-- C86 in binary64: blending goes at an even pace: before the result is rounded to eight bits per channel, its Euclidean distance from
the first colour is `t` times, and from the second `1 - t` times, the distance between both, up to 10^-7. -/
theorem c86_binary64_even_pace (hS : L.Sound) (hT : L.TempOk) (hC : L.CamOk) (hU : L.ExpUp) (hG : L.ExpGe) (a b : Int) (t : 𝔻) (ft : Fin t) (h0 : 0 ≤ val t) (h1 : val t ≤ 1) :
    let p := exactCam (Cam16.fromInt a : Cam16 𝔻)
    let q := exactCam (Cam16.fromInt b : Cam16 𝔻)
    ∃ m : Cam16 𝔻, Blend.cam16Ucs a b t = m.toInt ∧ |ucsDistance p (exactCam m) - val t * ucsDistance p q| ≤ 1 / 10 ^ 7 ∧
      |ucsDistance (exactCam m) q - (1 - val t) * ucsDistance p q| ≤ 1 / 10 ^ 7 := by
  intro p q
  obtain ⟨m, e, m0, m1, m2⟩ := blend_place hS hT hC hU hG a b t ft h0 h1
  refine ⟨m, e, ?_⟩
  change |(exactCam m).jstar - (p.jstar + (q.jstar - p.jstar) * val t)| ≤ _ at m0
  change |(exactCam m).astar - (p.astar + (q.astar - p.astar) * val t)| ≤ _ at m1
  change |(exactCam m).bstar - (p.bstar + (q.bstar - p.bstar) * val t)| ≤ _ at m2
  generalize exactCam m = n at *
  generalize val t = τ at *
  generalize p = p at *
  generalize q = q at *
  let c : Cam16 ℝ := { p with jstar := p.jstar + (q.jstar - p.jstar) * τ, astar := p.astar + (q.astar - p.astar) * τ, bstar := p.bstar + (q.bstar - p.bstar) * τ }
  have s1 : ucsDistance n c ≤ 2 * (2 / 10 ^ 8) := ucs_small m0 m1 m2
  have s2 : ucsDistance c n ≤ 2 * (2 / 10 ^ 8) := by
    unfold ucsDistance at s1 ⊢
    rw [sub_sq_comm, sub_sq_comm c.astar, sub_sq_comm c.bstar]; exact s1
  have e1 : ucsDistance p c = τ * ucsDistance p q := by
    unfold ucsDistance
    conv_rhs => rw [← Real.sqrt_sq h0, ← Real.sqrt_mul (sq_nonneg τ)]
    congr 1; simp only [c]; ring
  have e2 : ucsDistance c q = (1 - τ) * ucsDistance p q := by
    unfold ucsDistance
    conv_rhs => rw [← Real.sqrt_sq (sub_nonneg.2 h1), ← Real.sqrt_mul (sq_nonneg (1 - τ))]
    congr 1; simp only [c]; ring
  rw [← e1, ← e2]
  have t1 := ucs_triangle p c n
  have t2 := ucs_triangle p n c
  have t3 := ucs_triangle n c q
  have t4 := ucs_triangle c n q
  constructor <;> rw [abs_le] <;> norm_num at * <;> constructor <;> linarith

/-- C86 in binary64: before the result is rounded to eight bits per channel, blending in the opposite order by `1 - t` gives the same
point of the uniform colour space up to 10^-7. -/
theorem c86_binary64_swap (hS : L.Sound) (hT : L.TempOk) (hC : L.CamOk) (hU : L.ExpUp) (hG : L.ExpGe) (a b : Int) (t : 𝔻) (ft : Fin t) (h0 : 0 ≤ val t) (h1 : val t ≤ 1) :
    ∃ m n : Cam16 𝔻, Blend.cam16Ucs a b t = m.toInt ∧ Blend.cam16Ucs b a (1.0 - t) = n.toInt ∧ ucsDistance (exactCam m) (exactCam n) ≤ 1 / 10 ^ 7 := by
  have it : Is t (val t) := ⟨ft, rfl⟩
  have i1 : Is (1.0 : 𝔻) 1 := l1
  have is := i1.sub it (rnd_huge ((show |1 - val t| ≤ 1 by rw [abs_le]; constructor <;> linarith).trans (by norm_num)))
  have s0 : 0 ≤ rnd (1 - val t) := rnd_nonneg (by linarith)
  have s1 : rnd (1 - val t) ≤ 1 := i1.rep.rnd_le (by linarith)
  have se := rnd_any (1 - val t)
  rw [abs_of_nonneg (show 0 ≤ 1 - val t by linarith)] at se
  have se : |rnd (1 - val t) - (1 - val t)| ≤ 3 / 10 ^ 16 := se.trans (by norm_num; linarith)
  obtain ⟨m, em, m0, m1, m2⟩ := blend_place hS hT hC hU hG a b t ft h0 h1
  obtain ⟨n, en, n0, n1, n2⟩ := blend_place hS hT hC hU hG b a (1.0 - t) is.1 (by rw [show val _ = _ from is.2]; exact s0) (by rw [show val _ = _ from is.2]; exact s1)
  refine ⟨m, n, em, en, ?_⟩
  rw [show val (1.0 - t) = rnd (1 - val t) from is.2] at n0 n1 n2
  obtain ⟨x, y, z, ix, iy, iz, hx, hy, hz, -⟩ := ucs_bounded (L := L) hS hT hC a
  obtain ⟨u, v, w, iu, iv, iw, hu, hv, hw, -⟩ := ucs_bounded (L := L) hS hT hC b
  have close {α β g h : ℝ} (hg : |g| ≤ 140) (hh : |h| ≤ 140) (c1 : |α - (g + (h - g) * val t)| ≤ 2 / 10 ^ 8) (c2 : |β - (h + (g - h) * rnd (1 - val t))| ≤ 2 / 10 ^ 8) :
      |α - β| ≤ 41 / 10 ^ 9 := by
    have c3 : |(h + (g - h) * rnd (1 - val t)) - (g + (h - g) * val t)| ≤ 1 / 10 ^ 10 := by
      rw [show (h + (g - h) * rnd (1 - val t)) - (g + (h - g) * val t) = (g - h) * (rnd (1 - val t) - (1 - val t)) by ring, abs_mul]
      have := abs_le.1 hg
      have := abs_le.1 hh
      exact (mul_le_mul (show |g - h| ≤ 280 by rw [abs_le]; constructor <;> linarith) se (abs_nonneg _) (by norm_num)).trans (by norm_num)
    have := abs_le.1 c1
    have := abs_le.1 c2
    have := abs_le.1 c3
    rw [abs_le]
    norm_num at *
    constructor <;> linarith
  have ea : (exactCam (Cam16.fromInt a : Cam16 𝔻)).jstar = x ∧ (exactCam (Cam16.fromInt a : Cam16 𝔻)).astar = y ∧ (exactCam (Cam16.fromInt a : Cam16 𝔻)).bstar = z := ⟨ix.2, iy.2, iz.2⟩
  have eb : (exactCam (Cam16.fromInt b : Cam16 𝔻)).jstar = u ∧ (exactCam (Cam16.fromInt b : Cam16 𝔻)).astar = v ∧ (exactCam (Cam16.fromInt b : Cam16 𝔻)).bstar = w := ⟨iu.2, iv.2, iw.2⟩
  simp only [ea.1, ea.2.1, ea.2.2, eb.1, eb.2.1, eb.2.2] at m0 m1 m2 n0 n1 n2
  exact (ucs_small (close hx hu m0 n0) (close hy hv m1 n1) (close hz hw m2 n2)).trans (by norm_num)

/-- The hypotheses hold for an amount of one half. -/
example : ∃ L : Libm, L.Sound ∧ L.TempOk ∧ L.CamOk ∧ L.ExpUp ∧ L.ExpGe ∧ Fin (0.5 : F64 L) ∧ val (0.5 : F64 L) = 1 / 2 := by
  obtain ⟨L, h1, h2, h3, h4, h5⟩ := ucs_sound_exists
  have : Is (0.5 : F64 L) (1 / 2) := lhalf
  exact ⟨L, h1, h2, h3, h4, h5, this.1, this.2⟩

end Mcu.Props.Binary64
