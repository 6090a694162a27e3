import Verif.Lemmas.F64Near
import Verif.Lemmas.Chroma

/-! The default viewing conditions in IEEE-754 binary64 are close to the exact ones. -/

namespace Mcu.Lemmas

open Mcu.Ieee Props Props.Binary64 MathUtils ColorUtils Real

variable {L : Libm}

local notation "𝔻" => F64 L

/-- The exact default viewing conditions. -/
noncomputable abbrev vcR : ViewingConditions ℝ := ViewingConditions.sRgb

theorem ap_lit_small {m e : ℕ} {s : Bool} (h : |(OfScientific.ofScientific m s e : ℝ)| ≤ 3) :
    Ap (OfScientific.ofScientific m s e : 𝔻) (OfScientific.ofScientific m s e : ℝ) (1 / 10 ^ 15) := by
  obtain ⟨v, iv, hv⟩ := (⟨_, is_lit (L := L) rfl (h.trans (by
    calc (3 : ℝ) ≤ 2 ^ 10 := by norm_num
      _ ≤ 2 ^ 1000 := pow_le_pow_right₀ (by norm_num) (by norm_num))), rnd_any _⟩ : ∃ v, Is (OfScientific.ofScientific m s e : 𝔻) v ∧ |v - (OfScientific.ofScientific m s e : ℝ)| ≤
      |(OfScientific.ofScientific m s e : ℝ)| * (2 / 10 ^ 16) + 1 / 10 ^ 72)
  refine ⟨v, iv, hv.trans ?_⟩
  have := mul_le_mul_of_nonneg_right h (show (0 : ℝ) ≤ 2 / 10 ^ 16 by norm_num)
  norm_num at this ⊢
  linarith

theorem nr_y50 : Nr (yFromLstar (50.0 : 𝔻)) (yFromLstar (50.0 : ℝ)) (3 / 10 ^ 14) 2 := by
  have l50 : Nr (50.0 : 𝔻) (50.0 : ℝ) (1 / 10 ^ 15) 2 := nr_lit 2 (by norm_num) (by norm_num) (by norm_num)
  have l16 : Nr (16.0 : 𝔻) (16.0 : ℝ) (1 / 10 ^ 15) 2 := nr_lit 2 (by norm_num) (by norm_num) (by norm_num)
  have l116 : Nr (116.0 : 𝔻) (116.0 : ℝ) (1 / 10 ^ 15) 3 := nr_lit 3 (by norm_num) (by norm_num) (by norm_num)
  have l100' : Nr (100.0 : 𝔻) (100.0 : ℝ) (1 / 10 ^ 15) 2 := nr_lit 2 (by norm_num) (by norm_num) (by norm_num)
  have a := ((l50.add l16 3 (2 / 10 ^ 15) (by norm_num) (by norm_num) (by norm_num) (by norm_num) (by norm_num) (by norm_num)).div l116 (5 / 10 ^ 15)
    (by norm_num) (by norm_num) (by norm_num)).to (5 / 10 ^ 15) 1 le_rfl (by norm_num) (by norm_num)
  have b := (a.mul a (12 / 10 ^ 15) (by norm_num) (by norm_num) (by norm_num)).mul a (2 / 10 ^ 14) (by norm_num) (by norm_num) (by norm_num)
  have c := (l100'.mul b (3 / 10 ^ 14) (by norm_num) (by norm_num) (by norm_num)).to (3 / 10 ^ 14) 2 le_rfl (by norm_num) (by norm_num)
  have e1 : yFromLstar (50.0 : 𝔻) = 100.0 * ((50.0 + 16.0) / 116.0 * ((50.0 + 16.0) / 116.0) * ((50.0 + 16.0) / 116.0)) := by
    simp only [yFromLstar, labInvf]
    rw [if_pos]
    obtain ⟨v, iv, hv⟩ := b.rl
    have h := (nr_lit (L := L) (m := 2160) (s := true) (e := 1) 3 (by norm_num) (by norm_num) (by norm_num)).div
      (nr_lit (L := L) (m := 243890) (s := true) (e := 1) 5 (by norm_num) (by norm_num) (by norm_num)) (1 / 10 ^ 12) (by norm_num) (by norm_num) (by norm_num)
    obtain ⟨w, iw, hw⟩ := h.rl
    have hv := abs_le.1 hv
    have hw := abs_le.1 hw
    refine (iw.lt_iff iv).2 ?_
    norm_num at hv hw
    linarith
  have e2 : yFromLstar (50.0 : ℝ) = 100.0 * ((50.0 + 16.0) / 116.0 * ((50.0 + 16.0) / 116.0) * ((50.0 + 16.0) / 116.0)) := by
    simp only [yFromLstar, labInvf]
    rw [if_pos (by norm_num)]
  rw [e1, e2]
  exact c

theorem nr_pi : Nr (Fl.pi : 𝔻) π (1 / 10 ^ 15) 1 := by
  have h1 := Real.pi_gt_three
  have h2 := Real.pi_lt_four
  refine ⟨rl_rnd (w := π) (ε := 0) (fun h => is_ofReal _ h) (by simp) (le_trans (by norm_num) h1.le) (h2.le.trans (by norm_num)) le_rfl (by norm_num) (by norm_num), by norm_num,
    by norm_num; linarith, by norm_num; linarith⟩

theorem laR : vcR.adaptingLuminance = adaptLum none := by
  simp only [vcR, ViewingConditions.sRgb, ViewingConditions.makeCore, adaptLum]; norm_num; exact Or.inl rfl

theorem nr_la : Nr (vc64 L).adaptingLuminance vcR.adaptingLuminance (6 / 10 ^ 14) 2 := by
  have e : (vc64 L).adaptingLuminance = if (-1.0 : 𝔻) > 0.0 then -1.0 else 200.0 / Fl.pi * yFromLstar 50.0 / 100.0 := rfl
  have e' : vcR.adaptingLuminance = if (-1.0 : ℝ) > 0.0 then -1.0 else 200.0 / π * yFromLstar 50.0 / 100.0 := rfl
  have hb := adaptLum_bounds
  rw [← laR] at hb
  have l200 : Nr (200.0 : 𝔻) (200.0 : ℝ) (1 / 10 ^ 15) 3 := nr_lit 3 (by norm_num) (by norm_num) (by norm_num)
  have l100' : Nr (100.0 : 𝔻) (100.0 : ℝ) (1 / 10 ^ 15) 2 := nr_lit 2 (by norm_num) (by norm_num) (by norm_num)
  have a := ((l200.div nr_pi (4 / 10 ^ 15) (by norm_num) (by norm_num) (by norm_num)).mul nr_y50 (4 / 10 ^ 14) (by norm_num) (by norm_num) (by norm_num)).div l100' (6 / 10 ^ 14)
    (by norm_num) (by norm_num) (by norm_num)
  rw [if_neg (by norm_num)] at e'
  rw [e, if_neg, e']
  · rw [e'] at hb
    norm_num at hb
    exact a.to _ 2 le_rfl (by norm_num; linarith) (by norm_num; linarith)
  · have : Is (-1.0 : 𝔻) (-1) := l1.neg
    rw [show ((-1.0 : 𝔻) > 0.0) = ((0.0 : 𝔻) < -1.0) from rfl, l0.lt_iff this]; norm_num

theorem nr_f : Nr (vc64 L).nC vcR.nC (6 / 10 ^ 15) 1 := by
  have e : (vc64 L).nC = 0.8 + 2.0 / 10.0 := rfl
  have e' : vcR.nC = 0.8 + 2.0 / 10.0 := rfl
  rw [e, e']
  have l8 : Nr (0.8 : 𝔻) (0.8 : ℝ) (1 / 10 ^ 15) 1 := nr_lit 1 (by norm_num) (by norm_num) (by norm_num)
  have l2 : Nr (2.0 : 𝔻) (2.0 : ℝ) (1 / 10 ^ 15) 1 := nr_lit 1 (by norm_num) (by norm_num) (by norm_num)
  have l10 : Nr (10.0 : 𝔻) (10.0 : ℝ) (1 / 10 ^ 15) 1 := nr_lit 1 (by norm_num) (by norm_num) (by norm_num)
  exact (l8.add (l2.div l10 (4 / 10 ^ 15) (by norm_num) (by norm_num) (by norm_num)) 3 (6 / 10 ^ 15) (by norm_num) (by norm_num) (by norm_num) (by norm_num) (by norm_num) (by norm_num)).to
    _ 1 le_rfl (by norm_num) (by norm_num)

theorem nr_c : Nr (vc64 L).c vcR.c (5 / 10 ^ 13) 1 := by
  have e : (vc64 L).c = if (vc64 L).nC ≥ 0.9 then lerp 0.59 0.69 (((vc64 L).nC - 0.9) * 10.0) else lerp 0.525 0.59 (((vc64 L).nC - 0.8) * 10.0) := rfl
  have e' : vcR.c = if vcR.nC ≥ 0.9 then lerp 0.59 0.69 ((vcR.nC - 0.9) * 10.0) else lerp 0.525 0.59 ((vcR.nC - 0.8) * 10.0) := rfl
  have ef : vcR.nC = 0.8 + 2.0 / 10.0 := rfl
  have hf : Ap (vc64 L).nC vcR.nC (6 / 10 ^ 15) := nr_f.ap _ (by rw [ef]; norm_num)
  rw [ef] at hf
  have l9 : Ap (0.9 : 𝔻) (0.9 : ℝ) (1 / 10 ^ 15) := ap_lit_small (by norm_num [abs_le])
  have l59 : Ap (0.59 : 𝔻) (0.59 : ℝ) (1 / 10 ^ 15) := ap_lit_small (by norm_num [abs_le])
  have l69 : Ap (0.69 : 𝔻) (0.69 : ℝ) (1 / 10 ^ 15) := ap_lit_small (by norm_num [abs_le])
  have l1' : Ap (1.0 : 𝔻) (1.0 : ℝ) (1 / 10 ^ 15) := ap_lit_small (by norm_num [abs_le])
  have l10 : Ap (10.0 : 𝔻) (10.0 : ℝ) 0 := by rw [show (10.0 : ℝ) = 10 by norm_num]; simpa using (lit (L := L) 100 1 true 10 (by norm_num) (by norm_num)).ap
  have a := hf.subS l9 1 (8 / 10 ^ 15) (by norm_num [abs_of_pos]) (by norm_num) (by norm_num)
  have b := a.mulS l10 0.2 10 3 (9 / 10 ^ 14) (by norm_num [abs_of_pos]) (by norm_num) (by norm_num) (by norm_num) (by norm_num)
  have c := l1'.subS b 1 (10 / 10 ^ 14) (by norm_num [abs_of_pos]) (by norm_num) (by norm_num)
  have d := c.mulS l59 0.1 1 1 (11 / 10 ^ 14) (by norm_num [abs_of_pos]) (by norm_num [abs_of_pos]) (by norm_num) (by norm_num) (by norm_num)
  have g := b.mulS l69 1 1 2 (10 / 10 ^ 14) (by norm_num [abs_of_pos]) (by norm_num [abs_of_pos]) (by norm_num) (by norm_num) (by norm_num)
  have r := d.addS g 1 (3 / 10 ^ 13) (by norm_num [abs_of_pos]) (by norm_num) (by norm_num)
  have h := r.nr (5 / 10 ^ 13) 1 (by norm_num) (by norm_num) (by norm_num)
  rw [e, e', if_pos, if_pos, ef]
  · exact h
  · rw [ef]; norm_num
  · obtain ⟨v, iv, hv⟩ := hf
    obtain ⟨w, iw, hw⟩ := l9
    rw [show ((vc64 L).nC ≥ 0.9) = ((0.9 : 𝔻) ≤ (vc64 L).nC) from rfl, iw.le_iff iv]
    have hv := abs_le.1 hv
    have hw := abs_le.1 hw
    norm_num at hv hw; linarith

/-- The exact degree of adaptation before clamping. -/
noncomputable def degR : ℝ := vcR.nC * (1.0 - (1.0 / 3.6) * Real.exp ((-vcR.adaptingLuminance - 42.0) / 92.0))

theorem degR_bounds : 0.8450 < degR ∧ degR < 0.8452 := by
  have h := exp_bounds
  rw [← laR] at h
  have ef : vcR.nC = 0.8 + 2.0 / 10.0 := rfl
  have e42 : (42.0 : ℝ) = 42 := by norm_num
  have e92 : (92.0 : ℝ) = 92 := by norm_num
  unfold degR
  rw [ef, e42, e92]
  generalize Real.exp _ = x at h
  constructor <;> norm_num at h ⊢ <;> linarith

theorem ap_degree (hE : L.ExpOk) : Ap (degree L) degR (4 / 10 ^ 13) := by
  have hb := adaptLum_bounds
  rw [← laR] at hb
  have la : Ap (vc64 L).adaptingLuminance vcR.adaptingLuminance (8 / 10 ^ 13) := nr_la.ap _ (by norm_num at hb ⊢; linarith)
  have l42 : Ap (42.0 : 𝔻) (42.0 : ℝ) (3 / 10 ^ 13) := ap_lit_sharp (by norm_num [abs_le])
  have a := la.negS.subS l42 60 (12 / 10 ^ 13) (by
    rw [abs_of_neg (by norm_num at hb ⊢; linarith)]; norm_num at hb ⊢; linarith) (by norm_num) (by norm_num)
  have eb := exp_bounds
  rw [← laR] at eb
  have b : Ap ((-(vc64 L).adaptingLuminance - 42.0) / 92.0) ((-vcR.adaptingLuminance - 42.0) / 92.0) (2 / 10 ^ 14) := by
    obtain ⟨w, iw, hw⟩ := a
    have i92 : Is (92.0 : 𝔻) 92 := by simpa using lit (L := L) 920 1 true 92 (by norm_num) (by norm_num)
    have e92 : (92.0 : ℝ) = 92 := by norm_num
    have hw' := abs_le.1 hw
    refine ap_rndS (w := w / 92) (a := 12 / 10 ^ 13 / 92) (B := 1) (fun h => iw.div i92 (by norm_num) h) ?_ ?_ (by norm_num) (by norm_num)
    · rw [e92, ← sub_div, abs_div, abs_of_pos (by norm_num : (0 : ℝ) < 92)]
      exact div_le_div_of_nonneg_right hw (by norm_num)
    · rw [abs_le]
      generalize vcR.adaptingLuminance = x at *
      norm_num at hb hw' ⊢
      constructor <;> linarith
  have c : Ap (Fl.exp ((-(vc64 L).adaptingLuminance - 42.0) / 92.0) : 𝔻) (Real.exp ((-vcR.adaptingLuminance - 42.0) / 92.0)) (11 / 10 ^ 13) := by
    obtain ⟨w, ⟨f, rfl⟩, hw⟩ := b
    have hw' := abs_le.1 hw
    have hx : (-vcR.adaptingLuminance - 42.0) / 92.0 ≤ -0.5 ∧ -1 ≤ (-vcR.adaptingLuminance - 42.0) / 92.0 := by
      generalize vcR.adaptingLuminance = x at *
      norm_num at hb ⊢
      constructor <;> linarith
    generalize (-vcR.adaptingLuminance - 42.0) / 92.0 = x at *
    generalize hgen : ((-(vc64 L).adaptingLuminance - 42.0) / 92.0 : 𝔻) = y at *
    obtain ⟨g1, g2⟩ := hE y f (by norm_num at hx hw'; linarith) (by norm_num at hx hw'; linarith)
    refine ⟨_, ⟨g1, rfl⟩, ?_⟩
    have h1 := exp_small hw (by norm_num)
    have e1 : Real.exp x ≤ 1 := Real.exp_le_one_iff.2 (by norm_num at hx; linarith)
    have h2 : |Real.exp (Dbl.val y) - Real.exp x| ≤ 1.2 * (2 / 10 ^ 14) := by
      have : Real.exp (Dbl.val y) - Real.exp x = Real.exp x * (Real.exp (Dbl.val y - x) - 1) := by
        rw [mul_sub, ← Real.exp_add, mul_one, add_sub_cancel]
      rw [this, abs_mul, abs_of_pos (Real.exp_pos x)]
      calc Real.exp x * |Real.exp (Dbl.val y - x) - 1| ≤ 1 * (1.2 * (2 / 10 ^ 14)) := mul_le_mul e1 h1 (abs_nonneg _) (by norm_num)
        _ = _ := one_mul _
    have h3 := abs_add_le (Dbl.val (L.exp y) - Real.exp (Dbl.val y)) (Real.exp (Dbl.val y) - Real.exp x)
    rw [sub_add_sub_cancel] at h3
    refine h3.trans ((add_le_add g2 h2).trans (by norm_num))
  have e42 : (42.0 : ℝ) = 42 := by norm_num
  have e92 : (92.0 : ℝ) = 92 := by norm_num
  rw [← e42, ← e92] at eb
  have l1' : Ap (1.0 : 𝔻) (1.0 : ℝ) (1 / 10 ^ 15) := ap_lit_small (by norm_num [abs_le])
  have l36 : Ap (1.0 / 3.6 : 𝔻) (1.0 / 3.6 : ℝ) (2 / 10 ^ 15) := by
    refine ((nr_lit (L := L) (m := 10) (s := true) (e := 1) 1 (by norm_num) (by norm_num) (by norm_num)).div (nr_lit (L := L) (m := 36) (s := true) (e := 1) 1 (by norm_num) (by norm_num) (by norm_num)) (4 / 10 ^ 15)
      (by norm_num) (by norm_num) (by norm_num)).ap _ (by norm_num)
  unfold degree degR
  have ef : vcR.nC = 0.8 + 2.0 / 10.0 := rfl
  have hf : Ap (vc64 L).nC vcR.nC (6 / 10 ^ 15) := nr_f.ap _ (by rw [ef]; norm_num)
  rw [ef] at hf ⊢
  generalize Real.exp _ = x at eb c
  generalize (Fl.exp _ : 𝔻) = y at c
  have d := l36.mulS c 0.28 0.6 1 (32 / 10 ^ 14) (by norm_num [abs_of_pos]) (by rw [abs_of_pos] <;> norm_num at eb ⊢ <;> linarith) (by norm_num) (by norm_num) (by norm_num)
  have g := l1'.subS d 1 (33 / 10 ^ 14) (by rw [abs_of_pos] <;> norm_num at eb ⊢ <;> linarith) (by norm_num) (by norm_num)
  exact hf.mulS g 1 0.9 2 (4 / 10 ^ 13) (by norm_num [abs_of_pos]) (by rw [abs_of_pos] <;> norm_num at eb ⊢ <;> linarith) (by norm_num) (by norm_num) (by norm_num)

/-- The exact cone responses of the white point. -/
noncomputable def whiteR : Vec3 ℝ := wpCones whitePointD65

theorem ap_wprod {x c : 𝔻} {X C : ℝ} (hx : Ap x X (11 / 10 ^ 14)) (hX : |X| ≤ 109) (hc : Ap c C (1 / 10 ^ 15)) (hC : |C| ≤ 1.21) :
    Ap (x * c) (X * C) (28 / 10 ^ 14) :=
  hx.mulS hc 109 1.21 140 (28 / 10 ^ 14) hX hC (by norm_num) (by norm_num) (by norm_num)

theorem ap_wsum {x y z : 𝔻} {X Y Z : ℝ} (hx : Ap x X (28 / 10 ^ 14)) (hy : Ap y Y (28 / 10 ^ 14)) (hz : Ap z Z (28 / 10 ^ 14))
    (h1 : |X + Y| ≤ 110) (h2 : |X + Y + Z| ≤ 110) : Ap (x + y + z) (X + Y + Z) (9 / 10 ^ 13) := by
  refine (hx.addS hy 120 (59 / 10 ^ 14) ?_ (by norm_num) (by norm_num)).addS hz 120 _ ?_ (by norm_num) (by norm_num)
  · norm_num; linarith
  · norm_num; linarith

theorem nr_white : Nr (white L).x0 whiteR.x0 (1 / 10 ^ 14) 3 ∧ Nr (white L).x1 whiteR.x1 (1 / 10 ^ 14) 3 ∧ Nr (white L).x2 whiteR.x2 (1 / 10 ^ 14) 3 := by
  have wx : Ap (95.047 : 𝔻) (95.047 : ℝ) (11 / 10 ^ 14) :=
    (nr_lit (L := L) (m := 95047) (s := true) (e := 3) 2 (by norm_num) (by norm_num) (by norm_num)).ap _ (by norm_num)
  have wy : Ap (100.0 : 𝔻) (100.0 : ℝ) (11 / 10 ^ 14) :=
    (nr_lit (L := L) (m := 1000) (s := true) (e := 1) 2 (by norm_num) (by norm_num) (by norm_num)).ap _ (by norm_num)
  have wz : Ap (108.883 : 𝔻) (108.883 : ℝ) (11 / 10 ^ 14) :=
    (nr_lit (L := L) (m := 108883) (s := true) (e := 3) 3 (by norm_num) (by norm_num) (by norm_num)).ap _ (by norm_num)
  have c00 : Ap (0.401288 : 𝔻) (0.401288 : ℝ) (1 / 10 ^ 15) := ap_lit_small (by norm_num [abs_le])
  have c01 : Ap (0.650173 : 𝔻) (0.650173 : ℝ) (1 / 10 ^ 15) := ap_lit_small (by norm_num [abs_le])
  have c02 : Ap (-0.051461 : 𝔻) (-0.051461 : ℝ) (1 / 10 ^ 15) := (ap_lit_small (by norm_num [abs_le])).negS
  have c10 : Ap (-0.250268 : 𝔻) (-0.250268 : ℝ) (1 / 10 ^ 15) := (ap_lit_small (by norm_num [abs_le])).negS
  have c11 : Ap (1.204414 : 𝔻) (1.204414 : ℝ) (1 / 10 ^ 15) := ap_lit_small (by norm_num [abs_le])
  have c12 : Ap (0.045854 : 𝔻) (0.045854 : ℝ) (1 / 10 ^ 15) := ap_lit_small (by norm_num [abs_le])
  have c20 : Ap (-0.002079 : 𝔻) (-0.002079 : ℝ) (1 / 10 ^ 15) := (ap_lit_small (by norm_num [abs_le])).negS
  have c21 : Ap (0.048952 : 𝔻) (0.048952 : ℝ) (1 / 10 ^ 15) := ap_lit_small (by norm_num [abs_le])
  have c22 : Ap (0.953127 : 𝔻) (0.953127 : ℝ) (1 / 10 ^ 15) := ap_lit_small (by norm_num [abs_le])
  refine ⟨?_, ?_, ?_⟩
  · exact (ap_wsum (ap_wprod wx (by norm_num [abs_le]) c00 (by norm_num [abs_le])) (ap_wprod wy (by norm_num [abs_le]) c01 (by norm_num [abs_le]))
      (ap_wprod wz (by norm_num [abs_le]) c02 (by norm_num [abs_le])) (by norm_num [abs_le]) (by norm_num [abs_le])).nr _ 3 (by norm_num) (by norm_num) (by norm_num)
  · exact (ap_wsum (ap_wprod wx (by norm_num [abs_le]) c10 (by norm_num [abs_le])) (ap_wprod wy (by norm_num [abs_le]) c11 (by norm_num [abs_le]))
      (ap_wprod wz (by norm_num [abs_le]) c12 (by norm_num [abs_le])) (by norm_num [abs_le]) (by norm_num [abs_le])).nr _ 3 (by norm_num) (by norm_num) (by norm_num)
  · exact (ap_wsum (ap_wprod wx (by norm_num [abs_le]) c20 (by norm_num [abs_le])) (ap_wprod wy (by norm_num [abs_le]) c21 (by norm_num [abs_le]))
      (ap_wprod wz (by norm_num [abs_le]) c22 (by norm_num [abs_le])) (by norm_num [abs_le]) (by norm_num [abs_le])).nr _ 3 (by norm_num) (by norm_num) (by norm_num)

theorem whiteR_val : whiteR.x0 = 97.555292473 ∧ whiteR.x1 = 101.646898486 ∧ whiteR.x2 = 108.476924428 := by
  simp only [whiteR, wpCones, whitePointD65]; norm_num

theorem rgbDR_eq : vcR.rgbD = ⟨degR * (100.0 / whiteR.x0) + 1.0 - degR, degR * (100.0 / whiteR.x1) + 1.0 - degR, degR * (100.0 / whiteR.x2) + 1.0 - degR⟩ := by
  have e : vcR.rgbD = (fun d : ℝ => (⟨d * (100.0 / whiteR.x0) + 1.0 - d,
    d * (100.0 / whiteR.x1) + 1.0 - d, d * (100.0 / whiteR.x2) + 1.0 - d⟩ : Vec3 ℝ))
      (if degR > 1.0 then 1.0 else if degR < 0.0 then 0.0 else degR) := rfl
  have h := degR_bounds
  norm_num at h
  rw [e, if_neg (by norm_num; linarith), if_neg (by norm_num; linarith)]

theorem nr_gain (hE : L.ExpOk) {w : 𝔻} {W : ℝ} (hw : Nr w W (1 / 10 ^ 14) 3) (w0 : 97 ≤ W) (w1 : W ≤ 109) :
    Nr (degree L * (100.0 / w) + 1.0 - degree L) (degR * (100.0 / W) + 1.0 - degR) (1 / 10 ^ 12) 1 := by
  have hd := degR_bounds
  norm_num at hd
  have l1' : Ap (1.0 : 𝔻) (1.0 : ℝ) (1 / 10 ^ 15) := ap_lit_small (by norm_num [abs_le])
  have l100' : Nr (100.0 : 𝔻) (100.0 : ℝ) (1 / 10 ^ 15) 2 := nr_lit 2 (by norm_num) (by norm_num) (by norm_num)
  have q0 : 0.917 ≤ 100.0 / W := by rw [le_div_iff₀ (by linarith)]; norm_num; linarith
  have q1 : 100.0 / W ≤ 1.04 := by rw [div_le_iff₀ (by linarith)]; norm_num; linarith
  have a := (l100'.div hw (2 / 10 ^ 14) (by norm_num) (by norm_num) (by norm_num)).ap (3 / 10 ^ 14) (by norm_num at q1 ⊢; linarith)
  generalize 100.0 / W = q at *
  generalize (100.0 / w : 𝔻) = qq at *
  have p0 : 0.77 ≤ degR * q := by
    have := mul_le_mul hd.1.le q0 (by norm_num) (by linarith)
    norm_num at this ⊢; linarith
  have p1 : degR * q ≤ 0.88 := by
    have := mul_le_mul hd.2.le q1 (by norm_num at q0; linarith) (by norm_num)
    norm_num at this ⊢; linarith
  have b := (ap_degree hE).mulS a 0.85 1.04 1 (5 / 10 ^ 13) (by rw [abs_of_pos] <;> norm_num <;> linarith) (by rw [abs_of_pos] <;> norm_num at q0 q1 ⊢ <;> linarith)
    (by norm_num) (by norm_num) (by norm_num)
  generalize degR * q = r at *
  have c := b.addS l1' 2 (51 / 10 ^ 14) (by rw [abs_of_pos] <;> norm_num at p0 p1 ⊢ <;> linarith) (by norm_num) (by norm_num)
  have d := c.subS (ap_degree hE) 2 (92 / 10 ^ 14) (by rw [abs_of_pos] <;> norm_num at p0 p1 hd ⊢ <;> linarith) (by norm_num) (by norm_num)
  exact d.nr _ 1 (by norm_num at p0 p1 hd ⊢; linarith) (by norm_num at p0 p1 hd ⊢; linarith) (by norm_num at p0 p1 hd ⊢; linarith)

theorem nr_rgbD (hE : L.ExpOk) : Nr (vc64 L).rgbD.x0 vcR.rgbD.x0 (1 / 10 ^ 12) 1 ∧ Nr (vc64 L).rgbD.x1 vcR.rgbD.x1 (1 / 10 ^ 12) 1 ∧
    Nr (vc64 L).rgbD.x2 vcR.rgbD.x2 (1 / 10 ^ 12) 1 := by
  rw [rgbD_eq hE, rgbDR_eq]
  obtain ⟨w0, w1, w2⟩ := whiteR_val
  obtain ⟨a, b, c⟩ := nr_white (L := L)
  exact ⟨nr_gain hE a (by rw [w0]; norm_num) (by rw [w0]; norm_num), nr_gain hE b (by rw [w1]; norm_num) (by rw [w1]; norm_num),
    nr_gain hE c (by rw [w2]; norm_num) (by rw [w2]; norm_num)⟩

theorem Nr.subS {x y : 𝔻} {s t ε δ : ℝ} {n m : ℕ} (hx : Nr x s ε n) (hy : Nr y t δ m) (η : ℝ) (k : ℕ) (lo : 1 / 10 ^ k ≤ s - t) (hi : s - t ≤ 10 ^ k)
    (h : ε * s + δ * t ≤ (η - 1 / 10 ^ 15) * (s - t)) (h1 : η ≤ 1 / 100) (h0 : 1 / 10 ^ 15 ≤ η) (hk : k ≤ 40) : Nr (x - y) (s - t) η k := by
  obtain ⟨v, iv, hv⟩ := hx.rl
  obtain ⟨w, iw, hw⟩ := hy.rl
  refine ⟨rl_rnd (w := v - w) (ε := η - 1 / 10 ^ 15) (fun h => iv.sub iw h) ?_ ((inv_ten_le (by omega)).trans lo) (hi.trans (ten_pow_le (by omega))) (by linarith) (by linarith) (by linarith), by linarith [show (0 : ℝ) ≤ 1 / 10 ^ 15 by norm_num], lo, hi⟩
  rw [show v - w - (s - t) = (v - s) - (w - t) by ring]
  exact (abs_sub _ _).trans ((add_le_add hv hw).trans h)

theorem nr_fl (hL : L.PowOk) : Nr (vc64 L).fl vcR.fl (1 / 10 ^ 12) 1 := by
  have e : (vc64 L).fl = (fun k : 𝔻 => k * k * k * k * (vc64 L).adaptingLuminance + 0.1 * (1.0 - k * k * k * k) * (1.0 - k * k * k * k) *
    Fl.powf (5.0 * (vc64 L).adaptingLuminance) (1.0 / 3.0)) (1.0 / (5.0 * (vc64 L).adaptingLuminance + 1.0)) := rfl
  have e' : vcR.fl = (fun k : ℝ => k * k * k * k * vcR.adaptingLuminance + 0.1 * (1.0 - k * k * k * k) * (1.0 - k * k * k * k) *
    (5.0 * vcR.adaptingLuminance) ^ (1.0 / 3.0 : ℝ)) (1.0 / (5.0 * vcR.adaptingLuminance + 1.0)) := rfl
  have hb := adaptLum_bounds
  rw [← laR] at hb
  have fb := fl_bounds
  rw [show (ViewingConditions.sRgb : ViewingConditions ℝ).fl = vcR.fl from rfl, e'] at fb
  beta_reduce at fb
  rw [e, e']
  beta_reduce
  clear e e'
  have l5 : Nr (5.0 : 𝔻) (5.0 : ℝ) (1 / 10 ^ 15) 1 := nr_lit 1 (by norm_num) (by norm_num) (by norm_num)
  have l1' : Nr (1.0 : 𝔻) (1.0 : ℝ) (1 / 10 ^ 15) 1 := nr_lit 1 (by norm_num) (by norm_num) (by norm_num)
  have l01 : Nr (0.1 : 𝔻) (0.1 : ℝ) (1 / 10 ^ 15) 1 := nr_lit 1 (by norm_num) (by norm_num) (by norm_num)
  have third : Ap (1.0 / 3.0 : 𝔻) (1.0 / 3.0 : ℝ) (2 / 10 ^ 15) := by
    refine (l1'.div (nr_lit (L := L) (m := 30) (s := true) (e := 1) 1 (by norm_num) (by norm_num) (by norm_num)) (4 / 10 ^ 15)
      (by norm_num) (by norm_num) (by norm_num)).ap _ (by norm_num)
  have a := (l5.mul nr_la (63 / 10 ^ 15) (by norm_num) (by norm_num) (by norm_num)).to (63 / 10 ^ 15) 2 le_rfl (by norm_num at hb ⊢; linarith) (by norm_num at hb ⊢; linarith)
  have b := a.add l1' 3 (65 / 10 ^ 15) (by norm_num) (by norm_num) (by norm_num) (by norm_num) (by norm_num) (by norm_num)
  have kb : 0.0167 ≤ 1.0 / (5.0 * vcR.adaptingLuminance + 1.0) ∧ 1.0 / (5.0 * vcR.adaptingLuminance + 1.0) ≤ 0.0169 := by
    generalize vcR.adaptingLuminance = x at hb
    norm_num at hb
    constructor
    · rw [le_div_iff₀ (by norm_num; linarith)]; norm_num; linarith
    · rw [div_le_iff₀ (by norm_num; linarith)]; norm_num; linarith
  have k := (l1'.div b (8 / 10 ^ 14) (by norm_num) (by norm_num) (by norm_num)).to (8 / 10 ^ 14) 2 le_rfl (by norm_num at kb ⊢; linarith) (by norm_num at kb ⊢; linarith)
  have p := a.pow hL third (5 / 10 ^ 13) (by norm_num) (by norm_num) (by norm_num) (by norm_num at hb ⊢; linarith) (by norm_num) (by norm_num) (by norm_num)
  generalize 1.0 / (5.0 * vcR.adaptingLuminance + 1.0) = κ at *
  generalize (1.0 / (5.0 * (vc64 L).adaptingLuminance + 1.0) : 𝔻) = kk at *
  generalize (5.0 * vcR.adaptingLuminance) ^ (1.0 / 3.0 : ℝ) = π' at *
  generalize (Fl.powf (5.0 * (vc64 L).adaptingLuminance) (1.0 / 3.0) : 𝔻) = pp at *
  have k4 := ((k.mul k (2 / 10 ^ 13) (by norm_num) (by norm_num) (by norm_num)).mul k (3 / 10 ^ 13) (by norm_num) (by norm_num) (by norm_num)).mul k (4 / 10 ^ 13) (by norm_num) (by norm_num) (by norm_num)
  have k4b : κ * κ * κ * κ ≤ 0.0000001 := by
    have : κ * κ * κ * κ = κ ^ 4 := by ring
    rw [this]
    exact (pow_le_pow_left₀ (by norm_num at kb; linarith) kb.2 4).trans (by norm_num)
  have k40 := k4.pos
  generalize κ * κ * κ * κ = q at *
  generalize kk * kk * kk * kk = qq at *
  have g := Nr.subS l1' k4 (3 / 10 ^ 15) 1 (by norm_num at k4b ⊢; linarith) (by norm_num at k4b ⊢; linarith) (by norm_num at k4b ⊢; linarith) (by norm_num) (by norm_num) (by norm_num)
  have h := ((l01.mul g (6 / 10 ^ 15) (by norm_num) (by norm_num) (by norm_num)).mul g (11 / 10 ^ 15) (by norm_num) (by norm_num) (by norm_num)).mul p (52 / 10 ^ 14) (by norm_num) (by norm_num) (by norm_num)
  have i := k4.mul nr_la (5 / 10 ^ 13) (by norm_num) (by norm_num) (by norm_num)
  have r := i.add h 12 (1 / 10 ^ 12) (by norm_num) (by norm_num) (by norm_num) (by norm_num) (by norm_num) (by norm_num)
  norm_num at fb
  exact r.to _ 1 le_rfl (by norm_num; linarith) (by norm_num; linarith)

theorem nr_n : Nr (vc64 L).backgroundYToWhitePointY vcR.backgroundYToWhitePointY (4 / 10 ^ 14) 1 := by
  have e : (vc64 L).backgroundYToWhitePointY = yFromLstar (Fl.fmax 0.1 50.0) / 100.0 := rfl
  have e' : vcR.backgroundYToWhitePointY = yFromLstar (max 0.1 50.0) / 100.0 := rfl
  rw [e, e', max50, max_eq_right (by norm_num)]
  have l100' : Nr (100.0 : 𝔻) (100.0 : ℝ) (1 / 10 ^ 15) 2 := nr_lit 2 (by norm_num) (by norm_num) (by norm_num)
  have hy : yFromLstar (50.0 : ℝ) = 100 * (33/58) ^ 3 := by rw [show (50.0 : ℝ) = 50 by norm_num, y50]
  refine (nr_y50.div l100' (4 / 10 ^ 14) (by norm_num) (by norm_num) (by norm_num)).to _ 1 le_rfl ?_ ?_ <;> rw [hy] <;> norm_num

theorem nR : vcR.backgroundYToWhitePointY = (33/58) ^ 3 := by
  have e' : vcR.backgroundYToWhitePointY = yFromLstar (max 0.1 50.0) / 100.0 := rfl
  have hy : yFromLstar (50.0 : ℝ) = 100 * (33/58) ^ 3 := by rw [show (50.0 : ℝ) = 50 by norm_num, y50]
  rw [e', max_eq_right (by norm_num), hy]; norm_num

theorem nr_z : Nr (vc64 L).z vcR.z (6 / 10 ^ 14) 2 := by
  have e : (vc64 L).z = 1.48 + Fl.sqrt (vc64 L).backgroundYToWhitePointY := rfl
  have e' : vcR.z = 1.48 + Real.sqrt vcR.backgroundYToWhitePointY := rfl
  rw [e, e']
  exact (nr_lit (L := L) (m := 148) (s := true) (e := 2) 1 (by norm_num) (by norm_num) (by norm_num)).add (nr_n.sqrt (5 / 10 ^ 14) (by norm_num) (by norm_num) (by norm_num)) 2 _
    (by norm_num) (by norm_num) (by norm_num) (by norm_num) (by norm_num) (by norm_num)

theorem nr_nbb (hL : L.PowOk) : Nr (vc64 L).nbb vcR.nbb (3 / 10 ^ 13) 4 := by
  have e : (vc64 L).nbb = 0.725 / Fl.powf (vc64 L).backgroundYToWhitePointY 0.2 := rfl
  have e' : vcR.nbb = 0.725 / vcR.backgroundYToWhitePointY ^ (0.2 : ℝ) := rfl
  rw [e, e']
  have l2 : Ap (0.2 : 𝔻) (0.2 : ℝ) (1 / 10 ^ 15) := ap_lit_small (by norm_num [abs_le])
  exact (nr_lit (L := L) (m := 725) (s := true) (e := 3) 1 (by norm_num) (by norm_num) (by norm_num)).div
    (nr_n.pow hL l2 (22 / 10 ^ 14) (by norm_num) (by norm_num) (by norm_num) (by rw [nR]; norm_num) (by norm_num) (by norm_num) (by norm_num)) _ (by norm_num) (by norm_num) (by norm_num)

/-- The compression of a cone response: 400x / (x + 27.13). -/
theorem nr_response {x : 𝔻} {t ε : ℝ} {n : ℕ} (hx : Nr x t ε n) (η : ℝ) (hη : 2.3 * ε + 6 / 10 ^ 15 ≤ η) (h1 : η ≤ 1 / 10000) (h0 : 2 / 10 ^ 15 ≤ ε) (hn : n ≤ 10) :
    Nr (400.0 * x / (x + 27.13)) (400.0 * t / (t + 27.13)) η (3 + n + (n + 3)) := by
  have l400 : Nr (400.0 : 𝔻) (400.0 : ℝ) (1 / 10 ^ 15) 3 := nr_lit 3 (by norm_num) (by norm_num) (by norm_num)
  have l27 : Nr (27.13 : 𝔻) (27.13 : ℝ) (1 / 10 ^ 15) 2 := nr_lit 2 (by norm_num) (by norm_num) (by norm_num)
  have e1 : ε ≤ 1 / 10000 := by norm_num at hη h1 ⊢; linarith
  have a := l400.mul hx (ε + 3 / 10 ^ 15) (by norm_num at e1 ⊢; linarith) (by norm_num at e1 ⊢; linarith) (by omega)
  have b := hx.add l27 (n + 3) (ε + 1 / 10 ^ 15) le_rfl (by linarith) (by norm_num at e1 ⊢; linarith) (by omega) (by omega) (by omega)
  exact a.div b η (by norm_num at hη e1 ⊢; linarith) (by linarith) (by omega)

theorem nr_coneOf (hL : L.PowOk) {d w : 𝔻} {D W : ℝ} (hd : Nr d D (1 / 10 ^ 12) 1) (hw : Nr w W (1 / 10 ^ 14) 3) (h0 : 0.3 ≤ vcR.fl * D * W / 100.0) (h1 : vcR.fl * D * W / 100.0 ≤ 0.6) :
    Nr (coneOf L d w) (400.0 * (vcR.fl * D * W / 100.0) ^ (0.42 : ℝ) / ((vcR.fl * D * W / 100.0) ^ (0.42 : ℝ) + 27.13)) (4 / 10 ^ 12) 2 := by
  have l100' : Nr (100.0 : 𝔻) (100.0 : ℝ) (1 / 10 ^ 15) 2 := nr_lit 2 (by norm_num) (by norm_num) (by norm_num)
  have a := ((((nr_fl hL).mul hd (21 / 10 ^ 13) (by norm_num) (by norm_num) (by norm_num)).mul hw (22 / 10 ^ 13) (by norm_num) (by norm_num) (by norm_num)).div l100' (25 / 10 ^ 13) (by norm_num) (by norm_num) (by norm_num)).to
    (25 / 10 ^ 13) 1 le_rfl (by norm_num at h0 h1 ⊢; linarith) (by norm_num at h0 h1 ⊢; linarith)
  have p := a.pow hL (ap_lit_small (m := 42) (s := true) (e := 2) (by norm_num [abs_le])) (165 / 10 ^ 14) (by norm_num) (by norm_num) (by norm_num) (by norm_num at h0 ⊢; linarith) (by norm_num) (by norm_num) (by norm_num)
  have r := nr_response p (4 / 10 ^ 12) (by norm_num) (by norm_num) (by norm_num) (by norm_num)
  have q0 : 0.3 ≤ (vcR.fl * D * W / 100.0) ^ (0.42 : ℝ) := by
    calc (0.3 : ℝ) ≤ vcR.fl * D * W / 100.0 := h0
      _ = (vcR.fl * D * W / 100.0) ^ (1 : ℝ) := (rpow_one _).symm
      _ ≤ _ := rpow_le_rpow_of_exponent_ge (by norm_num at h0; linarith) (by norm_num at h1 ⊢; linarith) (by norm_num)
  have q1 : (vcR.fl * D * W / 100.0) ^ (0.42 : ℝ) ≤ 1 := rpow_le_one (by norm_num at h0; linarith) (by norm_num at h1 ⊢; linarith) (by norm_num)
  unfold coneOf
  refine r.to _ 2 le_rfl ?_ ?_
  · generalize (vcR.fl * D * W / 100.0) ^ (0.42 : ℝ) = x at q0 q1
    rw [le_div_iff₀ (by norm_num at q0 ⊢; linarith)]; norm_num at q0 ⊢; linarith
  · generalize (vcR.fl * D * W / 100.0) ^ (0.42 : ℝ) = x at q0 q1
    rw [div_le_iff₀ (by norm_num at q0 ⊢; linarith)]; norm_num at q0 ⊢; linarith

theorem stimulus_bounds {f d w f0 f1 d0 d1 : ℝ} (hf : f0 < f ∧ f < f1) (hd : d0 < d ∧ d < d1) (hf0 : 0 < f0) (hd0 : 0 < d0) (hw : 0 < w)
    (h0 : 0.3 ≤ f0 * d0 * w / 100.0) (h1 : f1 * d1 * w / 100.0 ≤ 0.6) : 0.3 ≤ f * d * w / 100.0 ∧ f * d * w / 100.0 ≤ 0.6 := by
  have fp : 0 < f := hf0.trans hf.1
  have fp1 : 0 < f1 := fp.trans hf.2
  constructor
  · refine h0.trans ?_
    have := hf.1.le; have := hd.1.le
    gcongr
  · refine le_trans ?_ h1
    have := hf.2.le; have := hd.2.le
    have : 0 < f := hf0.trans hf.1
    have : 0 < d := hd0.trans hd.1
    gcongr

theorem nr_cones (hL : L.PowOk) (hE : L.ExpOk) :
    Nr (coneOf L (vc64 L).rgbD.x0 (white L).x0) (400.0 * (vcR.fl * vcR.rgbD.x0 * whiteR.x0 / 100.0) ^ (0.42 : ℝ) / ((vcR.fl * vcR.rgbD.x0 * whiteR.x0 / 100.0) ^ (0.42 : ℝ) + 27.13)) (4 / 10 ^ 12) 2 ∧
    Nr (coneOf L (vc64 L).rgbD.x1 (white L).x1) (400.0 * (vcR.fl * vcR.rgbD.x1 * whiteR.x1 / 100.0) ^ (0.42 : ℝ) / ((vcR.fl * vcR.rgbD.x1 * whiteR.x1 / 100.0) ^ (0.42 : ℝ) + 27.13)) (4 / 10 ^ 12) 2 ∧
    Nr (coneOf L (vc64 L).rgbD.x2 (white L).x2) (400.0 * (vcR.fl * vcR.rgbD.x2 * whiteR.x2 / 100.0) ^ (0.42 : ℝ) / ((vcR.fl * vcR.rgbD.x2 * whiteR.x2 / 100.0) ^ (0.42 : ℝ) + 27.13)) (4 / 10 ^ 12) 2 := by
  obtain ⟨d0, d1, d2⟩ := rgbD_bounds
  have fb := fl_bounds
  obtain ⟨w0, w1, w2⟩ := whiteR_val
  obtain ⟨a, b, c⟩ := nr_white (L := L)
  obtain ⟨a', b', c'⟩ := nr_rgbD hE
  have s0 := stimulus_bounds (w := whiteR.x0) fb d0 (by norm_num) (by norm_num) (by rw [w0]; norm_num) (by rw [w0]; norm_num) (by rw [w0]; norm_num)
  have s1 := stimulus_bounds (w := whiteR.x1) fb d1 (by norm_num) (by norm_num) (by rw [w1]; norm_num) (by rw [w1]; norm_num) (by rw [w1]; norm_num)
  have s2 := stimulus_bounds (w := whiteR.x2) fb d2 (by norm_num) (by norm_num) (by rw [w2]; norm_num) (by rw [w2]; norm_num) (by rw [w2]; norm_num)
  exact ⟨nr_coneOf hL a' a s0.1 s0.2, nr_coneOf hL b' b s1.1 s1.2, nr_coneOf hL c' c s2.1 s2.2⟩

theorem nr_aw (hL : L.PowOk) (hE : L.ExpOk) : Nr (vc64 L).aw vcR.aw (6 / 10 ^ 12) 13 := by
  obtain ⟨a, b, c⟩ := nr_cones hL hE
  have e : (vc64 L).aw = (40.0 * coneOf L (vc64 L).rgbD.x0 (white L).x0 + 20.0 * coneOf L (vc64 L).rgbD.x1 (white L).x1 + coneOf L (vc64 L).rgbD.x2 (white L).x2) / 20.0 * (vc64 L).nbb := rfl
  rw [e]
  have l40 : Nr (40.0 : 𝔻) (40.0 : ℝ) (1 / 10 ^ 15) 2 := nr_lit 2 (by norm_num) (by norm_num) (by norm_num)
  have l20 : Nr (20.0 : 𝔻) (20.0 : ℝ) (1 / 10 ^ 15) 2 := nr_lit 2 (by norm_num) (by norm_num) (by norm_num)
  have s := (l40.mul a (41 / 10 ^ 13) (by norm_num) (by norm_num) (by norm_num)).add (l20.mul b (41 / 10 ^ 13) (by norm_num) (by norm_num) (by norm_num)) 5 (42 / 10 ^ 13) (by norm_num) (by norm_num) (by norm_num) (by norm_num) (by norm_num) (by norm_num)
  have s2 := (s.add c 6 (43 / 10 ^ 13) (by norm_num) (by norm_num) (by norm_num) (by norm_num) (by norm_num) (by norm_num)).div l20 (5 / 10 ^ 12) (by norm_num) (by norm_num) (by norm_num)
  have r := s2.mul (nr_nbb hL) (6 / 10 ^ 12) (by norm_num) (by norm_num) (by norm_num)
  exact r.to _ 13 le_rfl ((inv_ten_le (by norm_num)).trans r.lo) (r.hi.trans (ten_pow_le (by norm_num)))

theorem nr_fLroot (hL : L.PowOk) : Nr (vc64 L).fLroot vcR.fLroot (6 / 10 ^ 13) 3 := by
  have e : (vc64 L).fLroot = Fl.powf (vc64 L).fl 0.25 := rfl
  have e' : vcR.fLroot = vcR.fl ^ (0.25 : ℝ) := rfl
  rw [e, e']
  have h := fl_bounds
  have l25 : Ap (0.25 : 𝔻) (0.25 : ℝ) (1 / 10 ^ 15) := ap_lit_small (by norm_num [abs_le])
  exact (nr_fl hL).pow hL l25 _ (by norm_num) (by norm_num) (by norm_num) (by norm_num at h ⊢; linarith) (by norm_num) (by norm_num) (by norm_num)

end Mcu.Lemmas
