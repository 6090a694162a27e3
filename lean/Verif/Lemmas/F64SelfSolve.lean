import Verif.Lemmas.F64SelfAim
import Verif.Lemmas.F64Channel

/-! The search in IEEE-754 binary64 for the hue, chroma and tone of a colour ends at the colour. -/

namespace Mcu.Lemmas

open Mcu.Ieee Props Props.Binary64 MathUtils ColorUtils HctSolver Real

variable {L : Libm}

local notation "𝔻" => F64 L

theorem lum_range {argb : Int} (h : NotBlack argb) (hw : NotWhite argb) : 0.00218 ≤ lumR argb ∧ lumR argb ≤ 99.978 := by
  obtain ⟨hr, hg, hbl⟩ := channel_range argb
  have hr' := linearized_range _ hr.1 hr.2
  have hg' := linearized_range _ hg.1 hg.2
  have hb' := linearized_range _ hbl.1 hbl.2
  have s := lin_sum' h
  have w := mix_white hw (a := 0.2126) (b := 0.7152) (c := 0.0722) (by norm_num) (by norm_num) (by norm_num)
  unfold lumR
  constructor
  · norm_num at s ⊢; linarith [hr'.1, hg'.1, hb'.1]
  · norm_num at w ⊢; linarith

/-- The luminance computed from the computed tone. -/
theorem y_self (hL : L.PowOk) {argb : Int} (h : NotBlack argb) (hw : NotWhite argb) :
    ∃ η, Is (yFromLstar (lstarFromArgb argb : 𝔻)) η ∧ |η - lumR argb| ≤ 3 / 10 ^ 11 * lumR argb := by
  obtain ⟨l0, l1⟩ := lum_range h hw
  have e : (xyzFromArgb argb : Vec3 ℝ).x1 = lumR argb := luminance_eq argb
  obtain ⟨-, n, -⟩ := nr_xyz hL h
  rw [e] at n
  have l100' : Is (100.0 : 𝔻) 100 := l100
  have lp : 0 < lumR argb := lt_of_lt_of_le (by norm_num) l0
  obtain ⟨τ, iτ, hτ⟩ := n.rl.div l100'.rl lp (by norm_num) (by norm_num) le_rfl (by norm_num at l0 ⊢; linarith) (by norm_num at l1 ⊢; linarith) (by norm_num) (3 / 10 ^ 13) (by norm_num)
  have hτ' := abs_le.1 hτ
  have τ0 : 2.08 / 10 ^ 5 ≤ τ := by norm_num at hτ' l0 ⊢; linarith
  have τ1 : τ ≤ 1.0001 := by norm_num at hτ' l1 ⊢; linarith
  have τp : 0 < τ := lt_of_lt_of_le (by norm_num) τ0
  obtain ⟨θ, iθ, hθ⟩ := tone_sharp hL iτ τ0 τ1
  have hθ2 := rel_trans hθ hτ (by positivity) (by norm_num) (η := 2.1 / 10 ^ 11) (by norm_num)
  have r : Rl (labInvf ((116.0 * labF ((xyzFromArgb argb : Vec3 𝔻).x1 / 100.0) - 16.0 + 16.0) / 116.0) : 𝔻) (lumR argb / 100) (2.1 / 10 ^ 11) := ⟨θ, iθ, hθ2⟩
  obtain ⟨η, iη, hη⟩ := l100'.rl.mul r (by norm_num) (by positivity) le_rfl (by norm_num) (by norm_num at l0 ⊢; linarith) (by norm_num at l1 ⊢; linarith) (by norm_num) (3 / 10 ^ 11) (by norm_num)
  rw [mul_div_cancel₀ _ (by norm_num : (100 : ℝ) ≠ 0)] at hη
  exact ⟨η, iη, hη⟩

/-- The first lightness tried. -/
theorem first_self {y : 𝔻} {η : ℝ} (iy : Is y η) (h0 : 0.002 ≤ η) (h1 : η ≤ 100) :
    ∃ a, Is (Fl.sqrt y * 11.0) a ∧ 0 < a ∧ |log a - log (sqrt η * 11)| ≤ 1e-12 ∧ log a ≤ log 148.4 := by
  have i11 : Is (11.0 : 𝔻) 11 := by simpa using lit (L := L) 110 1 true 11 (by norm_num) (by norm_num)
  have s0 : 0.04 ≤ Real.sqrt η := Real.le_sqrt_of_sq_le (by norm_num at *; linarith)
  have s1 : Real.sqrt η ≤ 10 := by rw [Real.sqrt_le_left (by norm_num)]; norm_num at *; linarith
  have sp : 0 < Real.sqrt η := lt_of_lt_of_le (by norm_num) s0
  have r := (iy.rl.sqrt le_rfl (by norm_num) (le_trans (by norm_num) s0) (s1.trans (by norm_num)) (1 / 10 ^ 15) (by norm_num)).mul i11.rl sp (by norm_num) (by norm_num) le_rfl
    (by norm_num at s0 ⊢; linarith) (by norm_num at s1 ⊢; linarith) (by norm_num) (3 / 10 ^ 15) (by norm_num)
  obtain ⟨a, ia, ha⟩ := r
  have tp : 0 < Real.sqrt η * 11 := by positivity
  have hl := log_near tp ha (by norm_num)
  have ha' := abs_le.1 ha
  generalize Real.sqrt η = s at *
  have a0 : 0 < a := by norm_num at ha' s0; linarith
  refine ⟨a, ia, a0, hl.trans (by norm_num), log_le_log a0 ?_⟩
  norm_num at ha' s1 ⊢; linarith

/-- The colour is a target of the search. -/
theorem aim_self (hS : L.Sound) (hT : L.TempOk) {argb : Int} (h : NotBlack argb) (hw : NotWhite argb) {hr : 𝔻} (hh : SelfHue L argb hr) {η v0 : ℝ}
    (hη : |η - lumR argb| ≤ 3 / 10 ^ 11 * lumR argb) (hv : |v0 - log (sqrt η * 11)| ≤ 1e-12) :
    Aim (ray64 hr (chr64 L argb)) (wRatio L) v0 (Dbl.val (j64 L argb)) η
      (linearized (redFromArgb argb)) (linearized (greenFromArgb argb)) (linearized (blueFromArgb argb)) := by
  have hL := hS.pow
  have hE := hS.exp
  obtain ⟨l0, l1⟩ := lum_range h hw
  obtain ⟨ij, j0, j1⟩ := j_self hL hE h hw
  obtain ⟨here, c0, c1, c2⟩ := self_here hS hT h hh
  obtain ⟨hrd, hg, hbl⟩ := channel_range argb
  have hr' := linearized_range _ hrd.1 hrd.2
  have hg' := linearized_range _ hg.1 hg.2
  have hb' := linearized_range _ hbl.1 hbl.2
  have up : 9e-10 * lumR argb ≤ 1e-9 * η := by
    have := abs_le.1 hη
    norm_num at this l0 ⊢; linarith
  refine ⟨⟨(wRatio_bounds hL hE).1, wRatio_le hL hE, fun a ha => ray64_P _ _ ha⟩, lt_of_lt_of_le (by norm_num) j0, here, c0.trans up, c1.trans up, c2.trans up,
    hr'.1, hr'.2, hg'.1, hg'.2, hb'.1, hb'.2, ?_, ?_, ?_, j1.trans (by norm_num), hv⟩
  · change |η - lumR argb| ≤ _
    refine hη.trans ?_
    have := abs_le.1 hη
    norm_num at this l0 ⊢; linarith
  · have := abs_le.1 hη
    norm_num at this l0 ⊢; linarith
  · have := abs_le.1 hη
    norm_num at this l1 ⊢; linarith

/-- The search ends at the colour. -/
theorem found_self (hS : L.Sound) (hT : L.TempOk) {argb : Int} (h : NotBlack argb) (hw : NotWhite argb) {hr : 𝔻} (hh : SelfHue L argb hr) :
    findResultByJ hr (chr64 L argb) (yFromLstar (lstarFromArgb argb : 𝔻)) = 0xFF000000 + argb % 2 ^ 24 := by
  have hL := hS.pow
  have hE := hS.exp
  obtain ⟨l0, l1⟩ := lum_range h hw
  obtain ⟨hrd, hg, hbl⟩ := channel_range argb
  obtain ⟨η, iη, hη⟩ := y_self hL h hw
  have hη' := abs_le.1 hη
  obtain ⟨a, ia, a0, hv, hi⟩ := first_self iη (by norm_num at hη' l0 ⊢; linarith) (by norm_num at hη' l1 ⊢; linarith)
  have A := aim_self hS hT h hw hh hη hv
  obtain ⟨fine, -⟩ := self_fine hS hT h hh
  obtain ⟨ij, j0, -⟩ := j_self hL hE h hw
  obtain ⟨plo, phi, S, F⟩ := A.found (lin_Code hrd.1 hrd.2) (lin_Code hg.1 hg.2) (lin_Code hbl.1 hbl.2)
  obtain ⟨v, p, X0, X1, X2, f, st, -, seen, res⟩ := S.loop64 hL hE fine iη (log_le_log (by norm_num) (le_trans (by norm_num) j0)) hi 4 (log a) _ (by rw [exp_log a0]; exact ia)
    (Set.right_mem_Icc.2 S.beg.le) A.above
  obtain ⟨-, -, g0, g1, g2⟩ := F v st
  have t0 := g0.top; have t1 := g1.top; have t2 := g2.top
  have hY : (ray64 hr (chr64 L argb)).Y v ≤ 101 := by rw [Ray.Y_eq]; norm_num at t0 t1 t2 ⊢; linarith
  have e0 := abs_le.1 seen.e0; have e1 := abs_le.1 seen.e1; have e2 := abs_le.1 seen.e2
  have x0 := seen.p0; have x1 := seen.p1; have x2 := seen.p2
  have b0 : X0 ≤ 100.00991 := by norm_num at e0 t0 hY ⊢; linarith
  have b1 : X1 ≤ 100.00991 := by norm_num at e1 t1 hY ⊢; linarith
  have b2 : X2 ≤ 100.00991 := by norm_num at e2 t2 hY ⊢; linarith
  have top {x : 𝔻} {X : ℝ} (i : Is x X) (hX : X ≤ 100.00991) : ¬ x > 100.01 := by
    have l : Nr (100.01 : 𝔻) (100.01 : ℝ) (1 / 10 ^ 15) 3 := nr_lit 3 (by norm_num) (by norm_num) (by norm_num)
    obtain ⟨il, el⟩ := l.val
    rw [gt_iff_lt, il.lt_iff i]
    have el := abs_le.1 el
    generalize Dbl.val (100.01 : 𝔻) = c at *
    norm_num at el hX ⊢; linarith
  rw [if_neg (by push Not; exact ⟨top seen.i0 b0, top seen.i1 b1, top seen.i2 b2⟩)] at res
  have ip : IsV p ![X0, X1, X2] := by
    intro i; fin_cases i
    · exact seen.i0
    · exact seen.i1
    · exact seen.i2
  obtain ⟨w, ew, hw', -⟩ := color64 hL ip (by intro i; fin_cases i <;> simp <;> linarith) (by intro i; fin_cases i <;> simp <;> norm_num at * <;> linarith)
  have w0 := hw' 0; have w1 := hw' 1; have w2 := hw' 2
  change |w.x0 - max X0 0| ≤ _ at w0
  change |w.x1 - max X1 0| ≤ _ at w1
  change |w.x2 - max X2 0| ≤ _ at w2
  rw [max_eq_left x0] at w0
  rw [max_eq_left x1] at w1
  rw [max_eq_left x2] at w2
  have w0 := abs_le.1 w0; have w1 := abs_le.1 w1; have w2 := abs_le.1 w2
  have f0 := g0.fair (L := w.x0) (by rw [abs_le]; norm_num at w0 e0 hY ⊢; constructor <;> linarith)
  have f1 := g1.fair (L := w.x1) (by rw [abs_le]; norm_num at w1 e1 hY ⊢; constructor <;> linarith)
  have f2 := g2.fair (L := w.x2) (by rw [abs_le]; norm_num at w2 e2 hY ⊢; constructor <;> linarith)
  unfold findResultByJ
  rw [res, ew, argbFromLinrgb, delinearized_good hrd.1 hrd.2 f0, delinearized_good hg.1 hg.2 f1, delinearized_good hbl.1 hbl.2 f2]
  simp only [argbFromRgb, redFromArgb, greenFromArgb, blueFromArgb]
  omega

/-- What the solver makes of the hue of a colour, or of a hue that differs from it by whole turns. -/
theorem selfHue_of (hS : L.Sound) (hT : L.TempOk) {argb : Int} (h : NotBlack argb) {h' : 𝔻} {H' : ℝ} (i' : Is h' H') (h0 : 0 ≤ H') {k : ℤ}
    (hk : H' = Dbl.val (hue64 L argb) + 360 * k) : SelfHue L argb (radians h') := by
  have s := sound_cones hS.pow hS.exp h
  obtain ⟨a, ia, -⟩ := s.oa
  obtain ⟨b, ib, -⟩ := s.ob
  have ρ0 : 0 < rhoV L argb := (rho_sharp hS.pow hS.exp h).pos
  have z0 : ¬ (a = 0 ∧ b = 0) := by
    rintro ⟨rfl, rfl⟩
    unfold rhoV at ρ0
    rw [ia.2, ib.2] at ρ0; simp at ρ0
  obtain ⟨H, -, iH, -, -, -⟩ := hue_chain hS hT ia ib z0
  have iH : Is (hue64 L argb) H := iH
  rw [iH.2] at hk
  obtain ⟨r, m, ir, r0, r1, er⟩ := rad_chain i' h0
  refine ⟨H, r, m + k, iH, ir, r0, r1, ?_⟩
  rw [hk] at er
  push_cast
  have e : H * (π / 180) + (m + k) * (2 * π) = (H + 360 * k) * (π / 180) + m * (2 * π) := by ring
  rwa [e]

/-- The computed hue is a number in `[0, 360]`. -/
theorem hue_self (hS : L.Sound) (hT : L.TempOk) {argb : Int} (h : NotBlack argb) : ∃ H, Is (hue64 L argb) H ∧ 0 ≤ H ∧ H ≤ 360 := by
  have s := sound_cones hS.pow hS.exp h
  obtain ⟨a, ia, -⟩ := s.oa
  obtain ⟨b, ib, -⟩ := s.ob
  have ρ0 : 0 < rhoV L argb := (rho_sharp hS.pow hS.exp h).pos
  have z0 : ¬ (a = 0 ∧ b = 0) := by
    rintro ⟨rfl, rfl⟩
    unfold rhoV at ρ0
    rw [ia.2, ib.2] at ρ0; simp at ρ0
  obtain ⟨H, -, iH, H0, H1, -⟩ := hue_chain hS hT ia ib z0
  exact ⟨H, iH, H0, H1⟩

end Mcu.Lemmas
