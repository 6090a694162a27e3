import Verif.Lemmas.F64Viewing
import Verif.Lemmas.F64Relative
import Verif.Lemmas.Gamut

/-! The stimuli behind adapted cone responses, in binary64. -/

namespace Mcu.Lemmas

open Mcu.Ieee Props Props.Binary64 MathUtils ColorUtils HctSolver Real

variable {L : Libm}

local notation "𝔻" => F64 L

theorem log_within {t : ℝ} (n : ℕ) (h0 : 1 / 10 ^ n ≤ t) (h1 : t ≤ 10 ^ n) : |Real.log t| ≤ 2.5 * n := by
  have h10 : Real.log 10 ≤ 2.5 := by
    have : Real.log (10 ^ 2) ≤ 5 := by
      rw [Real.log_le_iff_le_exp (by norm_num)]
      have h : (2.7 : ℝ) ≤ Real.exp 1 := by have := Real.exp_one_gt_d9; norm_num at *; linarith
      calc ((10 : ℝ) ^ 2) ≤ 2.7 ^ 5 := by norm_num
        _ ≤ Real.exp 1 ^ 5 := pow_le_pow_left₀ (by norm_num) h _
        _ = _ := by rw [← Real.exp_nat_mul]; norm_num
    rw [Real.log_pow] at this
    norm_num at this ⊢; linarith
  have tp : 0 < t := lt_of_lt_of_le (by positivity) h0
  have e : Real.log ((10 : ℝ) ^ n) = n * Real.log 10 := Real.log_pow _ _
  have hn : (0 : ℝ) ≤ n := Nat.cast_nonneg n
  have h2 : (n : ℝ) * Real.log 10 ≤ 2.5 * n := by rw [mul_comm]; exact mul_le_mul_of_nonneg_right h10 hn
  rw [abs_le]
  constructor
  · have := Real.log_le_log (by positivity) h0
    rw [one_div, Real.log_inv, e] at this
    linarith
  · have := Real.log_le_log tp h1
    rw [e] at this
    linarith

/-! ### NaN and infinities -/

/-- NaN. -/
def nanD (L : Libm) : F64 L := Dbl.nan

/-- An infinity. -/
def infD (L : Libm) (s : Bool) : F64 L := Dbl.inf s

theorem mul_nan (x : 𝔻) : x * nanD L = nanD L := by
  show Dbl.mul x Dbl.nan = Dbl.nan
  rcases x with _ | s | s | _ <;> rfl

theorem nan_mul (x : 𝔻) : nanD L * x = nanD L := by
  show Dbl.mul Dbl.nan x = Dbl.nan
  rcases x with _ | s | s | _ <;> rfl

theorem add_nan (x : 𝔻) : x + nanD L = nanD L := by
  show Dbl.add x Dbl.nan = Dbl.nan
  rcases x with _ | s | s | _ <;> rfl

theorem nan_add (x : 𝔻) : nanD L + x = nanD L := by
  show Dbl.add Dbl.nan x = Dbl.nan
  rcases x with _ | s | s | _ <;> rfl

theorem sub_nan (x : 𝔻) : x - nanD L = nanD L := add_nan x

theorem nan_sub (x : 𝔻) : nanD L - x = nanD L := nan_add (L := L) (Dbl.neg x)

theorem div_nan (x : 𝔻) : x / nanD L = nanD L := by
  show Dbl.div x Dbl.nan = Dbl.nan
  rcases x with _ | s | s | _ <;> rfl

theorem nan_div (x : 𝔻) : nanD L / x = nanD L := by
  show Dbl.div Dbl.nan x = Dbl.nan
  rcases x with _ | s | s | _ <;> rfl

theorem not_nan_lt (x : 𝔻) : ¬ x < nanD L := fun h => by
  have h : Dbl.lt x Dbl.nan := h
  exact absurd h.2.1 (by simp [Dbl.isNan])

theorem not_lt_nan (x : 𝔻) : ¬ nanD L < x := fun h => by
  have h : Dbl.lt Dbl.nan x := h
  exact absurd h.1 (by simp [Dbl.isNan])

theorem dbl_fmax_left (z w : Dbl) (hz : z.isNan = false) (h : ¬ Dbl.lt z w) : Dbl.fmax z w = z := by
  unfold Dbl.fmax
  rw [hz]
  by_cases hw : w.isNan = true
  · rw [if_neg (by simp), if_pos hw]
  · rw [if_neg (by simp), if_neg hw, if_neg h]

theorem dbl_fmax_right (z w : Dbl) (hz : z.isNan = false) (hw : w.isNan = false) (h : Dbl.lt z w) : Dbl.fmax z w = w := by
  unfold Dbl.fmax
  rw [hz, hw, if_neg (by simp), if_neg (by simp), if_pos h]

/-- The larger of 0 and a number that is not larger, or NaN. -/
theorem fmax_zero {z : 𝔻} (h : ¬ (0.0 : 𝔻) < z) : Fl.fmax (0.0 : 𝔻) z = 0.0 :=
  dbl_fmax_left _ _ (fin_num (l0' (L := L)).1) h

theorem dbl_ofReal_nonpos {z : Dbl} (hz : z.Fin) (z0 : z.val = 0) {v : ℝ} (s : Bool) (h : v ≤ 0) : ¬ Dbl.lt z (Dbl.ofReal s v) := by
  rintro ⟨-, -, hl⟩
  have hr : rnd v ≤ 0 := by
    have := rnd_nonneg (neg_nonneg.2 h)
    rw [rnd_neg] at this
    linarith
  have hz' : z.ext = 0 := by
    rcases z with _ | s | s | ⟨v, hv⟩
    · exact hz.elim
    · exact hz.elim
    · rfl
    · exact absurd z0 hv.2.1
  rw [hz'] at hl
  by_cases h0 : rnd v = 0
  · have e : Dbl.ofReal s v = Dbl.zero s := by unfold Dbl.ofReal; rw [dif_pos h0]
    rw [e] at hl
    simp [Dbl.ext, Dbl.val] at hl
  · by_cases hb : |rnd v| < 2 ^ 1024
    · have e : Dbl.ofReal s v = Dbl.num (rnd v) ⟨rep_rnd v, h0, hb⟩ := by unfold Dbl.ofReal; rw [dif_neg h0, dif_pos hb]
      rw [e] at hl
      have hl : ((0 : ℝ) : EReal) < (rnd v : EReal) := hl
      rw [EReal.coe_lt_coe_iff] at hl
      linarith
    · have hv : v < 0 := lt_of_le_of_ne h (fun e => h0 (by rw [e, rnd_zero]))
      have e : Dbl.ofReal s v = Dbl.inf true := by
        unfold Dbl.ofReal
        rw [dif_neg h0, dif_neg hb]
        simp [hv]
      rw [e] at hl
      simp [Dbl.ext] at hl

theorem dbl_div_nonpos {z u w : Dbl} (hz : z.Fin) (z0 : z.val = 0) (hu : u.Fin ∧ 0 ≤ u.val ∨ u = Dbl.inf false) (hw : w.Fin) (w0 : w.val < 0) :
    ¬ Dbl.lt z (Dbl.div u w) := by
  rcases w with _ | t | t | ⟨w, hw'⟩
  · exact hw.elim
  · exact hw.elim
  · exact absurd w0 (by simp [Dbl.val])
  · have w0 : w < 0 := w0
    rcases hu with ⟨hu, u0⟩ | rfl
    · rcases u with _ | s | s | ⟨v, hv⟩
      · exact hu.elim
      · exact hu.elim
      · exact dbl_ofReal_nonpos hz z0 _ (by simp [Dbl.val])
      · exact dbl_ofReal_nonpos hz z0 _ (div_nonpos_of_nonneg_of_nonpos (show 0 ≤ v from u0) w0.le)
    · have hs : (Dbl.num w hw').neg? = true := by simp [Dbl.neg?, w0]
      have e : Dbl.div (Dbl.inf false) (Dbl.num w hw') = Dbl.inf true := by
        show Dbl.inf (xor false (Dbl.num w hw').neg?) = _
        rw [hs]; rfl
      rw [e]
      rintro ⟨-, -, hl⟩
      simp [Dbl.ext] at hl

/-- A product of positive numbers that is too large. -/
theorem dbl_mul_over {u x : Dbl} (hu : u.Fin) (hx : x.Fin) (hp : 0 < u.val * x.val) (h : ¬ (Dbl.mul u x).Fin) : Dbl.mul u x = Dbl.inf false := by
  rcases u with _ | s | s | ⟨v, hv⟩
  · exact hu.elim
  · exact hu.elim
  · simp [Dbl.val] at hp
  rcases x with _ | t | t | ⟨w, hw⟩
  · exact hx.elim
  · exact hx.elim
  · simp [Dbl.val] at hp
  have hp : 0 < v * w := hp
  have e : Dbl.mul (Dbl.num v hv) (Dbl.num w hw) = Dbl.ofReal (xor (Dbl.num v hv).neg? (Dbl.num w hw).neg?) (v * w) := rfl
  rw [e] at h ⊢
  unfold Dbl.ofReal at h ⊢
  by_cases g1 : rnd (v * w) = 0
  · rw [dif_pos g1] at h; exact absurd trivial h
  · by_cases g2 : |rnd (v * w)| < 2 ^ 1024
    · rw [dif_neg g1, dif_pos g2] at h; exact absurd trivial h
    · rw [dif_neg g1, dif_neg g2]
      simp [hp.le]

/-- A positive number divided by zero. -/
theorem dbl_div_zero {u : Dbl} (hu : u.Fin) (u0 : 0 < u.val) : Dbl.div u (Dbl.zero false) = Dbl.inf false := by
  rcases u with _ | t | t | ⟨w, hw⟩
  · exact hu.elim
  · exact hu.elim
  · exact absurd u0 (by simp [Dbl.val])
  · have u0 : 0 < w := u0
    show Dbl.inf (xor (Dbl.num w hw).neg? false) = _
    have : (Dbl.num w hw).neg? = false := by simp [Dbl.neg?, u0.le]
    rw [this]; rfl

theorem dbl_lt_top {z : Dbl} (f : z.Fin) : z.ext < (Dbl.inf false).ext := by
  rcases z with _ | t | t | ⟨w, hw⟩
  · exact f.elim
  · exact f.elim
  · simp [Dbl.ext, Dbl.val]
  · simp only [Dbl.ext]; exact EReal.coe_lt_top _

theorem dbl_sub_self {u x : Dbl} (hu : u.Fin) (hx : x.Fin) (u0 : 0 < u.val) (h : u.val = x.val) : Dbl.sub u x = Dbl.zero false := by
  rcases u with _ | t | t | ⟨w, hw⟩
  · exact hu.elim
  · exact hu.elim
  · exact absurd u0 (by simp [Dbl.val])
  have u0 : 0 < w := u0
  rcases x with _ | s | s | ⟨v, hv⟩
  · exact hx.elim
  · exact hx.elim
  · exact absurd h u0.ne'
  have h : w = v := h
  subst h
  have e : (Dbl.num w hw).neg? = false := by simp [Dbl.neg?, u0.le]
  show Dbl.add (Dbl.num w hw) (Dbl.num (-w) _) = _
  simp [Dbl.add, Dbl.val, e]

/-! ### The inverse adaptation -/

/-- The base of the power, hct_solver.rs 559. -/
noncomputable def baseOf (x : 𝔻) : 𝔻 := Fl.fmax 0.0 (27.13 * x / (400.0 - x))

theorem ica_eq (A : 𝔻) : inverseChromaticAdaptation A = Fl.ofInt (signum A) * Fl.powf (baseOf (Fl.abs A)) (1.0 / 0.42) := rfl

theorem rl_exponent : Rl (1.0 / 0.42 : 𝔻) (1 / 0.42) (5 / 10 ^ 15) :=
  (l1 (L := L)).rl.div (rl_lit (m := 42) (s := true) (e := 2) 0.42 (by norm_num) (by norm_num) (by norm_num)) (by norm_num) (by norm_num)
    (by norm_num) (by norm_num) (by norm_num) (by norm_num) (by norm_num) _ (by norm_num)

theorem ap_exponent : Ap (1.0 / 0.42 : 𝔻) (1 / 0.42) (2 / 10 ^ 14) := by
  obtain ⟨v, iv, hv⟩ := rl_exponent (L := L)
  exact ⟨v, iv, hv.trans (by norm_num)⟩

theorem pow_zero64 (hT : L.PowTail) {x : 𝔻} (hx : Is x 0) : Is (Fl.powf x (1.0 / 0.42 : 𝔻)) 0 := by
  obtain ⟨e, ie, he⟩ := ap_exponent (L := L)
  have he := abs_le.1 he
  norm_num at he
  have := hT.small x (1.0 / 0.42 : 𝔻) hx.1 ie.1 (by rw [hx.2]) (by rw [hx.2]; norm_num) (by rw [ie.2]; norm_num; linarith) (by rw [ie.2]; linarith)
  exact ⟨this.1, this.2.2.2 hx.2⟩

/-- Responses above 400 are taken for 0. -/
theorem base_large {x : 𝔻} {β : ℝ} (hx : Is x β) (h : 400 < β) : baseOf x = 0.0 := by
  apply fmax_zero
  obtain ⟨c, ic, hc⟩ := ap_lit (L := L) (m := 2713) (s := true) (e := 2) (v := 27.13) rfl (by norm_num [abs_of_pos])
  change Is (27.13 : 𝔻) c at ic
  have hc := abs_le.1 hc
  unfold ρ at hc
  have c0 : 0 < c := by norm_num at hc; linarith
  have i4 : Is (400.0 : 𝔻) 400 := by simpa using lit (L := L) 4000 1 true 400 (by norm_num) (by norm_num)
  -- the difference is negative
  have hw : ∃ w, Is (400.0 - x) w ∧ w < 0 := by
    have hb : |β| < 2 ^ 1024 := by
      obtain ⟨f, rfl⟩ := hx
      rcases x with _ | s | s | ⟨v, hv⟩
      · exact f.elim
      · exact f.elim
      · simp [Dbl.val]
      · exact hv.2.2
    have h1 : rnd (400 - β) < 0 := by
      have hg := rep_gap i4.rep hx.rep (by norm_num) h
      have h3 : rnd (400 - β) ≤ -(2 : ℝ) ^ (-53 : ℤ) := by
        have hr : Rep (-(2 : ℝ) ^ (-53 : ℤ)) := (rep_zpow (by norm_num)).neg
        apply hr.rnd_le
        norm_num at hg ⊢
        linarith
      have : (0 : ℝ) < 2 ^ (-53 : ℤ) := by positivity
      linarith
    refine ⟨_, i4.sub hx ?_, h1⟩
    rw [abs_of_neg h1]
    have h2 : -β ≤ rnd (400 - β) := hx.rep.neg.le_rnd (by linarith)
    rw [abs_of_pos (by linarith)] at hb
    linarith
  obtain ⟨w, iw, w0⟩ := hw
  have hu : Dbl.Fin (27.13 * x) ∧ 0 ≤ Dbl.val (27.13 * x) ∨ (27.13 * x : 𝔻) = Dbl.inf false := by
    by_cases hm : Dbl.Fin (27.13 * x)
    · have im := inv_mul ic hx hm
      exact .inl ⟨hm, le_of_le_of_eq (rnd_nonneg (by nlinarith)) im.2.symm⟩
    · right
      exact dbl_mul_over ic.1 hx.1 (by rw [ic.2, hx.2]; nlinarith) hm
  exact dbl_div_nonpos (l0' (L := L)).1 (l0' (L := L)).2 hu iw.1 (by rw [iw.2]; exact w0)

theorem base_nan {x : 𝔻} (h : ¬ Dbl.Fin x) : baseOf (Fl.abs x) = 0.0 := by
  apply fmax_zero
  rcases x with _ | s | s | ⟨v, hv⟩
  · show ¬ (0.0 : 𝔻) < 27.13 * nanD L / (400.0 - nanD L)
    rw [mul_nan, nan_div]
    exact not_nan_lt _
  · show ¬ (0.0 : 𝔻) < 27.13 * infD L false / (400.0 - infD L false)
    have e1 : (400.0 - infD L false : 𝔻) = Dbl.inf true := by
      have i4 : Is (400.0 : 𝔻) 400 := by simpa using lit (L := L) 4000 1 true 400 (by norm_num) (by norm_num)
      obtain ⟨f, -⟩ := i4
      show Dbl.add (400.0 : 𝔻) (Dbl.inf true) = _
      revert f
      generalize (400.0 : 𝔻) = z
      intro f
      rcases z with _ | t | t | _ <;> first | exact f.elim | rfl
    have e2 : ∃ t, (27.13 * infD L false : 𝔻) = Dbl.inf t ∨ (27.13 * infD L false : 𝔻) = Dbl.nan := by
      show ∃ t, Dbl.mul (27.13 : 𝔻) (Dbl.inf false) = Dbl.inf t ∨ Dbl.mul (27.13 : 𝔻) (Dbl.inf false) = Dbl.nan
      generalize (27.13 : 𝔻) = z
      rcases z with _ | t | t | _
      · exact ⟨true, .inr rfl⟩
      · exact ⟨_, .inl rfl⟩
      · exact ⟨true, .inr rfl⟩
      · exact ⟨_, .inl rfl⟩
    obtain ⟨t, e2 | e2⟩ := e2
    · rw [e1, e2]; exact not_nan_lt _
    · rw [e1, e2]; exact not_nan_lt _
  · exact absurd trivial h
  · exact absurd trivial h

/-- The power of a response between 0 and 400. -/
theorem pow_response (hL : L.PowOk) (hT : L.PowTail) {x : 𝔻} {β : ℝ} (hx : Is x β) (h0 : 0 ≤ β) (h1 : β < 400) :
    ∃ p, Is (Fl.powf (baseOf x) (1.0 / 0.42)) p ∧ 0 ≤ p ∧
      (|p - unadapt β| ≤ 1 / 10 ^ 11 * unadapt β ∨ (β ≤ 1 / 10 ^ 4 ∧ p ≤ 1 / 10 ^ 13)) := by
  obtain ⟨e, ie, he⟩ := ap_exponent (L := L)
  have he' := abs_le.1 he
  norm_num at he'
  have i4 : Is (400.0 : 𝔻) 400 := by simpa using lit (L := L) 4000 1 true 400 (by norm_num) (by norm_num)
  -- powers of small bases
  have tail : ∀ b, Is (baseOf x) b → 0 ≤ b → b ≤ 2 / 10 ^ 6 → β ≤ 1 / 10 ^ 4 → ∃ p, Is (Fl.powf (baseOf x) (1.0 / 0.42)) p ∧ 0 ≤ p ∧
      (|p - unadapt β| ≤ 1 / 10 ^ 11 * unadapt β ∨ (β ≤ 1 / 10 ^ 4 ∧ p ≤ 1 / 10 ^ 13)) := by
    intro b ib b0 b1 hβ
    obtain ⟨t1, t2, t3, -⟩ := hT.small (baseOf x) (1.0 / 0.42 : 𝔻) ib.1 ie.1 (by rw [ib.2]; exact b0) (by rw [ib.2]; exact b1)
      (by rw [ie.2]; norm_num; linarith) (by rw [ie.2]; linarith)
    exact ⟨_, ⟨t1, rfl⟩, t2, .inr ⟨hβ, t3⟩⟩
  have hd : 1 / 10 ^ 16 ≤ 400 - β := by
    by_cases hβ : β ≤ 1
    · norm_num; linarith
    · push Not at hβ
      have := rep_gap hx.rep i4.rep (by linarith) h1
      refine le_trans ?_ this
      refine le_trans ?_ (div_le_div_of_nonneg_right hβ.le (by norm_num))
      norm_num
  have dp : 0 < 400 - β := by linarith [show (0 : ℝ) < 1 / 10 ^ 16 by norm_num]
  have rd : Rl (400.0 - x) (400 - β) (1 / 10 ^ 15) := by
    refine rl_rnd (w := 400 - β) (ε := 0) (fun h => i4.sub hx h) (by simp) (le_trans (by norm_num) hd) ?_ le_rfl (by norm_num) (by norm_num)
    exact le_trans (by linarith : 400 - β ≤ 400) (by norm_num)
  by_cases hs : β ≤ 1 / 10 ^ 40
  · -- a base that is almost 0
    obtain ⟨c, ic, hc⟩ := ap_lit (L := L) (m := 2713) (s := true) (e := 2) (v := 27.13) rfl (by norm_num [abs_of_pos])
    change Is (27.13 : 𝔻) c at ic
    have hc := abs_le.1 hc
    unfold ρ at hc
    norm_num at hc
    have m0 : 0 ≤ c * β := mul_nonneg (by linarith) h0
    have m1 : c * β ≤ 1 / 10 ^ 38 := by
      calc c * β ≤ 28 * (1 / 10 ^ 40) := mul_le_mul (by linarith) hs h0 (by norm_num)
        _ ≤ _ := by norm_num
    have im := ic.mul hx (rnd_huge (by rw [abs_of_nonneg m0]; exact m1.trans (by norm_num)))
    have hm := abs_le.1 (rnd_any (c * β))
    rw [abs_of_nonneg m0] at hm
    obtain ⟨w, iw, hw⟩ := rd
    have hw := abs_le.1 hw
    have w1 : 300 ≤ w := by
      have hβ1 : β ≤ 1 := hs.trans (by norm_num)
      norm_num at hw; linarith [hw.1]
    have mr : 0 ≤ rnd (c * β) := rnd_nonneg m0
    have mr1 : rnd (c * β) ≤ 1 / 10 ^ 30 := by
      have h5 : c * β * (2 / 10 ^ 16) ≤ 1 / 10 ^ 38 * (2 / 10 ^ 16) := mul_le_mul_of_nonneg_right m1 (by norm_num)
      have h6 : (1 : ℝ) / 10 ^ 38 + (1 / 10 ^ 38 * (2 / 10 ^ 16) + 1 / 10 ^ 72) ≤ 1 / 10 ^ 30 := by norm_num
      linarith [hm.2]
    have q0 : 0 ≤ rnd (c * β) / w := div_nonneg mr (by linarith)
    have q1 : rnd (c * β) / w ≤ 1 / 10 ^ 30 := by
      rw [div_le_iff₀ (by linarith)]
      have : (1 : ℝ) / 10 ^ 30 * 1 ≤ 1 / 10 ^ 30 * w := mul_le_mul_of_nonneg_left (by linarith) (by norm_num)
      linarith
    have iq := im.div iw (by linarith) (rnd_huge (by rw [abs_of_nonneg q0]; exact q1.trans (by norm_num)))
    have hq := abs_le.1 (rnd_any (rnd (c * β) / w))
    rw [abs_of_nonneg q0] at hq
    have ib : Is (baseOf x) _ := (l0' (L := L)).fmax iq
    rw [max_eq_right (rnd_nonneg q0)] at ib
    refine tail _ ib (rnd_nonneg q0) ?_ (hs.trans (by norm_num))
    have h5 : rnd (c * β) / w * (2 / 10 ^ 16) ≤ 1 / 10 ^ 30 * (2 / 10 ^ 16) := mul_le_mul_of_nonneg_right q1 (by norm_num)
    have h6 : (1 : ℝ) / 10 ^ 30 + (1 / 10 ^ 30 * (2 / 10 ^ 16) + 1 / 10 ^ 72) ≤ 2 / 10 ^ 6 := by norm_num
    linarith [hq.2]
  · push Not at hs
    have bp : 0 < β := lt_trans (by norm_num) hs
    have rm := (rl_lit (L := L) (m := 2713) (s := true) (e := 2) 27.13 (by norm_num) (by norm_num) (by norm_num)).mul hx.rl (by norm_num) bp
      (by norm_num) le_rfl (by
        refine le_trans ?_ (mul_le_mul_of_nonneg_left hs.le (by norm_num)); norm_num) (by
        refine le_trans (mul_le_mul_of_nonneg_left h1.le (by norm_num)) ?_; norm_num) (by norm_num) (3 / 10 ^ 15) (by norm_num)
    have t0 : 0 < 27.13 * β / (400 - β) := by positivity
    have tl : 27.13 * β / 400 ≤ 27.13 * β / (400 - β) := div_le_div_of_nonneg_left (by positivity) dp (by linarith)
    have tu : 27.13 * β / (400 - β) ≤ 10 ^ 21 := by
      rw [div_le_iff₀ dp]
      calc 27.13 * β ≤ 10 ^ 21 * (1 / 10 ^ 16) := by norm_num; linarith
        _ ≤ _ := mul_le_mul_of_nonneg_left hd (by norm_num)
    have rq := rm.div rd (by positivity) dp (by norm_num) (by norm_num) (by
      refine le_trans ?_ tl
      rw [le_div_iff₀ (by norm_num)]
      refine le_trans ?_ (mul_le_mul_of_nonneg_left hs.le (by norm_num)); norm_num) (tu.trans (by norm_num)) (by norm_num) (6 / 10 ^ 15) (by norm_num)
    have rb : Rl (baseOf x) (27.13 * β / (400 - β)) (6 / 10 ^ 15) := by
      obtain ⟨v, iv, hv⟩ := rq
      have hv' := abs_le.1 hv
      have v0 : 0 ≤ v := by
        have : (6 : ℝ) / 10 ^ 15 * (27.13 * β / (400 - β)) ≤ 1 * (27.13 * β / (400 - β)) := mul_le_mul_of_nonneg_right (by norm_num) t0.le
        linarith
      have ib : Is (baseOf x) _ := (l0' (L := L)).fmax iv
      rw [max_eq_right v0] at ib
      exact ⟨v, ib, hv⟩
    by_cases hb : 27.13 * β / (400 - β) ≤ 1.9 / 10 ^ 6
    · obtain ⟨v, iv, hv⟩ := rb
      have hv' := abs_le.1 hv
      have hv1 : (6 : ℝ) / 10 ^ 15 * (27.13 * β / (400 - β)) ≤ 1 / 100 * (27.13 * β / (400 - β)) := mul_le_mul_of_nonneg_right (by norm_num) t0.le
      refine tail v iv (by linarith) (by norm_num at hb ⊢; linarith) ?_
      have := tl.trans hb
      rw [div_le_iff₀ (by norm_num)] at this
      norm_num at this ⊢; linarith
    · push Not at hb
      have := rb.pow hL ap_exponent (M := 2.5 * (21 : ℕ)) (by norm_num) (by norm_num) (by norm_num at hb ⊢; linarith) (tu.trans (by norm_num)) (by norm_num) (by norm_num)
        (log_within 21 (le_trans (by norm_num) hb.le) tu) (1 / 10 ^ 11) (by norm_num) (by norm_num) (by norm_num)
      obtain ⟨p, ip, hp⟩ := this
      have up := unadapt_pos bp h1
      have hp' : |p - unadapt β| ≤ 1 / 10 ^ 11 * unadapt β := hp
      have h3 := abs_le.1 hp'
      refine ⟨p, ip, ?_, .inl hp'⟩
      have : (1 : ℝ) / 10 ^ 11 * unadapt β ≤ 1 * unadapt β := mul_le_mul_of_nonneg_right (by norm_num) up.le
      linarith

/-- The base of a response of exactly 400 is infinite. -/
theorem base_400 {x : 𝔻} (hx : Is x 400) : baseOf x = Dbl.inf false := by
  have i4 : Is (400.0 : 𝔻) 400 := by simpa using lit (L := L) 4000 1 true 400 (by norm_num) (by norm_num)
  obtain ⟨c, ic, hc⟩ := ap_lit (L := L) (m := 2713) (s := true) (e := 2) (v := 27.13) rfl (by norm_num [abs_of_pos])
  change Is (27.13 : 𝔻) c at ic
  have hc := abs_le.1 hc
  unfold ρ at hc
  norm_num at hc
  have e1 : (400.0 - x : 𝔻) = Dbl.zero false :=
    dbl_sub_self i4.1 hx.1 (by rw [i4.2]; norm_num) (by rw [i4.2, hx.2])
  have hm : ∃ m, Is (27.13 * x) m ∧ 0 < m := by
    have h1 : |rnd (c * 400)| < 2 ^ 1024 := rnd_huge (by rw [abs_of_pos (by linarith)]; norm_num; linarith)
    refine ⟨_, ic.mul hx h1, ?_⟩
    have : (1 : ℝ) ≤ rnd (c * 400) := by
      have hr : Rep (1 : ℝ) := by simpa using rep_int (n := 1) (by norm_num)
      exact hr.le_rnd (by linarith)
    linarith
  obtain ⟨m, im, m0⟩ := hm
  have e2 : (27.13 * x / (400.0 - x) : 𝔻) = Dbl.inf false := by
    rw [e1]
    exact dbl_div_zero im.1 (by rw [im.2]; exact m0)
  unfold baseOf
  rw [e2]
  have hn : Dbl.isNan (0.0 : 𝔻) = false := fin_num (l0' (L := L)).1
  refine dbl_fmax_right _ _ hn rfl ⟨hn, rfl, ?_⟩
  obtain ⟨f, -⟩ := (l0' (L := L))
  exact dbl_lt_top f

/-- A positive stimulus comes from a response between 0 and 400. -/
theorem ica64 (hL : L.PowOk) (hT : L.PowTail) {A : 𝔻} {ξ : ℝ} (h : Is (inverseChromaticAdaptation A) ξ) (h0 : 0 < ξ) :
    ∃ α, Is A α ∧ 0 < α ∧ α < 400 ∧ (|ξ - unadapt α| ≤ 1 / 10 ^ 11 * unadapt α ∨ (α ≤ 1 / 10 ^ 4 ∧ ξ ≤ 1 / 10 ^ 13)) := by
  rw [ica_eq] at h
  have hs : ∃ n : ℤ, Is (Fl.ofInt (signum A) : 𝔻) n ∧ (n = -1 ∨ n = 0 ∨ n = 1) ∧ n = signum A := by
    refine ⟨signum A, is_ofInt ?_, ?_, rfl⟩ <;> unfold signum <;> split_ifs <;> simp
  obtain ⟨n, is, hn, hns⟩ := hs
  have zero : ∀ x : 𝔻, baseOf x = 0.0 → Is (Fl.ofInt (signum A) * Fl.powf (baseOf x) (1.0 / 0.42)) ξ → False := by
    intro x e hx
    rw [e] at hx
    have := inv_mul is (pow_zero64 hT l0') hx.1
    rw [mul_zero, rnd_zero] at this
    rw [hx.unique this] at h0
    exact lt_irrefl _ h0
  by_cases hA : Dbl.Fin A
  swap
  · exact absurd h (fun h => zero _ (base_nan hA) h)
  obtain ⟨α, iA⟩ : ∃ α, Is A α := ⟨_, hA, rfl⟩
  have iabs := iA.abs
  rcases lt_trichotomy |α| 400 with h4 | h4 | h4
  · obtain ⟨p, ip, p0, hp⟩ := pow_response hL hT iabs (abs_nonneg α) h4
    have hm := h.unique (inv_mul is ip h.1)
    rcases hn with rfl | rfl | rfl
    · exfalso
      have := rnd_nonneg p0
      rw [show (((-1 : ℤ) : ℝ)) * p = -p by push_cast; ring, rnd_neg] at hm
      linarith
    · rw [Int.cast_zero, zero_mul, rnd_zero] at hm
      linarith
    · rw [Int.cast_one, one_mul, ip.rep.rnd_eq] at hm
      have ha : 0 < α := by
        by_contra hc
        push Not at hc
        rcases hc.lt_or_eq with hc | hc
        · have : signum A = -1 := by
            unfold signum; rw [if_pos (by rw [iA.lt_iff l0']; exact hc)]
          omega
        · have : signum A = 0 := by
            unfold signum
            rw [if_neg (by rw [iA.lt_iff l0']; linarith), if_pos (by rw [iA.beq_iff l0']; exact hc)]
          omega
      rw [abs_of_pos ha] at h4 hp
      exact ⟨α, iA, ha, h4, hm ▸ hp⟩
  · exfalso
    have e := base_400 (L := L) (x := Fl.abs A) (h4 ▸ iabs)
    rw [e] at h
    obtain ⟨e, ie, he⟩ := ap_exponent (L := L)
    have he' := abs_le.1 he
    norm_num at he'
    have hi : Fl.powf (infD L false) (1.0 / 0.42 : 𝔻) = infD L false := hT.inf _ ie.1 (by rw [ie.2]; linarith)
    change Is (Fl.ofInt (signum A) * Fl.powf (infD L false) (1.0 / 0.42 : 𝔻)) ξ at h
    rw [hi] at h
    exact (fin_mul' h.1).2
  · exact absurd h (fun h => zero _ (base_large iabs h4) h)

end Mcu.Lemmas
