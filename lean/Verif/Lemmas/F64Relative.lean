import Verif.Lemmas.F64Rel
import Verif.Lemmas.F64Lines

/-! Relative errors of positive doubles. -/

namespace Mcu.Lemmas

open Mcu.Ieee Props Props.Binary64 Real

variable {L : Libm}

local notation "𝔻" => F64 L

/-- A finite double with relative distance at most `ε` from a positive number. -/
def Rl (x : 𝔻) (t ε : ℝ) : Prop := ∃ v, Is x v ∧ |v - t| ≤ ε * t

theorem Rl.mono {x : 𝔻} {t ε δ : ℝ} (h : Rl x t ε) (ht : 0 ≤ t) (hε : ε ≤ δ) : Rl x t δ := by
  obtain ⟨v, a, b⟩ := h; exact ⟨v, a, b.trans (mul_le_mul_of_nonneg_right hε ht)⟩

theorem Is.rl {x : 𝔻} {a : ℝ} (h : Is x a) : Rl x a 0 := ⟨a, h, by simp⟩

/-- Rounding adds little to a relative error. -/
theorem rl_rnd {x : 𝔻} {w t ε η : ℝ} (hx : |rnd w| < 2 ^ 1024 → Is x (rnd w)) (hw : |w - t| ≤ ε * t) (t0 : 1 / 10 ^ 48 ≤ t)
    (t1 : t ≤ 10 ^ 119) (ε0 : 0 ≤ ε) (ε1 : ε ≤ 1 / 10) (hη : ε + 1 / 10 ^ 15 ≤ η) : Rl x t η := by
  have hw' := abs_le.1 hw
  have tp : 0 < t := lt_of_lt_of_le (by norm_num) t0
  have e1 : ε * t ≤ 1 / 10 * t := mul_le_mul_of_nonneg_right ε1 tp.le
  have w0 : 1 / 10 ^ 50 ≤ w := by
    have : (1 : ℝ) / 10 ^ 50 ≤ 1 / 2 * (1 / 10 ^ 48) := by norm_num
    linarith
  have wp : 0 < w := lt_of_lt_of_le (by norm_num) w0
  have w1 : |w| ≤ 10 ^ 120 := by
    rw [abs_of_pos wp]
    have : (2 : ℝ) * 10 ^ 119 ≤ 10 ^ 120 := by norm_num
    linarith
  refine ⟨_, hx (rnd_huge w1), ?_⟩
  have hr := rnd_rel w0
  have h2 : w * (3 / 10 ^ 16) ≤ t * (1 / 10 ^ 15) := by
    have : w ≤ 1.1 * t := by norm_num; linarith
    have := mul_le_mul_of_nonneg_right this (show (0 : ℝ) ≤ 3 / 10 ^ 16 by norm_num)
    refine this.trans ?_
    rw [mul_comm 1.1 t, mul_assoc]
    exact mul_le_mul_of_nonneg_left (by norm_num) tp.le
  calc |rnd w - t| ≤ |rnd w - w| + |w - t| := by
        have := abs_add_le (rnd w - w) (w - t); rwa [sub_add_sub_cancel] at this
    _ ≤ t * (1 / 10 ^ 15) + ε * t := add_le_add (hr.trans h2) hw
    _ = (ε + 1 / 10 ^ 15) * t := by ring
    _ ≤ η * t := mul_le_mul_of_nonneg_right hη tp.le

theorem Rl.mul {x y : 𝔻} {s t ε δ : ℝ} (hx : Rl x s ε) (hy : Rl y t δ) (s0 : 0 < s) (t0 : 0 < t) (ε0 : 0 ≤ ε) (δ0 : 0 ≤ δ)
    (h0 : 1 / 10 ^ 48 ≤ s * t) (h1 : s * t ≤ 10 ^ 119) (ε1 : ε + δ + ε * δ ≤ 1 / 10) (η : ℝ) (hη : ε + δ + ε * δ + 1 / 10 ^ 15 ≤ η) :
    Rl (x * y) (s * t) η := by
  obtain ⟨v, iv, hv⟩ := hx
  obtain ⟨w, iw, hw⟩ := hy
  refine rl_rnd (fun h => iv.mul iw h) ?_ h0 h1 (by positivity) ε1 hη
  have e : v * w - s * t = (v - s) * t + s * (w - t) + (v - s) * (w - t) := by ring
  rw [e]
  have a1 : |(v - s) * t| ≤ ε * s * t := by
    rw [abs_mul, abs_of_pos t0]; exact mul_le_mul_of_nonneg_right hv t0.le
  have a2 : |s * (w - t)| ≤ s * (δ * t) := by
    rw [abs_mul, abs_of_pos s0]; exact mul_le_mul_of_nonneg_left hw s0.le
  have a3 : |(v - s) * (w - t)| ≤ (ε * s) * (δ * t) := by
    rw [abs_mul]; exact mul_le_mul hv hw (abs_nonneg _) (by positivity)
  refine (abs_add_three _ _ _).trans ?_
  linarith

theorem Rl.div {x y : 𝔻} {s t ε δ : ℝ} (hx : Rl x s ε) (hy : Rl y t δ) (s0 : 0 < s) (t0 : 0 < t) (ε0 : 0 ≤ ε) (δ0 : 0 ≤ δ)
    (h0 : 1 / 10 ^ 48 ≤ s / t) (h1 : s / t ≤ 10 ^ 119) (ε1 : ε + 2 * δ ≤ 1 / 100) (η : ℝ) (hη : (ε + δ) * 1.1 + 1 / 10 ^ 15 ≤ η) :
    Rl (x / y) (s / t) η := by
  obtain ⟨v, iv, hv⟩ := hx
  obtain ⟨w, iw, hw⟩ := hy
  have hw' := abs_le.1 hw
  have hδ : δ * t ≤ 1 / 100 * t := mul_le_mul_of_nonneg_right (by linarith) t0.le
  have w0 : 0.99 * t ≤ w := by norm_num; linarith
  have wp : 0 < w := lt_of_lt_of_le (by positivity) w0
  refine rl_rnd (ε := (ε + δ) * 1.1) (fun h => iv.div iw wp.ne' h) ?_ h0 h1 (by positivity) (by norm_num; linarith) hη
  have e : v / w - s / t = ((v - s) * t - s * (w - t)) / (w * t) := by field_simp; ring
  rw [e, abs_div, abs_of_pos (mul_pos wp t0), div_le_iff₀ (mul_pos wp t0)]
  have a1 : |(v - s) * t| ≤ ε * s * t := by
    rw [abs_mul, abs_of_pos t0]; exact mul_le_mul_of_nonneg_right hv t0.le
  have a2 : |s * (w - t)| ≤ s * (δ * t) := by
    rw [abs_mul, abs_of_pos s0]; exact mul_le_mul_of_nonneg_left hw s0.le
  have a3 : (ε + δ) * s * t ≤ (ε + δ) * 1.1 * s * w := by
    have : (ε + δ) * s * (1.1 * (0.99 * t)) ≤ (ε + δ) * s * (1.1 * w) := by gcongr
    have h3 : (ε + δ) * s * t ≤ (ε + δ) * s * (1.1 * (0.99 * t)) := by
      apply mul_le_mul_of_nonneg_left _ (by positivity)
      norm_num; linarith
    linarith
  have e2 : (ε + δ) * 1.1 * (s / t) * (w * t) = (ε + δ) * 1.1 * s * w := by field_simp
  rw [e2]
  refine (abs_sub _ _).trans ?_
  linarith

theorem Rl.sqrt {x : 𝔻} {t ε : ℝ} (hx : Rl x t ε) (ε0 : 0 ≤ ε) (ε1 : ε ≤ 1 / 10) (h0 : 1 / 10 ^ 48 ≤ Real.sqrt t)
    (h1 : Real.sqrt t ≤ 10 ^ 119) (η : ℝ) (hη : ε + 1 / 10 ^ 15 ≤ η) : Rl (Fl.sqrt x) (Real.sqrt t) η := by
  obtain ⟨v, iv, hv⟩ := hx
  have sp : 0 < Real.sqrt t := lt_of_lt_of_le (by norm_num) h0
  have tp : 0 < t := sqrt_pos.1 sp
  have hv' := abs_le.1 hv
  have hδ : ε * t ≤ 1 / 10 * t := mul_le_mul_of_nonneg_right ε1 tp.le
  have v0 : 0 < v := by linarith
  refine rl_rnd (fun h => iv.sqrt v0.le h) ?_ h0 h1 ε0 ε1 hη
  have vp := sqrt_pos.2 v0
  have e : Real.sqrt v - Real.sqrt t = (v - t) / (Real.sqrt v + Real.sqrt t) := by
    rw [eq_div_iff (by positivity)]
    nlinarith [sq_sqrt v0.le, sq_sqrt tp.le]
  rw [e, abs_div, abs_of_pos (by positivity : 0 < Real.sqrt v + Real.sqrt t), div_le_iff₀ (by positivity)]
  refine hv.trans ?_
  have : t = Real.sqrt t * Real.sqrt t := (mul_self_sqrt tp.le).symm
  calc ε * t = ε * (Real.sqrt t * Real.sqrt t) := by rw [← this]
    _ ≤ ε * Real.sqrt t * (Real.sqrt v + Real.sqrt t) := by
        rw [← mul_assoc]
        apply mul_le_mul_of_nonneg_left (by linarith) (by positivity)

theorem rl_lit {m e : ℕ} {s : Bool} (v : ℝ) (hv : (OfScientific.ofScientific m s e : ℝ) = v) (h0 : 1 / 10 ^ 40 ≤ v) (h : v ≤ 10 ^ 5) :
    Rl (OfScientific.ofScientific m s e : 𝔻) v (1 / 10 ^ 15) := by
  have vp : 0 < v := lt_of_lt_of_le (by norm_num) h0
  refine rl_rnd (fun hh => is_lit hv ?_) (w := v) (ε := 0) (by simp) (le_trans (by norm_num) h0) (h.trans (by norm_num)) le_rfl (by norm_num) (by norm_num)
  rw [abs_of_pos vp]
  refine h.trans ?_
  calc (10 ^ 5 : ℝ) ≤ 2 ^ 20 := by norm_num
    _ ≤ 2 ^ 1000 := pow_le_pow_right₀ (by norm_num) (by norm_num)

theorem exp_small {x δ : ℝ} (h : |x| ≤ δ) (hδ : δ ≤ 1 / 10) : |exp x - 1| ≤ 1.2 * δ := by
  have h' := abs_le.1 h
  have x1 := Real.add_one_le_exp x
  have x2 : exp x ≤ 1 + 1.2 * δ := by
    have h2 := Real.add_one_le_exp (-x)
    rw [Real.exp_neg] at h2
    have h3 : (1 - δ : ℝ) ≤ (exp x)⁻¹ := by linarith
    rw [le_inv_comm₀ (by linarith) (exp_pos _)] at h3
    refine h3.trans ?_
    rw [inv_le_iff_one_le_mul₀ (by linarith)]
    have d0 : 0 ≤ δ := (abs_nonneg _).trans h
    norm_num
    nlinarith
  have d0 : 0 ≤ δ := (abs_nonneg _).trans h
  rw [abs_le]; constructor
  · norm_num; linarith
  · linarith

/-- A power whose base and exponent have small errors; `M` bounds the logarithm of the base. -/
theorem Rl.pow (hL : L.PowOk) {x y : 𝔻} {t ε e M : ℝ} (hx : Rl x t ε) {δ : ℝ} (hy : Ap y e δ) (ε0 : 0 ≤ ε) (ε1 : ε ≤ 1 / 1000)
    (t0 : 1 / 10 ^ 6 * 1.01 ≤ t) (t1 : t ≤ 10 ^ 59) (e0 : δ ≤ e) (e1 : e + δ ≤ 3) (hM : |Real.log t| ≤ M) (η : ℝ) (δ0 : 0 ≤ δ)
    (h3 : 3.6 * ε + δ * M ≤ 1 / 20) (hη : (3.6 * ε + δ * M) * 1.3 + 2 / 10 ^ 13 ≤ η) : Rl (Fl.powf x y) (t ^ e) η := by
  obtain ⟨v, iv, hv⟩ := hx
  obtain ⟨w, iw, hw⟩ := hy
  have tp : 0 < t := lt_of_lt_of_le (by norm_num) t0
  have hv' := abs_le.1 hv
  have hw' := abs_le.1 hw
  have hε : ε * t ≤ 1 / 1000 * t := mul_le_mul_of_nonneg_right ε1 tp.le
  have vp : 0 < v := by linarith
  obtain ⟨p, ip, hp⟩ := is_pow64 hL iv iw (by norm_num at t0 ⊢; linarith) (by
    have : (10 : ℝ) ^ 60 = 10 * 10 ^ 59 := by norm_num
    linarith) (by linarith) (by linarith)
  refine ⟨p, ip, ?_⟩
  set X := w * Real.log (v / t) + (w - e) * Real.log t with hX
  have es : v ^ w = t ^ e * exp X := by
    rw [rpow_def_of_pos vp, rpow_def_of_pos tp, ← Real.exp_add]; congr 1
    rw [hX, Real.log_div vp.ne' tp.ne']; ring
  have r1 : |v / t - 1| ≤ ε := by
    rw [div_sub_one tp.ne', abs_div, abs_of_pos tp, div_le_iff₀ tp]; exact hv
  have rp : 0 < v / t := div_pos vp tp
  have hlog : |Real.log (v / t)| ≤ 1.1 * ε := by
    have r1' := abs_le.1 r1
    rw [abs_le]
    constructor
    · have := Real.one_sub_inv_le_log_of_pos rp
      refine le_trans ?_ this
      have : (v / t)⁻¹ ≤ 1 + 1.1 * ε := by
        rw [inv_le_iff_one_le_mul₀ rp, mul_comm]
        have h5 : (1 - ε) * (1 + 1.1 * ε) ≤ v / t * (1 + 1.1 * ε) := mul_le_mul_of_nonneg_right (by linarith) (by positivity)
        refine le_trans ?_ h5
        norm_num
        nlinarith
      linarith
    · have := Real.log_le_sub_one_of_pos rp
      norm_num at this ⊢
      linarith
  have hXs : |X| ≤ 3.6 * ε + δ * M := by
    rw [hX]
    refine (abs_add_le _ _).trans (add_le_add ?_ ?_)
    · rw [abs_mul]
      have hw3 : |w| ≤ 3 := by rw [abs_le]; constructor <;> linarith
      calc |w| * |Real.log (v / t)| ≤ 3 * (1.1 * ε) := mul_le_mul hw3 hlog (abs_nonneg _) (by norm_num)
        _ ≤ 3.6 * ε := by norm_num; linarith
    · rw [abs_mul]
      exact mul_le_mul hw hM (abs_nonneg _) δ0
  have hE := exp_small hXs (by linarith)
  have hP : 0 < t ^ e := rpow_pos_of_pos tp e
  rw [es] at hp
  have hE' := abs_le.1 hE
  generalize 3.6 * ε + δ * M = Z at *
  have hX2 : exp X ≤ 2 := by norm_num at hE'; linarith [hE'.2]
  calc |p - t ^ e| ≤ |p - t ^ e * exp X| + |t ^ e * exp X - t ^ e| := by
        have := abs_add_le (p - t ^ e * exp X) (t ^ e * exp X - t ^ e); rwa [sub_add_sub_cancel] at this
    _ ≤ t ^ e * 2 / 10 ^ 13 + t ^ e * (1.2 * Z) := by
        refine add_le_add (hp.trans ?_) ?_
        · gcongr
        · rw [show t ^ e * exp X - t ^ e = t ^ e * (exp X - 1) by ring, abs_mul, abs_of_pos hP]
          exact mul_le_mul_of_nonneg_left hE hP.le
    _ = (1.2 * Z + 2 / 10 ^ 13) * t ^ e := by ring
    _ ≤ η * t ^ e := by
        apply mul_le_mul_of_nonneg_right _ hP.le
        have : 0 ≤ Z := (abs_nonneg _).trans hXs
        norm_num at hη ⊢; linarith

theorem Rl.add {x y : 𝔻} {s t ε δ : ℝ} (hx : Rl x s ε) (hy : Rl y t δ) (s0 : 0 < s) (t0 : 0 < t) (ε0 : 0 ≤ ε) (δ0 : δ ≤ ε)
    (h0 : 1 / 10 ^ 48 ≤ s + t) (h1 : s + t ≤ 10 ^ 119) (ε1 : ε ≤ 1 / 10) (η : ℝ) (hη : ε + 1 / 10 ^ 15 ≤ η) :
    Rl (x + y) (s + t) η := by
  obtain ⟨v, iv, hv⟩ := hx
  obtain ⟨w, iw, hw⟩ := hy
  refine rl_rnd (fun h => iv.add iw h) ?_ h0 h1 ε0 ε1 hη
  have e : v + w - (s + t) = (v - s) + (w - t) := by ring
  rw [e]
  refine (abs_add_le _ _).trans ?_
  have : δ * t ≤ ε * t := mul_le_mul_of_nonneg_right δ0 t0.le
  linarith

/-- A finite product of finite doubles. -/
theorem inv_mul {x y : 𝔻} {a b : ℝ} (hx : Is x a) (hy : Is y b) (h : Dbl.Fin (x * y)) : Is (x * y) (rnd (a * b)) := by
  by_cases hb : |rnd (a * b)| < 2 ^ 1024
  · exact hx.mul hy hb
  exfalso
  obtain ⟨h1, rfl⟩ := hx
  obtain ⟨h2, rfl⟩ := hy
  change Dbl.Fin (Dbl.mul x y) at h
  rcases x with _ | s | s | ⟨v, hv⟩ <;> rcases y with _ | t | t | ⟨w, hw⟩ <;> simp only [Dbl.Fin] at h1 h2 <;>
    simp only [Dbl.val] at hb <;> first | (simp [rnd_zero] at hb; done) | skip
  have h : Dbl.Fin (Dbl.ofReal (xor (Dbl.num v hv).neg? (Dbl.num w hw).neg?) (v * w)) := h
  unfold Dbl.ofReal at h
  by_cases g1 : rnd (v * w) = 0
  · rw [g1] at hb; simp at hb
  · rw [dif_neg g1, dif_neg hb] at h; exact h

theorem fin_mul' {x y : 𝔻} (h : Dbl.Fin (x * y)) : Dbl.Fin x ∧ Dbl.Fin y := by
  change Dbl.Fin (Dbl.mul x y) at h
  rcases x with _ | s | s | ⟨v, hv⟩ <;> rcases y with _ | t | t | ⟨w, hw⟩ <;> simp only [Dbl.mul, Dbl.Fin] at h ⊢ <;> trivial

end Mcu.Lemmas
