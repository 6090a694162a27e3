import Verif.Lemmas.F64Relative
import Verif.Lemmas.F64Viewing

/-! Relative errors of positive doubles together with the order of magnitude. -/

namespace Mcu.Lemmas

open Mcu.Ieee Props Props.Binary64 Real

variable {L : Libm}

local notation "𝔻" => F64 L

/-- A double within the relative error `ε` of a number between 10⁻ⁿ and 10ⁿ. -/
structure Nr (x : 𝔻) (t ε : ℝ) (n : ℕ) : Prop where
  rl : Rl x t ε
  e0 : 0 ≤ ε
  lo : 1 / 10 ^ n ≤ t
  hi : t ≤ 10 ^ n

theorem Nr.pos {x : 𝔻} {t ε : ℝ} {n : ℕ} (h : Nr x t ε n) : 0 < t := lt_of_lt_of_le (by positivity) h.lo

theorem Nr.to {x : 𝔻} {t ε : ℝ} {n : ℕ} (h : Nr x t ε n) (η : ℝ) (m : ℕ) (hη : ε ≤ η) (a : 1 / 10 ^ m ≤ t) (b : t ≤ 10 ^ m) : Nr x t η m :=
  ⟨h.rl.mono h.pos.le hη, h.e0.trans hη, a, b⟩

theorem Nr.weaken {x : 𝔻} {t ε : ℝ} {n : ℕ} (h : Nr x t ε n) (η : ℝ) (hη : ε ≤ η) : Nr x t η n :=
  ⟨h.rl.mono h.pos.le hη, h.e0.trans hη, h.lo, h.hi⟩

theorem ten_pow_le {n m : ℕ} (h : n ≤ m) : (10 : ℝ) ^ n ≤ 10 ^ m := pow_le_pow_right₀ (by norm_num) h

theorem inv_ten_le {n m : ℕ} (h : n ≤ m) : (1 : ℝ) / 10 ^ m ≤ 1 / 10 ^ n :=
  one_div_le_one_div_of_le (by positivity) (ten_pow_le h)

theorem Nr.mul {x y : 𝔻} {s t ε δ : ℝ} {n m : ℕ} (hx : Nr x s ε n) (hy : Nr y t δ m) (η : ℝ) (hη : ε + δ + ε * δ + 1 / 10 ^ 15 ≤ η)
    (h1 : η ≤ 1 / 100) (hn : n + m ≤ 40) : Nr (x * y) (s * t) η (n + m) := by
  have lo : 1 / 10 ^ (n + m) ≤ s * t := by
    calc (1 : ℝ) / 10 ^ (n + m) = (1 / 10 ^ n) * (1 / 10 ^ m) := by rw [pow_add]; ring
      _ ≤ s * t := mul_le_mul hx.lo hy.lo (by positivity) hx.pos.le
  have hi : s * t ≤ 10 ^ (n + m) := by
    rw [pow_add]; exact mul_le_mul hx.hi hy.hi hy.pos.le (by positivity)
  have := hx.e0; have := hy.e0
  refine ⟨hx.rl.mul hy.rl hx.pos hy.pos hx.e0 hy.e0 ((inv_ten_le (by omega)).trans lo) (hi.trans (ten_pow_le (by omega))) (by linarith) η hη, ?_, lo, hi⟩
  refine le_trans ?_ hη; positivity

theorem Nr.div {x y : 𝔻} {s t ε δ : ℝ} {n m : ℕ} (hx : Nr x s ε n) (hy : Nr y t δ m) (η : ℝ) (hη : (ε + δ) * 1.1 + 1 / 10 ^ 15 ≤ η)
    (h1 : η ≤ 1 / 1000) (hn : n + m ≤ 40) : Nr (x / y) (s / t) η (n + m) := by
  have lo : 1 / 10 ^ (n + m) ≤ s / t := by
    rw [le_div_iff₀ hy.pos]
    calc (1 : ℝ) / 10 ^ (n + m) * t ≤ 1 / 10 ^ (n + m) * 10 ^ m := mul_le_mul_of_nonneg_left hy.hi (by positivity)
      _ = 1 / 10 ^ n := by rw [pow_add]; field_simp
      _ ≤ s := hx.lo
  have hi : s / t ≤ 10 ^ (n + m) := by
    rw [div_le_iff₀ hy.pos]
    calc s ≤ 10 ^ n := hx.hi
      _ = 10 ^ (n + m) * (1 / 10 ^ m) := by rw [pow_add]; field_simp
      _ ≤ _ := mul_le_mul_of_nonneg_left hy.lo (by positivity)
  have := hx.e0; have := hy.e0
  refine ⟨hx.rl.div hy.rl hx.pos hy.pos hx.e0 hy.e0 ((inv_ten_le (by omega)).trans lo) (hi.trans (ten_pow_le (by omega))) (by linarith) η hη, ?_, lo, hi⟩
  refine le_trans ?_ hη; positivity

theorem Nr.add {x y : 𝔻} {s t ε δ : ℝ} {n m : ℕ} (hx : Nr x s ε n) (hy : Nr y t δ m) (k : ℕ) (η : ℝ) (h2 : ε + 1 / 10 ^ 15 ≤ η) (h3 : δ + 1 / 10 ^ 15 ≤ η)
    (h1 : η ≤ 1 / 100) (hn : n < k) (hm : m < k) (hk : k ≤ 40) : Nr (x + y) (s + t) η k := by
  have p := hx.pos; have q := hy.pos
  have lo : 1 / 10 ^ k ≤ s + t := by
    have := (inv_ten_le hn.le).trans hx.lo; linarith
  have hi : s + t ≤ 10 ^ k := by
    have a := hx.hi.trans (ten_pow_le (show n ≤ k - 1 by omega))
    have b := hy.hi.trans (ten_pow_le (show m ≤ k - 1 by omega))
    have : (10 : ℝ) ^ k = 10 * 10 ^ (k - 1) := by rw [← pow_succ']; congr 1; omega
    rw [this]
    have : (0 : ℝ) ≤ 10 ^ (k - 1) := by positivity
    linarith
  have e0 := hx.e0; have d0 := hy.e0
  refine ⟨Rl.add (ε := max ε δ) (hx.rl.mono p.le (le_max_left _ _)) hy.rl p q (e0.trans (le_max_left _ _)) (le_max_right _ _)
    ((inv_ten_le (by omega)).trans lo) (hi.trans (ten_pow_le (by omega))) (max_le (by linarith) (by linarith)) η ?_, by linarith, lo, hi⟩
  rcases le_total ε δ with h | h
  · rw [max_eq_right h]; exact h3
  · rw [max_eq_left h]; exact h2

theorem Nr.sqrt {x : 𝔻} {t ε : ℝ} {n : ℕ} (hx : Nr x t ε n) (η : ℝ) (hη : ε + 1 / 10 ^ 15 ≤ η) (h1 : η ≤ 1 / 100) (hn : n ≤ 40) :
    Nr (Fl.sqrt x) (Real.sqrt t) η n := by
  have e0 := hx.e0
  have lo : 1 / 10 ^ n ≤ Real.sqrt t := by
    apply Real.le_sqrt_of_sq_le
    refine le_trans ?_ hx.lo
    have : (1 : ℝ) / 10 ^ n ≤ 1 := by rw [div_le_one (by positivity)]; exact one_le_pow₀ (by norm_num)
    have p : (0 : ℝ) ≤ 1 / 10 ^ n := by positivity
    nlinarith
  have hi : Real.sqrt t ≤ 10 ^ n := by
    apply Real.sqrt_le_iff.2 ⟨by positivity, hx.hi.trans ?_⟩
    have : (1 : ℝ) ≤ 10 ^ n := one_le_pow₀ (by norm_num)
    nlinarith
  exact ⟨hx.rl.sqrt e0 (by linarith) ((inv_ten_le (by omega)).trans lo) (hi.trans (ten_pow_le (by omega))) η hη, by linarith, lo, hi⟩

theorem nr_lit {m e : ℕ} {s : Bool} (n : ℕ) (h0 : 1 / 10 ^ n ≤ (OfScientific.ofScientific m s e : ℝ)) (h1 : (OfScientific.ofScientific m s e : ℝ) ≤ 10 ^ n) (hn : n ≤ 5) :
    Nr (OfScientific.ofScientific m s e : 𝔻) (OfScientific.ofScientific m s e : ℝ) (1 / 10 ^ 15) n :=
  ⟨rl_lit _ rfl ((inv_ten_le (by omega)).trans h0) (h1.trans (ten_pow_le hn)), by positivity, h0, h1⟩

theorem log_bound {t : ℝ} {n : ℕ} (h0 : 1 / 10 ^ n ≤ t) (h1 : t ≤ 10 ^ n) : |Real.log t| ≤ 2.5 * n := by
  have tp : 0 < t := lt_of_lt_of_le (by positivity) h0
  have l10 : Real.log 10 ≤ 2.5 := by
    rw [Real.log_le_iff_le_exp (by norm_num)]
    have h := Real.exp_one_gt_d9
    have e : Real.exp 2.5 = Real.exp 1 ^ (2.5 : ℝ) := by rw [← Real.exp_mul]; norm_num
    rw [e]
    have : (10 : ℝ) ≤ (2.7182818283 : ℝ) ^ (2.5 : ℝ) := by
      rw [show (2.5 : ℝ) = ((5 : ℕ) : ℝ) / ((2 : ℕ) : ℝ) by norm_num]
      exact le_rpow_of_pow_le (by norm_num) (by norm_num) (by norm_num) (by norm_num)
    exact this.trans (rpow_le_rpow (by norm_num) h.le (by norm_num))
  have hu : Real.log t ≤ n * Real.log 10 := by
    rw [← Real.log_pow]; exact Real.log_le_log tp h1
  have hl : -(n * Real.log 10) ≤ Real.log t := by
    rw [← Real.log_pow, ← Real.log_inv, ← one_div]; exact Real.log_le_log (by positivity) h0
  have : (n : ℝ) * Real.log 10 ≤ n * 2.5 := mul_le_mul_of_nonneg_left l10 (Nat.cast_nonneg n)
  rw [abs_le]; constructor <;> linarith

/-- A power with a relative error in proportion to the exponent. -/
theorem Rl.powS (hL : L.PowOk) {x y : 𝔻} {t ε e M : ℝ} (hx : Rl x t ε) {δ : ℝ} (hy : Ap y e δ) (ε0 : 0 ≤ ε) (ε1 : ε ≤ 1 / 1000)
    (t0 : 1 / 10 ^ 6 * 1.01 ≤ t) (t1 : t ≤ 10 ^ 59) (e0 : δ ≤ e) (e1 : e + δ ≤ 3) (hM : |Real.log t| ≤ M) (η : ℝ) (δ0 : 0 ≤ δ)
    (h3 : (e + δ) * (1.1 * ε) + δ * M ≤ 1 / 20) (hη : ((e + δ) * (1.1 * ε) + δ * M) * 1.2 + 2 / 10 ^ 13 ≤ η) : Rl (Fl.powf x y) (t ^ e) η := by
  obtain ⟨v, iv, hv⟩ := hx
  obtain ⟨w, iw, hw⟩ := hy
  have tp : 0 < t := lt_of_lt_of_le (by norm_num) t0
  have hv' := abs_le.1 hv
  have hw' := abs_le.1 hw
  have hε : ε * t ≤ 1 / 1000 * t := mul_le_mul_of_nonneg_right ε1 tp.le
  have vp : 0 < v := by linarith
  obtain ⟨p, ip, hp⟩ := is_pow64 hL iv iw (by norm_num at t0 ⊢; linarith) (by
    have : (10 : ℝ) ^ 60 = 10 * 10 ^ 59 := by norm_num
    linarith) (by linarith) (by linarith)
  refine ⟨p, ip, ?_⟩
  set X := w * Real.log (v / t) + (w - e) * Real.log t with hX
  have es : v ^ w = t ^ e * exp X := by
    rw [rpow_def_of_pos vp, rpow_def_of_pos tp, ← Real.exp_add]; congr 1
    rw [hX, Real.log_div vp.ne' tp.ne']; ring
  have r1 : |v / t - 1| ≤ ε := by
    rw [div_sub_one tp.ne', abs_div, abs_of_pos tp, div_le_iff₀ tp]; exact hv
  have rp : 0 < v / t := div_pos vp tp
  have hlog : |Real.log (v / t)| ≤ 1.1 * ε := by
    have r1' := abs_le.1 r1
    rw [abs_le]
    constructor
    · have := Real.one_sub_inv_le_log_of_pos rp
      refine le_trans ?_ this
      have : (v / t)⁻¹ ≤ 1 + 1.1 * ε := by
        rw [inv_le_iff_one_le_mul₀ rp, mul_comm]
        have h5 : (1 - ε) * (1 + 1.1 * ε) ≤ v / t * (1 + 1.1 * ε) := mul_le_mul_of_nonneg_right (by linarith) (by positivity)
        refine le_trans ?_ h5
        norm_num
        nlinarith
      linarith
    · have := Real.log_le_sub_one_of_pos rp
      norm_num at this ⊢
      linarith
  have hXs : |X| ≤ (e + δ) * (1.1 * ε) + δ * M := by
    rw [hX]
    refine (abs_add_le _ _).trans (add_le_add ?_ ?_)
    · rw [abs_mul]
      have hw3 : |w| ≤ e + δ := by rw [abs_le]; constructor <;> linarith
      exact mul_le_mul hw3 hlog (abs_nonneg _) (by linarith)
    · rw [abs_mul]
      exact mul_le_mul hw hM (abs_nonneg _) δ0
  generalize (e + δ) * (1.1 * ε) + δ * M = Z at *
  have hE := exp_small hXs (by linarith)
  have hP : 0 < t ^ e := rpow_pos_of_pos tp e
  rw [es] at hp
  have hE' := abs_le.1 hE
  have hX2 : exp X ≤ 2 := by norm_num at hE'; linarith [hE'.2]
  calc |p - t ^ e| ≤ |p - t ^ e * exp X| + |t ^ e * exp X - t ^ e| := by
        have := abs_add_le (p - t ^ e * exp X) (t ^ e * exp X - t ^ e); rwa [sub_add_sub_cancel] at this
    _ ≤ t ^ e * 2 / 10 ^ 13 + t ^ e * (1.2 * Z) := by
        refine add_le_add (hp.trans ?_) ?_
        · gcongr
        · rw [show t ^ e * exp X - t ^ e = t ^ e * (exp X - 1) by ring, abs_mul, abs_of_pos hP]
          exact mul_le_mul_of_nonneg_left hE hP.le
    _ = (Z * 1.2 + 2 / 10 ^ 13) * t ^ e := by ring
    _ ≤ η * t ^ e := mul_le_mul_of_nonneg_right hη hP.le

theorem Nr.pow (hL : L.PowOk) {x y : 𝔻} {t ε e δ : ℝ} {n : ℕ} (hx : Nr x t ε n) (hy : Ap y e δ) (η : ℝ)
    (hη : ((e + δ) * (1.1 * ε) + δ * (2.5 * n)) * 1.2 + 2 / 10 ^ 13 ≤ η)
    (h1 : η ≤ 1 / 1000) (ε1 : ε ≤ 1 / 1000) (t0 : 1 / 10 ^ 6 * 1.01 ≤ t) (e0 : δ ≤ e) (e1 : e + δ ≤ 3) (hn : n ≤ 15) :
    Nr (Fl.powf x y) (t ^ e) η (3 * n) := by
  have ε0 := hx.e0
  have δ0 := hy.nonneg
  have h3 : 0 ≤ δ * (2.5 * n) := by positivity
  have tp := hx.pos
  have lo : 1 / 10 ^ (3 * n) ≤ t ^ e := by
    rcases le_total 1 t with h | h
    · exact le_trans (by rw [div_le_one (by positivity)]; exact one_le_pow₀ (by norm_num)) (Real.one_le_rpow h (by linarith))
    · calc (1 : ℝ) / 10 ^ (3 * n) = (1 / 10 ^ n) ^ 3 := by rw [div_pow, one_pow, ← pow_mul, mul_comm n 3]
        _ ≤ t ^ 3 := pow_le_pow_left₀ (by positivity) hx.lo 3
        _ = t ^ ((3 : ℕ) : ℝ) := (rpow_natCast _ _).symm
        _ ≤ t ^ e := rpow_le_rpow_of_exponent_ge tp h (by push_cast; linarith)
  have hi : t ^ e ≤ 10 ^ (3 * n) := by
    rcases le_total 1 t with h | h
    · calc t ^ e ≤ t ^ ((3 : ℕ) : ℝ) := rpow_le_rpow_of_exponent_le h (by push_cast; linarith)
        _ = t ^ 3 := rpow_natCast _ _
        _ ≤ (10 ^ n) ^ 3 := pow_le_pow_left₀ tp.le hx.hi 3
        _ = _ := by rw [← pow_mul, mul_comm n 3]
    · exact (Real.rpow_le_one tp.le h (by linarith)).trans (one_le_pow₀ (by norm_num))
  have h4 : 0 ≤ (e + δ) * (1.1 * ε) := mul_nonneg (by linarith) (by positivity)
  refine ⟨hx.rl.powS hL hy ε0 ε1 t0 (hx.hi.trans (ten_pow_le (by omega))) e0 e1 (log_bound hx.lo hx.hi) η δ0 ?_ hη, ?_, lo, hi⟩
  · generalize (e + δ) * (1.1 * ε) = z1 at *
    generalize δ * (2.5 * (n : ℝ)) = z2 at *
    norm_num at hη h1 h3 ⊢; linarith
  · refine le_trans ?_ hη; positivity

theorem Ap.nr {x : 𝔻} {t δ : ℝ} (h : Ap x t δ) (ε : ℝ) (n : ℕ) (lo : 1 / 10 ^ n ≤ t) (hi : t ≤ 10 ^ n) (hδ : δ ≤ ε * t) : Nr x t ε n := by
  have tp : 0 < t := lt_of_lt_of_le (by positivity) lo
  have d0 := h.nonneg
  obtain ⟨v, iv, hv⟩ := h
  exact ⟨⟨v, iv, hv.trans hδ⟩, by by_contra hh; push Not at hh; nlinarith, lo, hi⟩

theorem Nr.ap {x : 𝔻} {t ε : ℝ} {n : ℕ} (h : Nr x t ε n) (δ : ℝ) (hδ : ε * t ≤ δ) : Ap x t δ := by
  obtain ⟨v, iv, hv⟩ := h.rl
  exact ⟨v, iv, hv.trans hδ⟩

/-- Sharp version of `Ap` for literals. -/
theorem ap_lit_sharp {m e : ℕ} {s : Bool} (h : |(OfScientific.ofScientific m s e : ℝ)| ≤ 1000) :
    Ap (OfScientific.ofScientific m s e : 𝔻) (OfScientific.ofScientific m s e : ℝ) (3 / 10 ^ 13) := by
  obtain ⟨v, iv, hv⟩ := (⟨_, is_lit (L := L) rfl (h.trans (by
    calc (1000 : ℝ) ≤ 2 ^ 10 := by norm_num
      _ ≤ 2 ^ 1000 := pow_le_pow_right₀ (by norm_num) (by norm_num))), rnd_any _⟩ : ∃ v, Is (OfScientific.ofScientific m s e : 𝔻) v ∧ |v - (OfScientific.ofScientific m s e : ℝ)| ≤
      |(OfScientific.ofScientific m s e : ℝ)| * (2 / 10 ^ 16) + 1 / 10 ^ 72)
  refine ⟨v, iv, hv.trans ?_⟩
  have := mul_le_mul_of_nonneg_right h (show (0 : ℝ) ≤ 2 / 10 ^ 16 by norm_num)
  norm_num at this ⊢
  linarith

/-! ### Absolute errors with the rounding in proportion -/

theorem ap_rndS {x : 𝔻} {w t a B η : ℝ} (hx : |rnd w| < 2 ^ 1024 → Is x (rnd w)) (hw : |w - t| ≤ a) (hB : |w| ≤ B) (B1 : B ≤ 10 ^ 40)
    (hη : a + B * (2 / 10 ^ 16) + 1 / 10 ^ 72 ≤ η) : Ap x t η := by
  refine ⟨_, hx (rnd_huge (hB.trans (B1.trans (by norm_num)))), ?_⟩
  have h := abs_add_le (rnd w - w) (w - t)
  rw [sub_add_sub_cancel] at h
  have h2 := (rnd_any w).trans (add_le_add (mul_le_mul_of_nonneg_right hB (by norm_num)) le_rfl)
  linarith

theorem Ap.addS {x y : 𝔻} {s t a b : ℝ} (hx : Ap x s a) (hy : Ap y t b) (B η : ℝ) (hB : |s + t| + a + b ≤ B) (B1 : B ≤ 10 ^ 40)
    (hη : a + b + B * (2 / 10 ^ 16) + 1 / 10 ^ 72 ≤ η) : Ap (x + y) (s + t) η := by
  obtain ⟨v, iv, hv⟩ := hx
  obtain ⟨w, iw, hw⟩ := hy
  have h1 : |v + w - (s + t)| ≤ a + b := by
    rw [show v + w - (s + t) = (v - s) + (w - t) by ring]
    exact (abs_add_le _ _).trans (add_le_add hv hw)
  refine ap_rndS (fun h => iv.add iw h) h1 ?_ B1 hη
  have h := abs_add_le (v + w - (s + t)) (s + t)
  rw [sub_add_cancel] at h; linarith

theorem Ap.subS {x y : 𝔻} {s t a b : ℝ} (hx : Ap x s a) (hy : Ap y t b) (B η : ℝ) (hB : |s - t| + a + b ≤ B) (B1 : B ≤ 10 ^ 40)
    (hη : a + b + B * (2 / 10 ^ 16) + 1 / 10 ^ 72 ≤ η) : Ap (x - y) (s - t) η := by
  obtain ⟨v, iv, hv⟩ := hx
  obtain ⟨w, iw, hw⟩ := hy
  have h1 : |v - w - (s - t)| ≤ a + b := by
    rw [show v - w - (s - t) = (v - s) - (w - t) by ring]
    exact (abs_sub _ _).trans (add_le_add hv hw)
  refine ap_rndS (fun h => iv.sub iw h) h1 ?_ B1 hη
  have h := abs_add_le (v - w - (s - t)) (s - t)
  rw [sub_add_cancel] at h; linarith

theorem Ap.mulS {x y : 𝔻} {s t a b : ℝ} (hx : Ap x s a) (hy : Ap y t b) (S T B η : ℝ) (hS : |s| ≤ S) (hT : |t| ≤ T) (hB : (S + a) * (T + b) ≤ B) (B1 : B ≤ 10 ^ 40)
    (hη : a * T + S * b + a * b + B * (2 / 10 ^ 16) + 1 / 10 ^ 72 ≤ η) : Ap (x * y) (s * t) η := by
  have a0 := hx.nonneg
  have b0 := hy.nonneg
  obtain ⟨v, iv, hv⟩ := hx
  obtain ⟨w, iw, hw⟩ := hy
  have hv2 : |v| ≤ S + a := by
    have h := abs_add_le (v - s) s
    rw [sub_add_cancel] at h; linarith
  have hw2 : |w| ≤ T + b := by
    have h := abs_add_le (w - t) t
    rw [sub_add_cancel] at h; linarith
  have S0 : 0 ≤ S := (abs_nonneg _).trans hS
  have T0 : 0 ≤ T := (abs_nonneg _).trans hT
  refine ap_rndS (a := a * T + S * b + a * b) (fun h => iv.mul iw h) ?_ ?_ B1 hη
  · rw [show v * w - s * t = (v - s) * t + s * (w - t) + (v - s) * (w - t) by ring]
    refine (abs_add_three _ _ _).trans ?_
    rw [abs_mul, abs_mul, abs_mul]
    exact add_le_add (add_le_add (mul_le_mul hv hT (abs_nonneg _) a0) (mul_le_mul hS hw (abs_nonneg _) S0)) (mul_le_mul hv hw (abs_nonneg _) a0)
  · rw [abs_mul]
    exact (mul_le_mul hv2 hw2 (abs_nonneg _) (by positivity)).trans hB

theorem Ap.negS {x : 𝔻} {s a : ℝ} (hx : Ap x s a) : Ap (-x) (-s) a := by
  obtain ⟨v, iv, hv⟩ := hx
  exact ⟨-v, iv.neg, by rw [show -v - -s = -(v - s) by ring, abs_neg]; exact hv⟩

/-! ### Sums with both signs -/

/-- The value of `a x + b y ± c z` in doubles, compared with the sum of the absolute values of the terms. -/
theorem comb3 {m1 m2 m3 p q : 𝔻} {X Y Z A B C ε : ℝ} (σ : ℝ) (hσ : |σ| = 1) {x' y' z' a' b' c' : ℝ}
    (i1 : |rnd (a' * x')| < 2 ^ 1024 → Is m1 (rnd (a' * x'))) (i2 : |rnd (b' * y')| < 2 ^ 1024 → Is m2 (rnd (b' * y')))
    (i3 : |rnd (c' * z')| < 2 ^ 1024 → Is m3 (rnd (c' * z')))
    (hx : |x' - X| ≤ ε * X) (hy : |y' - Y| ≤ ε * Y) (hz : |z' - Z| ≤ ε * Z)
    (ha : |a' - A| ≤ 1 / 10 ^ 15 * |A|) (hb : |b' - B| ≤ 1 / 10 ^ 15 * |B|) (hc : |c' - C| ≤ 1 / 10 ^ 15 * |C|)
    (x0 : 0 ≤ X) (y0 : 0 ≤ Y) (z0 : 0 ≤ Z) (e0 : 0 ≤ ε) (e1 : ε ≤ 1 / 1000)
    (hT0 : 1 / 10 ^ 40 ≤ |A| * X + |B| * Y + |C| * Z) (hT1 : |A| * X + |B| * Y + |C| * Z ≤ 10 ^ 40)
    (hp : ∀ u v : ℝ, Is m1 u → Is m2 v → |rnd (u + v)| < 2 ^ 1024 → Is p (rnd (u + v)))
    (hq : ∀ w s : ℝ, Is m3 w → Is p s → |rnd (s + σ * w)| < 2 ^ 1024 → Is q (rnd (s + σ * w))) :
    Ap q (A * X + B * Y + σ * (C * Z)) ((ε + 5 / 10 ^ 15) * (|A| * X + |B| * Y + |C| * Z)) := by
  have term {m : 𝔻} {K M k' l' : ℝ} (im : |rnd (k' * l')| < 2 ^ 1024 → Is m (rnd (k' * l'))) (hk : |k' - K| ≤ 1 / 10 ^ 15 * |K|) (hl : |l' - M| ≤ ε * M) (m0 : 0 ≤ M)
      (hb : |K| * M ≤ 10 ^ 40) :
      ∃ u, Is m u ∧ |u - K * M| ≤ (ε + 2 / 10 ^ 15) * (|K| * M) + 1 / 10 ^ 72 ∧ |u| ≤ 1.01 * (|K| * M) + 1 / 10 ^ 72 := by
    have P : 0 ≤ |K| * M := by positivity
    have e : k' * l' - K * M = (k' - K) * M + K * (l' - M) + (k' - K) * (l' - M) := by ring
    have s1 : |k' * l' - K * M| ≤ (ε + 1.001 / 10 ^ 15) * (|K| * M) := by
      rw [e]
      refine (abs_add_three _ _ _).trans ?_
      rw [abs_mul, abs_mul, abs_mul, abs_of_nonneg m0]
      have t1 := mul_le_mul_of_nonneg_right hk m0
      have t2 := mul_le_mul_of_nonneg_left hl (abs_nonneg K)
      have t3 := mul_le_mul hk hl (abs_nonneg _) (by positivity)
      have t4 : 1 / 10 ^ 15 * |K| * (ε * M) ≤ 1 / 10 ^ 15 * |K| * (1 / 1000 * M) := by gcongr
      norm_num at t1 t2 t3 t4 ⊢
      nlinarith
    have s2 : |k' * l'| ≤ 1.002 * (|K| * M) := by
      have h := abs_add_le (k' * l' - K * M) (K * M)
      rw [sub_add_cancel, abs_mul K M, abs_of_nonneg m0] at h
      have : (ε + 1.001 / 10 ^ 15) * (|K| * M) ≤ (1 / 500) * (|K| * M) := mul_le_mul_of_nonneg_right (by norm_num; linarith) P
      generalize |k' * l'| = g1 at *
      generalize |k' * l' - K * M| = g2 at *
      norm_num at this s1 ⊢; linarith
    have hr := rnd_any (k' * l')
    have hu : |rnd (k' * l') - k' * l'| ≤ 1.002 * (|K| * M) * (2 / 10 ^ 16) + 1 / 10 ^ 72 :=
      hr.trans (by gcongr)
    refine ⟨_, im (rnd_huge (s2.trans ?_)), ?_, ?_⟩
    · have : (1.002 : ℝ) * 10 ^ 40 ≤ 10 ^ 120 := by norm_num
      have := mul_le_mul_of_nonneg_left hb (show (0 : ℝ) ≤ 1.002 by norm_num)
      linarith
    · have := abs_add_le (rnd (k' * l') - k' * l') (k' * l' - K * M)
      rw [sub_add_sub_cancel] at this
      refine this.trans ((add_le_add hu s1).trans ?_)
      norm_num at P ⊢
      nlinarith
    · have := abs_add_le (rnd (k' * l') - k' * l') (k' * l')
      rw [sub_add_cancel] at this
      refine this.trans ((add_le_add hu s2).trans ?_)
      norm_num at P ⊢
      linarith
  have PX : 0 ≤ |A| * X := by positivity
  have PY : 0 ≤ |B| * Y := by positivity
  have PZ : 0 ≤ |C| * Z := by positivity
  obtain ⟨u, iu, u1, u2⟩ := term i1 ha hx x0 (by linarith)
  obtain ⟨v, iv, v1, v2⟩ := term i2 hb hy y0 (by linarith)
  obtain ⟨w, iw, w1, w2⟩ := term i3 hc hz z0 (by linarith)
  have w1' : |σ * w - σ * (C * Z)| ≤ (ε + 2 / 10 ^ 15) * (|C| * Z) + 1 / 10 ^ 72 := by
    rw [← mul_sub, abs_mul, hσ, one_mul]; exact w1
  have w2' : |σ * w| ≤ 1.01 * (|C| * Z) + 1 / 10 ^ 72 := by rw [abs_mul, hσ, one_mul]; exact w2
  have hq' := fun s h1 h2 => hq w s iw h1 h2
  clear hq w1 w2
  generalize hw' : σ * w = ω at *
  generalize hC' : σ * (C * Z) = Γ at *
  generalize hX : |A| * X = S at *
  generalize hY : |B| * Y = T at *
  generalize hZ : |C| * Z = R at *
  generalize hV : S + T + R = V at *
  have V0 : 0 ≤ V := by linarith
  have tiny : (1 : ℝ) / 10 ^ 72 ≤ V * (1 / 10 ^ 30) := by
    have := mul_le_mul_of_nonneg_right hT0 (show (0 : ℝ) ≤ 1 / 10 ^ 30 by norm_num)
    refine le_trans ?_ this; norm_num
  have bigV : 2 * V ≤ 10 ^ 120 := (mul_le_mul_of_nonneg_left hT1 (by norm_num)).trans (by norm_num)
  have a1 : |u + v| ≤ 1.02 * V := by
    refine (abs_add_le _ _).trans ?_
    norm_num at u2 v2 tiny ⊢; linarith
  have r1 := rnd_any (u + v)
  have ip := hp u v iu iv (rnd_huge (a1.trans (by norm_num; linarith)))
  have r1' : |rnd (u + v) - (u + v)| ≤ 2.1 / 10 ^ 16 * V := by
    refine r1.trans ?_
    have := mul_le_mul_of_nonneg_right a1 (show (0 : ℝ) ≤ 2 / 10 ^ 16 by norm_num)
    norm_num at this tiny ⊢; linarith
  have a2 : |rnd (u + v) + ω| ≤ 1.1 * V := by
    have h1 := abs_add_le (rnd (u + v) - (u + v)) (u + v + ω)
    have h2 := abs_add_three u v ω
    have e : rnd (u + v) - (u + v) + (u + v + ω) = rnd (u + v) + ω := by ring
    rw [e] at h1
    norm_num at u2 v2 w2' tiny r1' ⊢; linarith
  have iq := hq' _ ip (rnd_huge (a2.trans (by norm_num; linarith)))
  have r2 := rnd_any (rnd (u + v) + ω)
  have r2' : |rnd (rnd (u + v) + ω) - (rnd (u + v) + ω)| ≤ 2.3 / 10 ^ 16 * V := by
    refine r2.trans ?_
    have := mul_le_mul_of_nonneg_right a2 (show (0 : ℝ) ≤ 2 / 10 ^ 16 by norm_num)
    norm_num at this tiny ⊢; linarith
  refine ⟨_, iq, ?_⟩
  generalize rnd (rnd (u + v) + ω) = Q at *
  generalize rnd (u + v) = P at *
  have e : Q - (A * X + B * Y + Γ) = (Q - (P + ω)) + (P - (u + v)) + ((u - A * X) + (v - B * Y) + (ω - Γ)) := by ring
  rw [e]
  refine (abs_add_three _ _ _).trans ?_
  have h3 := abs_add_three (u - A * X) (v - B * Y) (ω - Γ)
  have hs : (ε + 2 / 10 ^ 15) * S + (ε + 2 / 10 ^ 15) * T + (ε + 2 / 10 ^ 15) * R = (ε + 2 / 10 ^ 15) * V := by rw [← hV]; ring
  have : (ε + 5 / 10 ^ 15) * V = (ε + 2 / 10 ^ 15) * V + 3 / 10 ^ 15 * V := by ring
  rw [this]
  norm_num at tiny r1' r2' u1 v1 w1' hs ⊢
  linarith

end Mcu.Lemmas
