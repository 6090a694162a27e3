import Verif.Lemmas.F64Approx
import Verif.Props.Color

/-! The transfer functions and the L* curve in doubles, compared with their values over the real numbers. -/

namespace Mcu.Lemmas

open Mcu.Ieee Mcu ColorUtils MathUtils Real

variable {L : Libm}

/-! ### Powers of nearby numbers -/

theorem exp_sub_le {s t E : ℝ} (hs : exp s ≤ E) (ht : exp t ≤ E) : |exp s - exp t| ≤ E * |s - t| := by
  have key : ∀ a b : ℝ, exp a ≤ E → b ≤ a → exp a - exp b ≤ E * (a - b) := by
    intro a b ha hba
    have h1 := add_one_le_exp (b - a)
    have h2 : exp b = exp a * exp (b - a) := by rw [← exp_add]; congr 1; ring
    have h3 := exp_pos a
    calc exp a - exp b = exp a * (1 - exp (b - a)) := by rw [h2]; ring
      _ ≤ exp a * (a - b) := mul_le_mul_of_nonneg_left (by linarith) h3.le
      _ ≤ E * (a - b) := mul_le_mul_of_nonneg_right ha (by linarith)
  rcases le_total t s with h | h
  · rw [abs_of_nonneg (by linarith [exp_le_exp.2 h]), abs_of_nonneg (by linarith)]
    exact key s t hs h
  · rw [abs_sub_comm, abs_sub_comm s t, abs_of_nonneg (by linarith [exp_le_exp.2 h]), abs_of_nonneg (by linarith)]
    exact key t s ht h

theorem log_sub_le {v a m : ℝ} (hm : 0 < m) (hv : m ≤ v) (ha : m ≤ a) : |log v - log a| ≤ |v - a| / m := by
  have key : ∀ p q : ℝ, m ≤ p → m ≤ q → log p - log q ≤ |p - q| / m := by
    intro p q hp hq
    have hp0 : 0 < p := by linarith
    have hq0 : 0 < q := by linarith
    rw [← log_div hp0.ne' hq0.ne']
    have := log_le_sub_one_of_pos (div_pos hp0 hq0)
    refine this.trans ?_
    calc p / q - 1 = (p - q) / q := by field_simp
      _ ≤ |p - q| / q := by gcongr; exact le_abs_self _
      _ ≤ |p - q| / m := by gcongr
  rw [abs_le]
  have h1 := key v a hv ha
  have h2 := key a v ha hv
  rw [abs_sub_comm a v] at h2
  constructor <;> linarith

/-- The powers of two nearby numbers (below 1.01) with nearby exponents. -/
theorem rpow_near {v a w b m W : ℝ} (hm : 0 < m) (hv : m ≤ v) (ha : m ≤ a) (hv1 : v ≤ 1.01) (ha1 : a ≤ 1.01)
    (hw0 : 0 ≤ w) (hwW : w ≤ W) (hb0 : 0 ≤ b) (hb3 : b ≤ 3) (hw3 : w ≤ 3) :
    |v ^ w - a ^ b| ≤ 2 * ((W * |v - a| + |w - b|) / m) := by
  have hv0 : 0 < v := by linarith
  have ha0 : 0 < a := by linarith
  have E : ∀ x y : ℝ, 0 < x → x ≤ 1.01 → 0 ≤ y → y ≤ 3 → exp (log x * y) ≤ 2 := by
    intro x y hx hx1 hy hy3
    rw [← rpow_def_of_pos hx]
    calc x ^ y ≤ (1.01 : ℝ) ^ y := rpow_le_rpow hx.le hx1 hy
      _ ≤ (1.01 : ℝ) ^ (3 : ℝ) := rpow_le_rpow_of_exponent_le (by norm_num) hy3
      _ = (1.01 : ℝ) ^ (3 : ℕ) := by rw [← rpow_natCast]; norm_num
      _ ≤ 2 := by norm_num
  rw [rpow_def_of_pos hv0, rpow_def_of_pos ha0]
  refine (exp_sub_le (E v w hv0 hv1 hw0 hw3) (E a b ha0 ha1 hb0 hb3)).trans ?_
  refine mul_le_mul_of_nonneg_left ?_ (by norm_num)
  have hl : |log a| ≤ 1 / m := by
    rw [abs_le]
    have h1 := log_le_sub_one_of_pos ha0
    have h2 := log_le_sub_one_of_pos (inv_pos.2 ha0)
    rw [log_inv] at h2
    have h3 : a⁻¹ ≤ 1 / m := by rw [← one_div]; gcongr
    have h4 : (1 : ℝ) / 1.01 ≤ 1 / m := one_div_le_one_div_of_le hm (ha.trans ha1)
    norm_num at h4 ha1
    constructor
    · linarith
    · rw [one_div]; linarith
  have hW : 0 ≤ W := hw0.trans hwW
  calc |log v * w - log a * b| = |w * (log v - log a) + log a * (w - b)| := by congr 1; ring
    _ ≤ |w * (log v - log a)| + |log a * (w - b)| := abs_add_le _ _
    _ = w * |log v - log a| + |log a| * |w - b| := by rw [abs_mul, abs_mul, abs_of_nonneg hw0]
    _ ≤ W * (|v - a| / m) + 1 / m * |w - b| :=
        add_le_add (mul_le_mul hwW (log_sub_le hm hv ha) (abs_nonneg _) hW)
          (mul_le_mul_of_nonneg_right hl (abs_nonneg _))
    _ = _ := by ring

theorem Ap.pow {x y : F64 L} {a b δ ε m W : ℝ} (hL : L.PowOk) (hx : Ap x a δ) (hy : Ap y b ε) (hm : 1 / 10 ^ 6 ≤ m)
    (hma : m ≤ a - δ) (ha1 : a + δ ≤ 1.01) (hb0 : 0 ≤ b - ε) (hbW : b + ε ≤ W) (hW : W ≤ 3) :
    Ap (Fl.powf x y) (a ^ b) (2 * ((W * δ + ε) / m) + ρ) := by
  have hδ := hx.nonneg
  have hε := hy.nonneg
  obtain ⟨v, hv, hd⟩ := hx
  obtain ⟨w, hw, he⟩ := hy
  have hd' := abs_le.1 hd
  have he' := abs_le.1 he
  have hm0 : 0 < m := lt_of_lt_of_le (by norm_num) hm
  obtain ⟨p1, p2⟩ := hL x y hv.1 hw.1 (by rw [hv.2]; linarith) (by rw [hv.2]; norm_num at ha1 ⊢; linarith)
    (by rw [hw.2]; linarith) (by rw [hw.2]; linarith)
  rw [hv.2, hw.2] at p2
  have hW0 : 0 ≤ W := by linarith
  have near := rpow_near hm0 (show m ≤ v by linarith) (show m ≤ a by linarith) (show v ≤ 1.01 by linarith)
    (show a ≤ 1.01 by linarith) (show 0 ≤ w by linarith) (show w ≤ W by linarith) (show 0 ≤ b by linarith)
    (show b ≤ 3 by linarith) (show w ≤ 3 by linarith)
  have hv0 : 0 ≤ v := by linarith
  have hp : v ^ w ≤ 2 := by
    calc v ^ w ≤ (1.01 : ℝ) ^ w := rpow_le_rpow hv0 (by linarith) (by linarith)
      _ ≤ (1.01 : ℝ) ^ (3 : ℝ) := rpow_le_rpow_of_exponent_le (by norm_num) (by linarith)
      _ = (1.01 : ℝ) ^ (3 : ℕ) := by rw [← rpow_natCast]; norm_num
      _ ≤ 2 := by norm_num
  refine ⟨_, ⟨p1, rfl⟩, ?_⟩
  have h2 : 2 * ((W * |v - a| + |w - b|) / m) ≤ 2 * ((W * δ + ε) / m) := by
    have := mul_le_mul_of_nonneg_left hd hW0
    gcongr
  have h3 : v ^ w / 10 ^ 13 ≤ ρ := by
    unfold ρ
    rw [div_le_div_iff₀ (by norm_num) (by norm_num)]
    norm_num; linarith
  calc |Dbl.val (L.powf x y) - a ^ b| = |(Dbl.val (L.powf x y) - v ^ w) + (v ^ w - a ^ b)| := by congr 1; ring
    _ ≤ _ := abs_add_le _ _
    _ ≤ _ := by linarith

/-! ### Literals -/

theorem ap_int {m e : ℕ} {s : Bool} (n : ℤ) (hv : (OfScientific.ofScientific m s e : ℝ) = n) (h : |n| ≤ 2 ^ 53) :
    Ap (OfScientific.ofScientific m s e : F64 L) n 0 := (is_lit_int hv h).ap

theorem ap255 : Ap (255.0 : F64 L) 255 0 := by simpa using ap_int (L := L) (m := 2550) (s := true) (e := 1) 255 (by norm_num) (by norm_num)
theorem ap100 : Ap (100.0 : F64 L) 100 0 := by simpa using ap_int (L := L) (m := 1000) (s := true) (e := 1) 100 (by norm_num) (by norm_num)
theorem ap1 : Ap (1.0 : F64 L) 1 0 := by simpa using ap_int (L := L) (m := 10) (s := true) (e := 1) 1 (by norm_num) (by norm_num)
theorem ap3 : Ap (3.0 : F64 L) 3 0 := by simpa using ap_int (L := L) (m := 30) (s := true) (e := 1) 3 (by norm_num) (by norm_num)
theorem ap16 : Ap (16.0 : F64 L) 16 0 := by simpa using ap_int (L := L) (m := 160) (s := true) (e := 1) 16 (by norm_num) (by norm_num)
theorem ap27 : Ap (27.0 : F64 L) 27 0 := by simpa using ap_int (L := L) (m := 270) (s := true) (e := 1) 27 (by norm_num) (by norm_num)
theorem ap116 : Ap (116.0 : F64 L) 116 0 := by simpa using ap_int (L := L) (m := 1160) (s := true) (e := 1) 116 (by norm_num) (by norm_num)
theorem ap200 : Ap (200.0 : F64 L) 200 0 := by simpa using ap_int (L := L) (m := 2000) (s := true) (e := 1) 200 (by norm_num) (by norm_num)
theorem ap216 : Ap (216.0 : F64 L) 216 0 := by simpa using ap_int (L := L) (m := 2160) (s := true) (e := 1) 216 (by norm_num) (by norm_num)
theorem ap500 : Ap (500.0 : F64 L) 500 0 := by simpa using ap_int (L := L) (m := 5000) (s := true) (e := 1) 500 (by norm_num) (by norm_num)
theorem ap24389 : Ap (24389.0 : F64 L) 24389 0 := by
  simpa using ap_int (L := L) (m := 243890) (s := true) (e := 1) 24389 (by norm_num) (by norm_num)

theorem ap_ofInt {n : ℤ} (h : |n| ≤ 2 ^ 53) : Ap (Fl.ofInt n : F64 L) n 0 := (is_ofInt h).ap

/-! ### `linearized` and `delinearized` -/

theorem gpow_le_one {v : ℝ} (h0 : 0 ≤ v) (h1 : v ≤ 1) : gpow v ≤ 1 := by
  have := gpow_mono (v := v) (w := 1) (by norm_num; linarith) h1
  refine this.trans (le_of_eq ?_)
  unfold gpow
  rw [show ((1 : ℝ) + 0.055) / 1.055 = 1 by norm_num, one_rpow]

theorem ap_linearized (hL : L.PowOk) {c : ℤ} (h0 : 0 ≤ c) (h1 : c ≤ 255) :
    Ap (linearized c : F64 L) (linearized c : ℝ) (4 / 10 ^ 8) := by
  have hc0 : (0 : ℝ) ≤ c := by exact_mod_cast h0
  have hc1 : (c : ℝ) ≤ 255 := by exact_mod_cast h1
  have hq0 : (0 : ℝ) ≤ c / 255 := by positivity
  have hq1 : (c : ℝ) / 255 ≤ 1 := by rw [div_le_one (by norm_num)]; exact hc1
  have hn : Ap (Fl.ofInt c / 255.0 : F64 L) ((c : ℝ) / 255) ρ := by
    refine ((ap_ofInt (L := L) (n := c) (by rw [abs_of_nonneg h0]; omega)).div ap255 (β := 255) (Q := 1)
      (by norm_num) (by norm_num) (by rw [abs_of_nonneg hc0]; linarith) (by norm_num)).weaken (by norm_num)
  have hthr : Ap (0.040449936 : F64 L) 0.040449936 ρ := ap_lit rfl (by norm_num [abs_of_pos])
  simp only [linearized]
  rcases le_or_gt c 10 with h | h
  · have hr : (c : ℝ) ≤ 10 := by exact_mod_cast h
    rw [if_pos (hn.le_of hthr (by unfold ρ; norm_num; linarith))]
    have := linearized_small h
    simp only [linearized] at this
    rw [this]
    have h12 : Ap (12.92 : F64 L) 12.92 ρ := ap_lit rfl (by norm_num [abs_of_pos])
    have hd := hn.div h12 (β := 12.92) (Q := 1) (by norm_num [abs_of_pos]) (by unfold ρ; norm_num)
      (by rw [abs_of_nonneg hq0]; norm_num; linarith) (by unfold ρ; norm_num)
    have hd := hd.weaken (ε := 2 * ρ) (by unfold ρ; norm_num)
    have hq2 : (c : ℝ) / 255 / 12.92 ≤ 1 := by norm_num; linarith
    exact (hd.mul ap100 (A := 1) (B := 100) (by rw [abs_of_nonneg (by positivity)]; exact hq2)
      (by norm_num) (by unfold ρ; norm_num)).weaken (by unfold ρ; norm_num)
  · have h : 11 ≤ c := h
    have hr : (11 : ℝ) ≤ c := by exact_mod_cast h
    rw [if_neg (hn.not_le_of hthr (by unfold ρ; norm_num; linarith))]
    have := linearized_large h
    simp only [linearized] at this
    rw [this]
    have h55 : Ap (0.055 : F64 L) 0.055 ρ := ap_lit rfl (by norm_num [abs_of_pos])
    have h1055 : Ap (1.055 : F64 L) 1.055 ρ := ap_lit rfl (by norm_num [abs_of_pos])
    have h24 : Ap (2.4 : F64 L) 2.4 ρ := ap_lit rfl (by norm_num [abs_of_pos])
    have hs : Ap _ ((c : ℝ) / 255 + 0.055) (3 * ρ) :=
      (hn.add h55 (by rw [abs_of_nonneg (by positivity)]; unfold ρ; norm_num; linarith)).weaken (by linarith)
    have hd := (hs.div h1055 (β := 1.055) (Q := 1) (by norm_num [abs_of_pos]) (by unfold ρ; norm_num)
      (by rw [abs_of_nonneg (by positivity)]; norm_num; linarith) (by unfold ρ; norm_num)).weaken
      (ε := 5 * ρ) (by unfold ρ; norm_num)
    have hp := (hd.pow hL h24 (m := 0.09) (W := 2.41) (by norm_num) (by unfold ρ; norm_num; linarith)
      (by unfold ρ; norm_num; linarith) (by unfold ρ; norm_num) (by unfold ρ; norm_num) (by norm_num)).weaken
      (ε := 300 * ρ) (by unfold ρ; norm_num)
    refine (hp.mul ap100 (A := 1) (B := 100) ?_ (by norm_num) (by unfold ρ; norm_num)).weaken (by unfold ρ; norm_num)
    have g1 := gpow_nonneg (v := c / 255) (by norm_num; linarith)
    have g2 := gpow_le_one hq0 hq1
    unfold gpow at g1 g2
    rw [abs_of_nonneg g1]; exact g2

/-- The margin of `delinearized_near` before rounding to a channel. -/
theorem encode_near {x : ℝ} {c : ℤ} (h0 : 0 ≤ c) (h1 : c ≤ 255)
    (h : |x - linearized c| ≤ 0.008) : |encode (x / 100) * 255 - c| ≤ 0.45 ∧
      (c ≤ 10 → x / 100 ≤ 0.00312) ∧ (11 ≤ c → 0.0032 ≤ x / 100 ∧ x / 100 ≤ 1.001) := by
  rw [abs_le] at h
  rcases le_or_gt c 10 with hc | hc
  · have hcr : (c : ℝ) ≤ 10 := by exact_mod_cast hc
    rw [linearized_small hc] at h
    have hle' : x / 100 ≤ 0.00312 := by norm_num at h ⊢; linarith
    have hle : x / 100 ≤ 0.0031308 := by norm_num at hle' ⊢; linarith
    refine ⟨?_, fun _ => hle', fun h => by omega⟩
    unfold encode
    rw [if_pos hle, abs_le]
    norm_num at h ⊢
    constructor <;> linarith
  · have hc : 11 ≤ c := hc
    have hcr : (11 : ℝ) ≤ c := by exact_mod_cast hc
    have hcr1 : (c : ℝ) ≤ 255 := by exact_mod_cast h1
    have hl1 := gpow_le_one (v := c / 255) (by positivity) (by rw [div_le_one (by norm_num)]; exact hcr1)
    rw [linearized_large hc] at h
    have lo := gpow_sub_ge (v := (c - 0.45) / 255) (h := 0.45 / 255)
      (by norm_num; linarith) (by norm_num)
    have lo2 : gpow ((c - 0.45) / 255 + 0.45 / 255) = gpow (c / 255) := by congr 1; ring
    have hi := gpow_sub_ge (v := c / 255) (h := 0.45 / 255) (by norm_num; linarith) (by norm_num)
    have hlo : gpow ((c - 0.45) / 255) < x / 100 := by norm_num at h lo lo2 ⊢; linarith
    have hhi : x / 100 < gpow (c / 255 + 0.45 / 255) := by norm_num at h hi ⊢; linarith
    have hbase : (0.0032 : ℝ) < gpow (c / 255) - 0.00008 := by
      have : (0.0033 : ℝ) < gpow (11 / 255) := by
            unfold gpow; rw [e24]; apply lt_rpow_of_pow_lt <;> norm_num
      have h2 : gpow (11 / 255) ≤ gpow (c / 255) := gpow_mono (by norm_num) (by gcongr)
      norm_num at this ⊢; linarith
    have hx1 : 0.0032 ≤ x / 100 := by norm_num at hbase h ⊢; linarith
    have hx0 : (0 : ℝ) ≤ x / 100 := by norm_num at hx1; linarith
    have hgt : ¬ x / 100 ≤ 0.0031308 := by rw [not_le]; norm_num at hx1 ⊢; linarith
    refine ⟨?_, fun h => by omega, fun _ => ⟨hx1, by norm_num at h ⊢; linarith⟩⟩
    unfold encode
    rw [if_neg hgt]
    generalize hv : 1.055 * (x / 100) ^ (1.0 / 2.4 : ℝ) - 0.055 = v
    have hvx : gpow v = x / 100 := by rw [← hv]; exact gpow_encode_pow hx0
    have hv0 : -0.055 ≤ v := by
      rw [← hv]
      have : (0 : ℝ) ≤ (x / 100) ^ (1.0 / 2.4 : ℝ) := by positivity
      norm_num; linarith
    have a1 : (c - 0.45) / 255 < v := by
      by_contra hcon
      have := gpow_mono hv0 (not_lt.1 hcon)
      rw [hvx] at this; linarith
    have a2 : v < c / 255 + 0.45 / 255 := by
      by_contra hcon
      have := gpow_mono (v := c / 255 + 0.45 / 255) (w := v) (by norm_num; linarith) (not_lt.1 hcon)
      rw [hvx] at this; linarith
    rw [abs_le]
    norm_num at a1 a2 ⊢
    constructor <;> linarith

/-- The computed linear value of a channel, and anything close to it, is encoded as that channel. -/
theorem delinearized_ap (hL : L.PowOk) {x : F64 L} {a δ : ℝ} {c : ℤ} (hx : Ap x a δ) (h0 : 0 ≤ c) (h1 : c ≤ 255)
    (h : |a - linearized c| + δ ≤ 0.008) : delinearized x = c := by
  obtain ⟨v, hv, hd⟩ := hx
  have hvl : |v - linearized c| ≤ 0.008 := by
    calc |v - linearized c| = |(v - a) + (a - linearized c)| := by congr 1; ring
      _ ≤ _ := abs_add_le _ _
      _ ≤ _ := by linarith
  have hl := Props.linearized_range c h0 h1
  have hv1 : |v| ≤ 101 := by
    have := abs_le.1 hvl
    rw [abs_le]; norm_num at this ⊢; constructor <;> linarith
  obtain ⟨e1, e2, e3⟩ := encode_near h0 h1 hvl
  have hn : Ap (x / 100.0) (v / 100) ρ :=
    (hv.ap.div ap100 (β := 100) (Q := 2) (by norm_num) (by norm_num) (by linarith) (by norm_num)).weaken
      (by norm_num)
  have hthr : Ap (0.0031308 : F64 L) 0.0031308 ρ := ap_lit rfl (by norm_num [abs_of_pos])
  have hc1 : |c| ≤ 1000 := by rw [abs_of_nonneg h0]; omega
  have hq : |v / 100| ≤ 1.01 := by rw [abs_div, abs_of_pos (show (0:ℝ) < 100 by norm_num)]; norm_num; linarith
  -- the value that is rounded
  have key : Fl.toI64 (Fl.round ((if x / 100.0 ≤ (0.0031308 : F64 L) then x / 100.0 * 12.92
      else 1.055 * Fl.powf (x / 100.0) (1.0 / 2.4) - 0.055) * 255.0)) = c := by
    have h12 : Ap (12.92 : F64 L) 12.92 ρ := ap_lit rfl (by norm_num [abs_of_pos])
    rcases le_or_gt c 10 with hc | hc
    · have hle := e2 hc
      have he : encode (v / 100) = v / 100 * 12.92 := by
        unfold encode; rw [if_pos (by norm_num at hle ⊢; linarith)]
      rw [if_pos (hn.le_of hthr (by unfold ρ; norm_num at hle ⊢; linarith))]
      have m1 := (hn.mul h12 (A := 1.01) (B := 12.92) hq (by norm_num [abs_of_pos])
        (by unfold ρ; norm_num)).weaken (ε := 20 * ρ) (by unfold ρ; norm_num)
      rw [← he] at m1
      have hE : |encode (v / 100)| ≤ 3 := by
        have hcr0 : (0 : ℝ) ≤ c := by exact_mod_cast h0
        have hcr : (c : ℝ) ≤ 10 := by exact_mod_cast hc
        have := abs_le.1 e1
        rw [abs_le]; norm_num at this ⊢; constructor <;> linarith
      have m2 := m1.mul ap255 (A := 3) (B := 255) hE (by norm_num) (by unfold ρ; norm_num)
      exact m2.toI64_round (by unfold ρ; norm_num at e1 ⊢; linarith) hc1
    · have hc : 11 ≤ c := hc
      obtain ⟨hlo, hhi⟩ := e3 hc
      have he : encode (v / 100) = 1.055 * (v / 100) ^ (1.0 / 2.4 : ℝ) - 0.055 := by
        unfold encode; rw [if_neg (by norm_num at hlo ⊢; linarith)]
      rw [if_neg (hn.not_le_of hthr (by unfold ρ; norm_num at hlo ⊢; linarith))]
      have h55 : Ap (0.055 : F64 L) 0.055 ρ := ap_lit rfl (by norm_num [abs_of_pos])
      have h1055 : Ap (1.055 : F64 L) 1.055 ρ := ap_lit rfl (by norm_num [abs_of_pos])
      have h24 : Ap (2.4 : F64 L) 2.4 ρ := ap_lit rfl (by norm_num [abs_of_pos])
      have hex : Ap (1.0 / 2.4 : F64 L) (1.0 / 2.4) (2 * ρ) := by
        have := (ap1 (L := L)).div h24 (β := 2.4) (Q := 1) (by norm_num [abs_of_pos]) (by unfold ρ; norm_num)
          (by norm_num) (by unfold ρ; norm_num)
        rw [show (1.0 : ℝ) / 2.4 = 1 / 2.4 by norm_num]
        exact this.weaken (by unfold ρ; norm_num)
      have hp := (hn.pow hL hex (m := 0.003) (W := 0.42) (by norm_num)
        (by unfold ρ; norm_num at hlo ⊢; linarith) (by unfold ρ; norm_num at hhi ⊢; linarith)
        (by unfold ρ; norm_num) (by unfold ρ; norm_num) (by norm_num)).weaken (ε := 2000 * ρ) (by unfold ρ; norm_num)
      have hP : |(v / 100) ^ (1.0 / 2.4 : ℝ)| ≤ 1.01 := by
        have hv0 : 0 ≤ v / 100 := by norm_num at hlo; linarith
        rw [abs_of_nonneg (rpow_nonneg hv0 _)]
        calc (v / 100) ^ (1.0 / 2.4 : ℝ) ≤ (1.01 : ℝ) ^ (1.0 / 2.4 : ℝ) :=
              rpow_le_rpow hv0 (by norm_num at hhi ⊢; linarith) (by norm_num)
          _ ≤ (1.01 : ℝ) ^ (1 : ℝ) := rpow_le_rpow_of_exponent_le (by norm_num) (by norm_num)
          _ = 1.01 := rpow_one _
      have m1 := (h1055.mul hp (A := 1.055) (B := 1.01) (by norm_num [abs_of_pos]) hP
        (by unfold ρ; norm_num)).weaken (ε := 3000 * ρ) (by unfold ρ; norm_num)
      have hcr0 : (0 : ℝ) ≤ c := by exact_mod_cast h0
      have hcr : (c : ℝ) ≤ 255 := by exact_mod_cast h1
      have hE : |encode (v / 100)| ≤ 3 := by
        have := abs_le.1 e1
        rw [abs_le]; norm_num at this ⊢; constructor <;> linarith
      have hE' := hE
      rw [he] at hE'
      have m2 := (m1.sub h55 (by unfold ρ; linarith)).weaken (ε := 4000 * ρ) (by unfold ρ; norm_num)
      rw [← he] at m2
      have m3 := m2.mul ap255 (A := 3) (B := 255) hE (by norm_num) (by unfold ρ; norm_num)
      exact m3.toI64_round (by unfold ρ; norm_num at e1 ⊢; linarith) hc1
  simp only [delinearized]
  rw [key]
  unfold clampInt
  split <;> (try split) <;> omega

end Mcu.Lemmas
