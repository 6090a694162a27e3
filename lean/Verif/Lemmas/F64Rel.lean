import Verif.Lemmas.F64Find
import Verif.Spec.Libm

/-! Interval and relative-error arithmetic in binary64. -/

namespace Mcu.Lemmas

open Mcu.Ieee Props Props.Binary64 Real

variable {L : Libm}

local notation "𝔻" => F64 L

/-! ### Rounding of large and small numbers -/

theorem rnd_any (v : ℝ) : |rnd v - v| ≤ |v| * (2 / 10 ^ 16) + 1 / 10 ^ 72 := by
  refine (rnd_error v).trans ?_
  have h1 : (2 : ℝ) ^ (-1075 : ℤ) ≤ 2 ^ (-240 : ℤ) := zpow_le_zpow_right₀ (by norm_num) (by norm_num)
  have h2 : (2 : ℝ) ^ (-240 : ℤ) ≤ 1 / 10 ^ 72 := by norm_num
  have h3 : (2 : ℝ) ^ (-53 : ℤ) ≤ 2 / 10 ^ 16 := by norm_num
  exact add_le_add (mul_le_mul_of_nonneg_left h3 (abs_nonneg _)) (h1.trans h2)

theorem rnd_huge {v : ℝ} (h : |v| ≤ 10 ^ 120) : |rnd v| < 2 ^ 1024 := by
  have h2 : Rep (2 ^ 500 : ℝ) := by
    have := rep_zpow (e := 500) (by norm_num)
    rwa [show ((2 : ℝ) ^ (500 : ℤ)) = 2 ^ 500 by rw [← zpow_natCast]; norm_num] at this
  have h3 : |v| ≤ 2 ^ 500 := by
    refine h.trans ?_
    calc (10 : ℝ) ^ 120 ≤ (2 ^ 4) ^ 120 := pow_le_pow_left₀ (by norm_num) (by norm_num) _
      _ = 2 ^ 480 := by rw [← pow_mul]
      _ ≤ _ := pow_le_pow_right₀ (by norm_num) (by norm_num)
  rw [← rnd_abs]
  exact (h2.rnd_le h3).trans_lt (pow_lt_pow_right₀ (by norm_num) (by norm_num))

/-- The rounding of a positive number, relative. -/
theorem rnd_rel {v : ℝ} (h0 : 1 / 10 ^ 50 ≤ v) : |rnd v - v| ≤ v * (3 / 10 ^ 16) := by
  refine (rnd_any v).trans ?_
  have hv : 0 < v := lt_of_lt_of_le (by norm_num) h0
  rw [abs_of_pos hv]
  have : (1 : ℝ) / 10 ^ 72 ≤ v * (1 / 10 ^ 16) := by
    refine le_trans ?_ (mul_le_mul_of_nonneg_right h0 (by norm_num)); norm_num
  linarith

theorem Is.sqrt {x : 𝔻} {a : ℝ} (h : Is x a) (h0 : 0 ≤ a) (h1 : |rnd (Real.sqrt a)| < 2 ^ 1024) : Is (Fl.sqrt x) (rnd (Real.sqrt a)) := by
  obtain ⟨f, rfl⟩ := h
  rcases x with _ | s | s | ⟨v, hv⟩
  · exact f.elim
  · exact f.elim
  · refine ⟨trivial, ?_⟩
    show (0 : ℝ) = rnd (Real.sqrt (Dbl.val (Dbl.zero s)))
    rw [show Dbl.val (Dbl.zero s) = 0 from rfl, Real.sqrt_zero, rnd_zero]
  · have h0 : 0 ≤ v := h0
    have e : (Fl.sqrt (F := 𝔻) (Dbl.num v hv)) = Dbl.ofReal false (Real.sqrt v) := by
      show Dbl.sqrt (Dbl.num v hv) = _
      simp only [Dbl.sqrt]
      rw [if_neg (not_lt.2 h0)]
    rw [e]
    exact is_ofReal _ h1

/-! ### Intervals -/

/-- A finite double between two numbers. -/
def In (x : 𝔻) (l u : ℝ) : Prop := ∃ v, Is x v ∧ l ≤ v ∧ v ≤ u

theorem In.mono {x : 𝔻} {l u l' u' : ℝ} (h : In x l u) (h1 : l' ≤ l) (h2 : u ≤ u') : In x l' u' := by
  obtain ⟨v, a, b, c⟩ := h; exact ⟨v, a, h1.trans b, c.trans h2⟩

theorem Is.in {x : 𝔻} {a : ℝ} (h : Is x a) : In x a a := ⟨a, h, le_rfl, le_rfl⟩

theorem Ap.in {x : 𝔻} {a δ : ℝ} (h : Ap x a δ) : In x (a - δ) (a + δ) := by
  obtain ⟨v, h1, h2⟩ := h
  have := abs_le.1 h2
  exact ⟨v, h1, by linarith, by linarith⟩

theorem rnd_mid {v : ℝ} (h : |v| ≤ 10 ^ 5) : |rnd v| < 2 ^ 1024 ∧ |rnd v - v| ≤ 1 / 10 ^ 10 := by
  refine ⟨rnd_huge (h.trans (by norm_num)), (rnd_any v).trans ?_⟩
  have := mul_le_mul_of_nonneg_right h (show (0 : ℝ) ≤ 2 / 10 ^ 16 by norm_num)
  norm_num at *; linarith

theorem in_rnd {x : 𝔻} {w l u : ℝ} (hx : |rnd w| < 2 ^ 1024 → Is x (rnd w)) (hl : l + 1 / 10 ^ 10 ≤ w) (hu : w + 1 / 10 ^ 10 ≤ u)
    (l0 : -10 ^ 5 ≤ l) (u0 : u ≤ 10 ^ 5) : In x l u := by
  have hw : |w| ≤ 10 ^ 5 := by
    rw [abs_le]; constructor
    · have : (0 : ℝ) < 1 / 10 ^ 10 := by norm_num
      linarith
    · have : (0 : ℝ) < 1 / 10 ^ 10 := by norm_num
      linarith
  obtain ⟨h1, h2⟩ := rnd_mid hw
  have h2 := abs_le.1 h2
  exact ⟨_, hx h1, by linarith, by linarith⟩

theorem In.add {x y : 𝔻} {a b c d : ℝ} (hx : In x a b) (hy : In y c d) (l u : ℝ) (hl : l + 1 / 10 ^ 10 ≤ a + c) (hu : b + d + 1 / 10 ^ 10 ≤ u)
    (l0 : -10 ^ 5 ≤ l) (u0 : u ≤ 10 ^ 5) : In (x + y) l u := by
  obtain ⟨v, iv, v1, v2⟩ := hx
  obtain ⟨w, iw, w1, w2⟩ := hy
  exact in_rnd (fun h => iv.add iw h) (by linarith) (by linarith) l0 u0

theorem In.sub {x y : 𝔻} {a b c d : ℝ} (hx : In x a b) (hy : In y c d) (l u : ℝ) (hl : l + 1 / 10 ^ 10 ≤ a - d) (hu : b - c + 1 / 10 ^ 10 ≤ u)
    (l0 : -10 ^ 5 ≤ l) (u0 : u ≤ 10 ^ 5) : In (x - y) l u := by
  obtain ⟨v, iv, v1, v2⟩ := hx
  obtain ⟨w, iw, w1, w2⟩ := hy
  exact in_rnd (fun h => iv.sub iw h) (by linarith) (by linarith) l0 u0

theorem In.mul {x y : 𝔻} {a b c d : ℝ} (hx : In x a b) (hy : In y c d) (l u : ℝ) (a0 : 0 ≤ a) (c0 : 0 ≤ c) (hl : l + 1 / 10 ^ 10 ≤ a * c)
    (hu : b * d + 1 / 10 ^ 10 ≤ u) (l0 : -10 ^ 5 ≤ l) (u0 : u ≤ 10 ^ 5) : In (x * y) l u := by
  obtain ⟨v, iv, v1, v2⟩ := hx
  obtain ⟨w, iw, w1, w2⟩ := hy
  have h1 : a * c ≤ v * w := mul_le_mul v1 w1 c0 (a0.trans v1)
  have h2 : v * w ≤ b * d := mul_le_mul v2 w2 (c0.trans w1) ((a0.trans v1).trans v2)
  exact in_rnd (fun h => iv.mul iw h) (by linarith) (by linarith) l0 u0

/-- A product with a negative number. -/
theorem In.mul_neg {x y : 𝔻} {a b c d : ℝ} (hx : In x a b) (hy : In y c d) (l u : ℝ) (a0 : 0 ≤ a) (d0 : d ≤ 0) (hl : l + 1 / 10 ^ 10 ≤ b * c)
    (hu : a * d + 1 / 10 ^ 10 ≤ u) (l0 : -10 ^ 5 ≤ l) (u0 : u ≤ 10 ^ 5) : In (x * y) l u := by
  obtain ⟨v, iv, v1, v2⟩ := hx
  obtain ⟨w, iw, w1, w2⟩ := hy
  have v0 : 0 ≤ v := a0.trans v1
  have h1 : b * c ≤ v * w := by nlinarith
  have h2 : v * w ≤ a * d := by nlinarith
  exact in_rnd (fun h => iv.mul iw h) (by linarith) (by linarith) l0 u0

theorem In.div {x y : 𝔻} {a b c d : ℝ} (hx : In x a b) (hy : In y c d) (l u : ℝ) (a0 : 0 ≤ a) (c0 : 0 < c) (hl : l + 1 / 10 ^ 10 ≤ a / d)
    (hu : b / c + 1 / 10 ^ 10 ≤ u) (l0 : -10 ^ 5 ≤ l) (u0 : u ≤ 10 ^ 5) : In (x / y) l u := by
  obtain ⟨v, iv, v1, v2⟩ := hx
  obtain ⟨w, iw, w1, w2⟩ := hy
  have w0 : 0 < w := c0.trans_le w1
  have h1 : a / d ≤ v / w := div_le_div₀ (a0.trans v1) v1 w0 w2
  have h2 : v / w ≤ b / c := div_le_div₀ ((a0.trans v1).trans v2) v2 c0 w1
  exact in_rnd (fun h => iv.div iw w0.ne' h) (by linarith) (by linarith) l0 u0

theorem In.sqrt {x : 𝔻} {a b : ℝ} (hx : In x a b) (l u : ℝ) (a0 : 0 ≤ a) (l0 : 0 ≤ l) (hl : (l + 1 / 10 ^ 10) ^ 2 ≤ a)
    (hu : b ≤ (u - 1 / 10 ^ 10) ^ 2) (u1 : 1 / 10 ^ 10 ≤ u) (u0 : u ≤ 10 ^ 5) : In (Fl.sqrt x) l u := by
  obtain ⟨v, iv, v1, v2⟩ := hx
  have h1 : l + 1 / 10 ^ 10 ≤ Real.sqrt v := Real.le_sqrt_of_sq_le (hl.trans v1)
  have h2 : Real.sqrt v ≤ u - 1 / 10 ^ 10 := by
    rw [Real.sqrt_le_left (by linarith)]; exact v2.trans hu
  exact in_rnd (fun h => iv.sqrt (a0.trans v1) h) h1 (by linarith) (by linarith [show (-10 ^ 5 : ℝ) ≤ 0 by norm_num]) u0

/-- A power with an exponent close to a fraction. -/
theorem In.pow (hL : L.PowOk) {x y : 𝔻} {a b : ℝ} (hx : In x a b) {n m : ℕ} (hm : m ≠ 0) {δ : ℝ} (hy : Ap y (n / m) δ) (hδ : δ ≤ 1 / 10 ^ 10)
    (h0 : 1 / 10 ^ 5 ≤ a) (h1 : b ≤ 10 ^ 4) (hn : (n : ℝ) / m ≤ 2) (hn0 : 1 / 100 ≤ (n : ℝ) / m) (l u : ℝ) (l0 : 0 ≤ l) (hl : (l * (1 + 1 / 10 ^ 7)) ^ m ≤ a ^ n)
    (u0 : 0 ≤ u) (hu : b ^ n ≤ (u * (1 - 1 / 10 ^ 7)) ^ m) : In (Fl.powf x y) l u := by
  obtain ⟨v, iv, v1, v2⟩ := hx
  obtain ⟨e, ie, he⟩ := hy
  have he' := abs_le.1 (he.trans hδ)
  norm_num at he' hn0
  have v0 : 0 < v := lt_of_lt_of_le (by norm_num) (h0.trans v1)
  obtain ⟨p, ip, hp⟩ := is_pow64 hL iv ie (le_trans (by norm_num) (h0.trans v1)) (v2.trans (h1.trans (by norm_num))) (by linarith) (by linarith)
  have hp := abs_le.1 hp
  have a0 : 0 < a := lt_of_lt_of_le (by norm_num) h0
  -- the exponent moves the power by little
  have lg : |Real.log v| ≤ 14 := by
    rw [abs_le]
    constructor
    · rw [Real.le_log_iff_exp_le v0]
      refine le_trans ?_ (h0.trans v1)
      rw [Real.exp_neg, inv_le_comm₀ (exp_pos _) (by norm_num)]
      have : (2.7 : ℝ) ≤ Real.exp 1 := by have := Real.exp_one_gt_d9; norm_num at *; linarith
      calc ((1 : ℝ) / 10 ^ 5)⁻¹ ≤ 2.7 ^ 14 := by norm_num
        _ ≤ Real.exp 1 ^ 14 := pow_le_pow_left₀ (by norm_num) this _
        _ = _ := by rw [← Real.exp_nat_mul]; norm_num
    · rw [Real.log_le_iff_le_exp v0]
      refine (v2.trans h1).trans ?_
      have : (2.7 : ℝ) ≤ Real.exp 1 := by have := Real.exp_one_gt_d9; norm_num at *; linarith
      calc ((10 : ℝ) ^ 4) ≤ 2.7 ^ 14 := by norm_num
        _ ≤ Real.exp 1 ^ 14 := pow_le_pow_left₀ (by norm_num) this _
        _ = _ := by rw [← Real.exp_nat_mul]; norm_num
  have lg' := abs_le.1 lg
  set q : ℝ := (n : ℝ) / m with hq
  have es : v ^ e = v ^ q * Real.exp ((e - q) * Real.log v) := by
    rw [rpow_def_of_pos v0, rpow_def_of_pos v0, ← Real.exp_add]; congr 1; ring
  have small : |(e - q) * Real.log v| ≤ 14 / 10 ^ 10 := by
    rw [abs_mul]
    have := mul_le_mul (he.trans hδ) lg (abs_nonneg _) (by norm_num)
    linarith
  have small' := abs_le.1 small
  have x1 : 1 - 14 / 10 ^ 10 ≤ Real.exp ((e - q) * Real.log v) := by
    have := Real.add_one_le_exp ((e - q) * Real.log v)
    linarith
  have x2 : Real.exp ((e - q) * Real.log v) ≤ 1 + 28 / 10 ^ 10 := by
    have h := Real.add_one_le_exp (-((e - q) * Real.log v))
    rw [Real.exp_neg] at h
    have h3 : (1 - 14 / 10 ^ 10 : ℝ) ≤ (Real.exp ((e - q) * Real.log v))⁻¹ := by linarith
    rw [le_inv_comm₀ (by norm_num) (exp_pos _)] at h3
    refine h3.trans ?_
    norm_num
  generalize Real.exp ((e - q) * Real.log v) = X at *
  have hvq : 0 < v ^ q := rpow_pos_of_pos v0 q
  rw [es] at hp
  have g1 : l * (1 + 1 / 10 ^ 7) ≤ v ^ q :=
    (le_rpow_of_pow_le hm (by positivity) a0.le hl).trans (rpow_le_rpow a0.le v1 (by positivity))
  have g2 : v ^ q ≤ u * (1 - 1 / 10 ^ 7) :=
    (rpow_le_rpow v0.le v2 (by positivity)).trans (rpow_le_of_le_pow hm (mul_nonneg u0 (by norm_num)) (v0.le.trans v2) hu)
  refine ⟨p, ip, ?_, ?_⟩
  · have h5 : v ^ q * (1 - 14 / 10 ^ 10) ≤ v ^ q * X := mul_le_mul_of_nonneg_left x1 hvq.le
    have h6 : v ^ q * X * (1 - 1 / 10 ^ 13) ≤ p := by linarith [hp.1]
    have h7 : v ^ q * (1 - 14 / 10 ^ 10) * (1 - 1 / 10 ^ 13) ≤ p := (mul_le_mul_of_nonneg_right h5 (by norm_num)).trans h6
    have h8 : l * (1 + 1 / 10 ^ 7) * ((1 - 14 / 10 ^ 10) * (1 - 1 / 10 ^ 13)) ≤ p := by
      rw [mul_assoc (v ^ q)] at h7
      exact (mul_le_mul_of_nonneg_right g1 (by norm_num)).trans h7
    norm_num at h8 ⊢
    linarith
  · have h5 : v ^ q * X ≤ v ^ q * (1 + 28 / 10 ^ 10) := mul_le_mul_of_nonneg_left x2 hvq.le
    have h6 : p ≤ v ^ q * X * (1 + 1 / 10 ^ 13) := by linarith [hp.2]
    have h7 : p ≤ v ^ q * (1 + 28 / 10 ^ 10) * (1 + 1 / 10 ^ 13) := h6.trans (mul_le_mul_of_nonneg_right h5 (by norm_num))
    have h8 : p ≤ u * (1 - 1 / 10 ^ 7) * ((1 + 28 / 10 ^ 10) * (1 + 1 / 10 ^ 13)) := by
      rw [mul_assoc (v ^ q)] at h7
      exact h7.trans (mul_le_mul_of_nonneg_right g2 (by norm_num))
    norm_num at h8 ⊢
    linarith

theorem in_lit {m e : ℕ} {s : Bool} (v : ℝ) (hv : (OfScientific.ofScientific m s e : ℝ) = v) (h : |v| ≤ 10 ^ 5) :
    In (OfScientific.ofScientific m s e : 𝔻) (v - 1 / 10 ^ 10) (v + 1 / 10 ^ 10) := by
  have h2 := abs_le.1 (rnd_mid h).2
  refine ⟨rnd v, is_lit hv (h.trans ?_), by linarith, by linarith⟩
  calc (10 ^ 5 : ℝ) ≤ 2 ^ 20 := by norm_num
    _ ≤ 2 ^ 1000 := pow_le_pow_right₀ (by norm_num) (by norm_num)

end Mcu.Lemmas
