import Verif.Lemmas.F64Lab
import Verif.Lemmas.F64Cam
import Verif.Lemmas.TemperatureReal
import Verif.Spec.LibmRange
import Verif.Props.Binary64Angles
import Mathlib.Analysis.SpecialFunctions.Trigonometric.Bounds
import Mathlib.Analysis.Convex.SpecificFunctions.Basic

/-! The temperature of a colour in binary64. -/

namespace Mcu.Lemmas

open Mcu.Ieee MathUtils ColorUtils TemperatureCache TemperatureSpec Props.Binary64 Real

variable {L : Libm}

local notation "𝔻" => F64 L

/-! ### CIELAB -/

theorem lab_part {u v k : 𝔻} {A B K : ℝ} (hk : Is k K) (k0 : 0 ≤ K) (k1 : K ≤ 500)
    (hu : Ap u A (15 / 10 ^ 8)) (hA : 0 ≤ A ∧ A ≤ 1.001)
    (hv : Ap v B (15 / 10 ^ 8)) (hB : 0 ≤ B ∧ B ≤ 1.001) :
    Ap (k * (u - v)) (K * (A - B)) (16 / 10 ^ 5) ∧ |K * (A - B)| ≤ 501 := by
  have hρ : ρ = 1 / 10 ^ 12 := rfl
  obtain ⟨a0, a1⟩ := hA
  obtain ⟨b0, b1⟩ := hB
  norm_num at a1 b1
  have hd : |A - B| ≤ 1.001 := by rw [abs_le]; norm_num; constructor <;> linarith
  have d := hu.sub hv (by norm_num at hd ⊢; linarith)
  refine ⟨(hk.ap.mul d (A := 500) (B := 1.001) (by rw [abs_of_nonneg k0]; exact k1) hd ?_).weaken ?_, ?_⟩
  · rw [hρ]; norm_num
  · rw [hρ]; norm_num
  · rw [abs_mul, abs_of_nonneg k0]
    calc K * |A - B| ≤ 500 * 1.001 := mul_le_mul k1 hd (abs_nonneg _) (by norm_num)
      _ ≤ 501 := by norm_num

/-- The CIELAB coordinates of a colour in binary64. -/
theorem lab64 (hL : L.PowOk) (argb : Int) :
    Ap (labFromArgb argb : Vec3 𝔻).x1 (labFromArgb argb : Vec3 ℝ).x1 (16 / 10 ^ 5) ∧
    Ap (labFromArgb argb : Vec3 𝔻).x2 (labFromArgb argb : Vec3 ℝ).x2 (16 / 10 ^ 5) ∧
    |(labFromArgb argb : Vec3 ℝ).x1| ≤ 501 ∧ |(labFromArgb argb : Vec3 ℝ).x2| ≤ 501 := by
  obtain ⟨r0, g0, b0⟩ := rgb_bounds argb
  have hx := (ap_row hL argb (p := 0.41233895) (q := 0.35762064) (r := 0.18051042)
    (ap_lit rfl (by norm_num [abs_of_pos])) (ap_lit rfl (by norm_num [abs_of_pos]))
    (ap_lit rfl (by norm_num [abs_of_pos])) (by norm_num [abs_of_pos]) (by norm_num [abs_of_pos])
    (by norm_num [abs_of_pos])).2
  have hy := (ap_row hL argb (p := 0.2126) (q := 0.7152) (r := 0.0722)
    (ap_lit rfl (by norm_num [abs_of_pos])) (ap_lit rfl (by norm_num [abs_of_pos]))
    (ap_lit rfl (by norm_num [abs_of_pos])) (by norm_num [abs_of_pos]) (by norm_num [abs_of_pos])
    (by norm_num [abs_of_pos])).2
  have hz := (ap_row hL argb (p := 0.01932141) (q := 0.11916382) (r := 0.95034478)
    (ap_lit rfl (by norm_num [abs_of_pos])) (ap_lit rfl (by norm_num [abs_of_pos]))
    (ap_lit rfl (by norm_num [abs_of_pos])) (by norm_num [abs_of_pos]) (by norm_num [abs_of_pos])
    (by norm_num [abs_of_pos])).2
  have wx : Ap (95.047 : F64 L) 95.047 ρ := ap_lit rfl (by norm_num [abs_of_pos])
  have wy : Ap (100.0 : F64 L) 100.0 ρ := by
    have := (ap100 (L := L)).weaken ρ_pos.le
    rwa [show (100.0 : ℝ) = 100 by norm_num]
  have wz : Ap (108.883 : F64 L) 108.883 ρ := ap_lit rfl (by norm_num [abs_of_pos])
  have k5 : Is (500.0 : 𝔻) 500 := by simpa using lit (L := L) 5000 1 true 500 (by norm_num) (by norm_num)
  have k2 : Is (200.0 : 𝔻) 200 := by simpa using lit (L := L) 2000 1 true 200 (by norm_num) (by norm_num)
  have e5 : (500.0 : ℝ) = 500 := by norm_num
  have e2 : (200.0 : ℝ) = 200 := by norm_num
  simp only [labFromArgb, whitePointD65, srgbToXyz]
  rw [e5, e2]
  generalize (linearized (redFromArgb argb) : ℝ) = r at *
  generalize (linearized (greenFromArgb argb) : ℝ) = g at *
  generalize (linearized (blueFromArgb argb) : ℝ) = b at *
  have bX : 0 ≤ 0.41233895 * r + 0.35762064 * g + 0.18051042 * b ∧
      0.41233895 * r + 0.35762064 * g + 0.18051042 * b ≤ 1.0001 * 95.047 := by
    norm_num; constructor <;> linarith [r0.1, r0.2, g0.1, g0.2, b0.1, b0.2]
  have bY : 0 ≤ 0.2126 * r + 0.7152 * g + 0.0722 * b ∧ 0.2126 * r + 0.7152 * g + 0.0722 * b ≤ 1.0001 * 100.0 := by
    norm_num; constructor <;> linarith [r0.1, r0.2, g0.1, g0.2, b0.1, b0.2]
  have bZ : 0 ≤ 0.01932141 * r + 0.11916382 * g + 0.95034478 * b ∧
      0.01932141 * r + 0.11916382 * g + 0.95034478 * b ≤ 1.0001 * 108.883 := by
    norm_num; constructor <;> linarith [r0.1, r0.2, g0.1, g0.2, b0.1, b0.2]
  obtain ⟨fx, fx'⟩ := ap_curve hL hx wx (by norm_num) bX.1 bX.2 (by norm_num)
  obtain ⟨fy, fy'⟩ := ap_curve hL hy wy (by norm_num) bY.1 bY.2 (by norm_num)
  obtain ⟨fz, fz'⟩ := ap_curve hL hz wz (by norm_num) bZ.1 bZ.2 (by norm_num)
  obtain ⟨p1, p2⟩ := lab_part k5 (by norm_num) le_rfl fx fx' fy fy'
  obtain ⟨q1, q2⟩ := lab_part k2 (by norm_num) (by norm_num) fy fy' fz fz'
  exact ⟨p1, q1, p2, q2⟩

/-! ### The hue term -/

theorem ap_pi : Ap (Fl.pi : 𝔻) π ρ := by
  obtain ⟨r1, r2⟩ := rnd_ok (v := π) (by rw [abs_of_pos pi_pos]; linarith [pi_lt_four])
  exact ⟨_, is_ofReal _ r1, r2⟩

theorem cos64 (hT : L.TrigOk) {x : 𝔻} {θ : ℝ} (hx : Is x θ) (hθ : |θ| ≤ 3.1416) :
    Ap (Fl.cos (sanitizeDegreesDouble (sanitizeDegreesDouble (x * 180.0 / Fl.pi) - 50.0) * Fl.pi / 180.0) : 𝔻)
      (cos (θ - 50 * π / 180)) (1 / 10 ^ 10) := by
  have hρ : ρ = 1 / 10 ^ 12 := rfl
  have π0 := pi_gt_d4
  have π1 := pi_lt_d4
  norm_num at π0 π1 hθ
  have l50 : Is (50.0 : 𝔻) 50 := by simpa using lit (L := L) 500 1 true 50 (by norm_num) (by norm_num)
  have d : Ap (x * 180.0 / Fl.pi : 𝔻) (θ * 180 / π) (1 / 10 ^ 10) := by
    have m := hx.ap.mul (l180 (L := L)).ap (A := 3.1416) (B := 180) (by norm_num; exact hθ) (by norm_num) (by norm_num)
    refine (m.div ap_pi (β := 3.14) (Q := 181) ?_ ?_ ?_ ?_).weaken ?_
    · rw [abs_of_pos pi_pos]; norm_num; linarith
    · rw [hρ]; norm_num
    · rw [abs_mul]; norm_num; linarith
    · rw [hρ]; norm_num
    · rw [hρ]; norm_num
  obtain ⟨D, hD, dD⟩ := d
  generalize (x * 180.0 / Fl.pi : 𝔻) = y at *
  obtain ⟨f, h0, h1, ⟨k, hk⟩, -⟩ := c06_binary64_partial y hD.1
  rw [show val y = D from hD.2] at hk
  obtain ⟨⟨f', s0, s1⟩, j, hj⟩ := turn64_sub (is_of _ f) l50 (by rw [abs_le]; constructor <;> linarith)
  generalize (sanitizeDegreesDouble (sanitizeDegreesDouble y - 50.0) : 𝔻) = s at *
  generalize val (sanitizeDegreesDouble y) = h at *
  have is := is_of s f'
  generalize val s = σ at *
  -- radians
  obtain ⟨p, ip, dp⟩ := ap_pi (L := L)
  rw [hρ] at dp
  have dp' := abs_le.1 dp
  norm_num at dp'
  have p0 : 3.14 ≤ p := by norm_num; linarith
  have p1 : p ≤ 3.15 := by norm_num; linarith
  have pp : 0 ≤ σ * p := mul_nonneg s0 (by norm_num at p0; linarith)
  have pu : σ * p ≤ 360 * 3.15 := mul_le_mul s1 p1 (by norm_num at p0; linarith) (by norm_num)
  obtain ⟨m1, m2⟩ := rnd_mid (v := σ * p) (by rw [abs_of_nonneg pp]; refine pu.trans (by norm_num))
  have im := is.mul ip m1
  have m0 := rnd_nonneg pp
  have m2' := abs_le.1 m2
  have hq0 : 0 ≤ rnd (σ * p) / 180 := by positivity
  have hq1 : rnd (σ * p) / 180 ≤ 7 := by
    rw [div_le_iff₀ (by norm_num)]
    norm_num at *; linarith
  obtain ⟨q1, q2⟩ := rnd_ok (v := rnd (σ * p) / 180) (by rw [abs_of_nonneg hq0]; linarith)
  have iq := im.div (l180 (L := L)) (by norm_num) q1
  have q0 := rnd_nonneg hq0
  have q2' := abs_le.1 q2
  rw [hρ] at q2'
  obtain ⟨c1, c2, -, -⟩ := hT (s * Fl.pi / 180.0 : 𝔻) iq.1 (by rw [iq.2]; exact q0) (by
    rw [iq.2]; norm_num at q2'; linarith)
  rw [iq.2] at c2
  refine ⟨_, ⟨c1, rfl⟩, ?_⟩
  change |(L.cos (s * Fl.pi / 180.0 : 𝔻)).val - _| ≤ _
  generalize (L.cos (s * Fl.pi / 180.0 : 𝔻)).val = C at *
  have hper : cos (θ - 50 * π / 180) = cos (θ - 50 * π / 180 + ((k + j : ℤ) : ℝ) * (2 * π)) :=
    (cos_add_int_mul_two_pi _ _).symm
  rw [hper]
  have hc := abs_cos_sub_cos_le (rnd (rnd (σ * p) / 180)) (θ - 50 * π / 180 + ((k + j : ℤ) : ℝ) * (2 * π))
  have main : |rnd (rnd (σ * p) / 180) - (θ - 50 * π / 180 + ((k + j : ℤ) : ℝ) * (2 * π))| ≤ 5 / 10 ^ 11 := by
    have e1 : |σ - (θ * 180 / π - 50 + 360 * ((k + j : ℤ) : ℝ))| ≤ 11 / 10 ^ 11 := by
      push_cast
      have := abs_le.1 dD
      have := abs_le.1 hk
      have := abs_le.1 hj
      have : (2 : ℝ) ^ (-45 : ℤ) ≤ 1 / 10 ^ 13 := by norm_num
      rw [abs_le]
      norm_num at *
      constructor <;> linarith
    have e2 : θ - 50 * π / 180 + ((k + j : ℤ) : ℝ) * (2 * π) = (θ * 180 / π - 50 + 360 * ((k + j : ℤ) : ℝ)) * π / 180 := by
      have := pi_pos.ne'
      field_simp
      ring
    rw [e2]
    generalize θ * 180 / π - 50 + 360 * ((k + j : ℤ) : ℝ) = τ at *
    have e3 : |σ * p - τ * π| ≤ 36 / 10 ^ 11 + 36 / 10 ^ 11 := by
      have : σ * p - τ * π = σ * (p - π) + (σ - τ) * π := by ring
      rw [this]
      refine (abs_add_le _ _).trans ?_
      rw [abs_mul, abs_mul, abs_of_nonneg s0, abs_of_pos pi_pos]
      have a1 := mul_le_mul s1 dp (abs_nonneg _) (by norm_num)
      have a2 := mul_le_mul e1 (show π ≤ 3.2 by norm_num; linarith) pi_pos.le (by norm_num)
      generalize σ * |p - π| = X at *
      generalize |σ - τ| * π = Y at *
      norm_num at *
      linarith
    have e4 := abs_le.1 e3
    generalize τ * π = T at *
    generalize rnd (rnd (σ * p) / 180) = Q at *
    generalize rnd (σ * p) = M at *
    generalize σ * p = N at *
    rw [abs_le]
    norm_num at *
    constructor <;> linarith
  have t1 := abs_le.1 c2
  have t2 := abs_le.1 (hc.trans main)
  generalize cos (rnd (rnd (σ * p) / 180)) = A at *
  generalize cos (θ - 50 * π / 180 + ((k + j : ℤ) : ℝ) * (2 * π)) = B at *
  rw [abs_le]
  norm_num at *
  constructor <;> linarith

/-! ### Powers of the chroma -/

theorem root_small {x p : ℝ} (h0 : 0 ≤ x) (h1 : x ≤ 1024) (hp0 : 0 ≤ p) (hp : p ≤ 1 / 10) : x ^ p ≤ 2 := by
  calc x ^ p ≤ 1024 ^ p := rpow_le_rpow h0 h1 hp0
    _ ≤ (1024 : ℝ) ^ (1 / 10 : ℝ) := rpow_le_rpow_of_exponent_le (by norm_num) hp
    _ = 2 := by
      rw [show (1024 : ℝ) = 2 ^ 10 by norm_num, show (1 / 10 : ℝ) = ((10 : ℕ) : ℝ)⁻¹ by norm_num,
        pow_rpow_inv_natCast (by norm_num) (by norm_num)]

theorem pow_split {x q : ℝ} (h0 : 0 ≤ x) (hq : 1 ≤ q) : x ^ q = x ^ (q - 1) * x := by
  have := rpow_add_one' h0 (y := q - 1) (by linarith)
  rwa [sub_add_cancel] at this

theorem pow_bound {x q : ℝ} (h0 : 0 ≤ x) (h1 : x ≤ 1024) (hq : 1 ≤ q) (hq1 : q ≤ 11 / 10) : x ^ q ≤ 2 * x := by
  rw [pow_split h0 hq]
  exact mul_le_mul_of_nonneg_right (root_small h0 h1 (by linarith) (by linarith)) h0

theorem pow_near {x y q : ℝ} (hx : 0 ≤ x) (hx1 : x ≤ 1024) (hy : 0 ≤ y) (hy1 : y ≤ 1024) (hq : 1 ≤ q) (hq1 : q ≤ 11 / 10) :
    |x ^ q - y ^ q| ≤ 2.2 * |x - y| := by
  have key : ∀ x y : ℝ, 0 ≤ y → y ≤ x → x ≤ 1024 → x ^ q - y ^ q ≤ 2.2 * (x - y) := by
    intro x y hy hyx hx
    rcases (hy.trans hyx).eq_or_lt with h | h
    · have : y = x := by linarith
      rw [this]; simp
    have hs := one_add_mul_self_le_rpow_one_add (s := y / x - 1) (by
      have : 0 ≤ y / x := by positivity
      linarith) hq
    rw [add_sub_cancel, div_rpow hy h.le, le_div_iff₀ (rpow_pos_of_pos h q)] at hs
    have e : x ^ q = x ^ (q - 1) * x := pow_split h.le hq
    have r := root_small (p := q - 1) h.le hx (by linarith) (by linarith)
    have r0 : 0 ≤ x ^ (q - 1) := rpow_nonneg h.le _
    have : (1 + q * (y / x - 1)) * x ^ q = x ^ q - q * x ^ (q - 1) * (x - y) := by
      rw [e]; field_simp; ring
    rw [this] at hs
    have : q * x ^ (q - 1) ≤ 2.2 := by
      calc q * x ^ (q - 1) ≤ 11 / 10 * 2 := mul_le_mul hq1 r r0 (by norm_num)
        _ = 2.2 := by norm_num
    have := mul_le_mul_of_nonneg_right this (sub_nonneg.2 hyx)
    linarith
  rcases le_total x y with h | h
  · rw [abs_sub_comm, abs_of_nonneg (sub_nonneg.2 (rpow_le_rpow hx h (by linarith))), abs_sub_comm,
      abs_of_nonneg (sub_nonneg.2 h)]
    exact key y x hx h hy1
  · rw [abs_of_nonneg (sub_nonneg.2 (rpow_le_rpow hy h (by linarith))), abs_of_nonneg (sub_nonneg.2 h)]
    exact key x y hy h hx1

/-- The varying part of the temperature as a function of the chromatic coordinates. -/
noncomputable def warmth (z : ℂ) : ℝ := ‖z‖ ^ (107 / 100 : ℝ) * cos (Complex.arg z - 50 * π / 180)

theorem temperature_eq (argb : Int) : temperature argb =
    2 / 100 * warmth ⟨(labFromArgb argb : Vec3 ℝ).x1, (labFromArgb argb : Vec3 ℝ).x2⟩ - 1 / 2 := by
  unfold temperature warmth
  simp only
  rw [Complex.norm_eq_sqrt_sq_add_sq]
  ring

theorem warmth_eq (z : ℂ) : warmth z = ‖z‖ ^ (7 / 100 : ℝ) * (z.re * cos (50 * π / 180) + z.im * sin (50 * π / 180)) := by
  unfold warmth
  rw [pow_split (norm_nonneg z) (by norm_num), cos_sub, show (107 / 100 : ℝ) - 1 = 7 / 100 by norm_num]
  have h1 := Complex.norm_mul_cos_arg z
  have h2 := Complex.norm_mul_sin_arg z
  linear_combination ‖z‖ ^ (7 / 100 : ℝ) * (cos (50 * π / 180) * h1 + sin (50 * π / 180) * h2)

theorem dot_le (z : ℂ) (φ : ℝ) : |z.re * cos φ + z.im * sin φ| ≤ ‖z‖ := by
  have h1 := Complex.norm_mul_cos_arg z
  have h2 := Complex.norm_mul_sin_arg z
  have : z.re * cos φ + z.im * sin φ = ‖z‖ * cos (Complex.arg z - φ) := by
    rw [cos_sub]; linear_combination -cos φ * h1 - sin φ * h2
  rw [this, abs_mul, abs_of_nonneg (norm_nonneg z)]
  exact mul_le_of_le_one_right (norm_nonneg z) (abs_cos_le_one _)

theorem warmth_near {z w : ℂ} (hz : ‖z‖ ≤ 1024) (hw : ‖w‖ ≤ 1024) : |warmth z - warmth w| ≤ 4.2 * ‖z - w‖ := by
  have key : ∀ z w : ℂ, ‖z‖ ≤ 1024 → ‖w‖ ≤ ‖z‖ → |warmth z - warmth w| ≤ 4.2 * ‖z - w‖ := by
    intro z w hz h
    have hn : ‖z‖ - ‖w‖ ≤ ‖z - w‖ := norm_sub_norm_le z w
    rw [warmth_eq, warmth_eq]
    have hd := dot_le (z - w) (50 * π / 180)
    have hdw := dot_le w (50 * π / 180)
    rw [Complex.sub_re, Complex.sub_im] at hd
    generalize cos (50 * π / 180) = c at *
    generalize sin (50 * π / 180) = s at *
    have e : ‖z‖ ^ (7 / 100 : ℝ) * (z.re * c + z.im * s) - ‖w‖ ^ (7 / 100 : ℝ) * (w.re * c + w.im * s)
      = ‖z‖ ^ (7 / 100 : ℝ) * ((z.re - w.re) * c + (z.im - w.im) * s)
        + (‖z‖ ^ (7 / 100 : ℝ) - ‖w‖ ^ (7 / 100 : ℝ)) * (w.re * c + w.im * s) := by ring
    rw [e]
    refine (abs_add_le _ _).trans ?_
    have r := root_small (p := 7 / 100) (norm_nonneg z) hz (by norm_num) (by norm_num)
    have r0 : 0 ≤ ‖z‖ ^ (7 / 100 : ℝ) := rpow_nonneg (norm_nonneg z) _
    have m : ‖w‖ ^ (7 / 100 : ℝ) ≤ ‖z‖ ^ (7 / 100 : ℝ) := rpow_le_rpow (norm_nonneg w) h (by norm_num)
    rw [abs_mul, abs_mul, abs_of_nonneg r0, abs_of_nonneg (sub_nonneg.2 m)]
    have a1 : ‖z‖ ^ (7 / 100 : ℝ) * |(z.re - w.re) * c + (z.im - w.im) * s| ≤ 2 * ‖z - w‖ :=
      mul_le_mul r hd (abs_nonneg _) (by norm_num)
    have a2 : (‖z‖ ^ (7 / 100 : ℝ) - ‖w‖ ^ (7 / 100 : ℝ)) * |w.re * c + w.im * s| ≤ 2.2 * ‖z - w‖ := by
      have p := pow_near (q := 107 / 100) (norm_nonneg z) hz (norm_nonneg w) (h.trans hz) (by norm_num) (by norm_num)
      rw [abs_of_nonneg (sub_nonneg.2 (rpow_le_rpow (norm_nonneg w) h (by norm_num))), abs_of_nonneg (sub_nonneg.2 h),
        pow_split (norm_nonneg z) (by norm_num), pow_split (norm_nonneg w) (by norm_num),
        show (107 / 100 : ℝ) - 1 = 7 / 100 by norm_num] at p
      have b1 := mul_le_mul_of_nonneg_left hdw (sub_nonneg.2 m)
      have b2 := mul_le_mul_of_nonneg_left h r0
      norm_num at *
      linarith
    norm_num at *
    linarith
  rcases le_total ‖w‖ ‖z‖ with h | h
  · exact key z w hz h
  · rw [abs_sub_comm, norm_sub_rev]
    exact key w z hw h

/-! ### The temperature -/

theorem rnd_big {v : ℝ} (h : |v| ≤ 6 * 10 ^ 5) : |rnd v| < 2 ^ 1024 ∧ |rnd v - v| ≤ 2 / 10 ^ 10 := by
  refine ⟨rnd_huge (h.trans (by norm_num)), (rnd_any v).trans ?_⟩
  have := mul_le_mul_of_nonneg_right h (show (0 : ℝ) ≤ 2 / 10 ^ 16 by norm_num)
  norm_num at *; linarith

/-- The chroma computed is near the length of the vector of the two coordinates. -/
theorem chroma64 {x y : 𝔻} {v w : ℝ} (hx : Is x v) (hy : Is y w) (hv : |v| ≤ 502) (hw : |w| ≤ 502) :
    ∃ K, Is (Fl.sqrt (x * x + y * y)) K ∧ 0 ≤ K ∧ |K - ‖(⟨v, w⟩ : ℂ)‖| ≤ 4 / 10 ^ 5 := by
  have hρ : ρ = 1 / 10 ^ 12 := rfl
  have v2 : v * v ≤ 502 * 502 := by rw [← abs_mul_abs_self]; exact mul_le_mul hv hv (abs_nonneg _) (by norm_num)
  have w2 : w * w ≤ 502 * 502 := by rw [← abs_mul_abs_self]; exact mul_le_mul hw hw (abs_nonneg _) (by norm_num)
  have v0 := mul_self_nonneg v
  have w0 := mul_self_nonneg w
  have hn : ‖(⟨v, w⟩ : ℂ)‖ ^ 2 = v * v + w * w := by
    rw [Complex.norm_eq_sqrt_sq_add_sq, sq_sqrt (by positivity)]
    simp only; ring
  have hN : 0 ≤ ‖(⟨v, w⟩ : ℂ)‖ := norm_nonneg _
  generalize ‖(⟨v, w⟩ : ℂ)‖ = N at *
  obtain ⟨a1, a2⟩ := rnd_big (v := v * v) (by rw [abs_of_nonneg v0]; linarith)
  obtain ⟨b1, b2⟩ := rnd_big (v := w * w) (by rw [abs_of_nonneg w0]; linarith)
  have ia := hx.mul hx a1
  have ib := hy.mul hy b1
  have ra := rnd_nonneg v0
  have rb := rnd_nonneg w0
  generalize rnd (v * v) = p at *
  generalize rnd (w * w) = q at *
  have a2 := abs_le.1 a2
  have b2 := abs_le.1 b2
  obtain ⟨c1, c2⟩ := rnd_big (v := p + q) (by
    rw [abs_of_nonneg (add_nonneg ra rb)]
    norm_num at a2 b2 ⊢; linarith)
  have ic := ia.add ib c1
  have rc := rnd_nonneg (add_nonneg ra rb)
  generalize rnd (p + q) = S at *
  have c2 := abs_le.1 c2
  have hS : |S - N ^ 2| ≤ 9 / 10 ^ 10 := by
    rw [hn, abs_le]; norm_num at *; constructor <;> linarith
  have hS1 : S ≤ 10 ^ 6 := by norm_num at *; linarith
  have hr0 := Real.sqrt_nonneg S
  have hr1 : Real.sqrt S ≤ 1000 := by rw [Real.sqrt_le_left (by norm_num)]; norm_num at hS1 ⊢; linarith
  obtain ⟨d1, d2⟩ := rnd_ok (v := Real.sqrt S) (by rw [abs_of_nonneg hr0]; exact hr1)
  refine ⟨_, ic.sqrt rc d1, rnd_nonneg hr0, ?_⟩
  have hsq := Real.sq_sqrt rc
  generalize Real.sqrt S = r at *
  rw [← hsq] at hS
  have hd : |r - N| ≤ 3 / 10 ^ 5 := by
    have h1 : |r - N| * |r - N| ≤ |r ^ 2 - N ^ 2| := by
      rw [show r ^ 2 - N ^ 2 = (r - N) * (r + N) by ring, abs_mul]
      refine mul_le_mul_of_nonneg_left ?_ (abs_nonneg _)
      rw [abs_of_nonneg (add_nonneg hr0 hN), abs_le]
      constructor <;> linarith
    have h2 := abs_nonneg (r - N)
    generalize |r - N| = t at *
    norm_num at hS ⊢
    nlinarith
  rw [hρ] at d2
  have := abs_le.1 d2
  have := abs_le.1 hd
  generalize rnd r = m at *
  rw [abs_le]
  norm_num at *
  constructor <;> linarith

theorem in_107 : In (1.07 : 𝔻) 1.069 1.071 :=
  (in_lit (L := L) (m := 107) (s := true) (e := 2) 1.07 (by norm_num) (by norm_num [abs_le])).mono (by norm_num) (by norm_num)

/-- The raw temperature of every colour is finite. -/
theorem temp_fin (hS : L.Sound) (argb : Int) : Bd (rawTemperatureOfArgb argb : 𝔻) (10 ^ 7) := by
  obtain ⟨⟨v, iv, dv⟩, ⟨w, iw, dw⟩, ba, bb⟩ := lab64 (L := L) hS.pow argb
  unfold rawTemperatureOfArgb
  simp only
  generalize (labFromArgb argb : Vec3 ℝ) = lab at *
  generalize (labFromArgb argb : Vec3 𝔻) = lab64 at *
  have hv : |v| ≤ 502 := by
    have := abs_le.1 dv; have := abs_le.1 ba; rw [abs_le]; norm_num at *; constructor <;> linarith
  have hw : |w| ≤ 502 := by
    have := abs_le.1 dw; have := abs_le.1 bb; rw [abs_le]; norm_num at *; constructor <;> linarith
  obtain ⟨f, hθ⟩ := hS.atan lab64.x2 lab64.x1 iw.1 iv.1
  obtain ⟨θ, iθ, hθ⟩ : ∃ θ, Is (Fl.atan2 lab64.x2 lab64.x1 : 𝔻) θ ∧ |θ| ≤ 3.1416 := ⟨_, ⟨f, rfl⟩, hθ⟩
  obtain ⟨c, ic, dc⟩ := cos64 hS.trig iθ hθ
  have hc : |c| ≤ 2 := by
    have := abs_le.1 dc
    have := abs_le.1 (abs_cos_le_one (θ - 50 * π / 180))
    rw [abs_le]
    generalize cos (θ - 50 * π / 180) = q at *
    norm_num at *
    constructor <;> linarith
  have s := ((iv.bd 502 hv).sq 252005 (by norm_num) (by norm_num)).add0 ((iw.bd 502 hw).sq 252005 (by norm_num) (by norm_num))
    504011 (by norm_num) (by norm_num)
  have k := s.sqrt0 800 (by norm_num) (by norm_num) (by norm_num)
  have p := k.pow0 hS.pow hS.dark (in_107 (L := L)) (by norm_num) (k := 2) (by norm_num) (Or.inr rfl) (by norm_num) 704001
    (by norm_num) (by norm_num)
  have m := (bd_lit (L := L) (m := 2) (s := true) (e := 2) 0.02 (by norm_num) 1.02 (by norm_num [abs_of_pos]) (by norm_num)).mul
    (p.bd 704001 (by norm_num) le_rfl) 718083 (by norm_num) (by norm_num)
  have m := m.mul (ic.bd 2 hc) 1436167 (by norm_num) (by norm_num)
  have h5 := (bd_lit (L := L) (m := 5) (s := true) (e := 1) 0.5 (by norm_num) 1.5 (by norm_num [abs_of_pos]) (by norm_num)).neg
  exact h5.add m _ (by norm_num) (by norm_num)

/-- The power of the chroma. -/
theorem chroma_pow64 (hS : L.Sound) (hT : L.TempOk) {x : 𝔻} {K N : ℝ} (hx : Is x K) (k0 : 0 ≤ K) (n0 : 0 ≤ N) (n1 : N ≤ 720)
    (hd : |K - N| ≤ 4 / 10 ^ 5) : Ap (Fl.powf x 1.07 : 𝔻) (N ^ (107 / 100 : ℝ)) (1 / 10 ^ 4) := by
  have hρ : ρ = 1 / 10 ^ 12 := rfl
  obtain ⟨e, ie, de⟩ := ap_lit (L := L) (m := 107) (s := true) (e := 2) (v := 1.07) rfl (by norm_num [abs_of_pos])
  change Is (1.07 : 𝔻) e at ie
  rw [hρ] at de
  have hde := abs_le.1 de
  norm_num at hde
  have e1 : 1 ≤ e := by linarith
  have e2 : e ≤ 1.1 := by norm_num; linarith
  have hd' := abs_le.1 hd
  norm_num at hd'
  have k1 : K ≤ 721 := by linarith
  rcases le_or_gt K (1 / 10 ^ 6) with h | h
  · obtain ⟨f, -, -⟩ := hS.dark x (1.07 : 𝔻) hx.1 ie.1 (by rw [hx.2]; exact k0) (by rw [hx.2]; exact h)
      (by rw [ie.2]; norm_num; linarith) (by rw [ie.2]; norm_num at e2; linarith)
    obtain ⟨p0, p1⟩ := hT.faint x (1.07 : 𝔻) hx.1 ie.1 (by rw [hx.2]; exact k0) (by rw [hx.2]; exact h)
      (by rw [ie.2]; linarith) (by rw [ie.2]; exact e2)
    refine ⟨_, ⟨f, rfl⟩, ?_⟩
    change |(L.powf x (1.07 : 𝔻)).val - _| ≤ _
    have q0 : 0 ≤ N ^ (107 / 100 : ℝ) := rpow_nonneg n0 _
    have q1 := rpow_le_self_of_le_one n0 (x := N) (by norm_num at h; linarith) (show (1 : ℝ) ≤ 107 / 100 by norm_num)
    generalize N ^ (107 / 100 : ℝ) = q at *
    rw [abs_le]
    norm_num at *
    constructor <;> linarith
  · obtain ⟨f, dp⟩ := hS.pow x (1.07 : 𝔻) hx.1 ie.1 (by rw [hx.2]; exact h.le) (by rw [hx.2]; linarith)
      (by rw [ie.2]; linarith) (by rw [ie.2]; norm_num at e2; linarith)
    rw [hx.2, ie.2] at dp
    refine ⟨_, ⟨f, rfl⟩, ?_⟩
    change |(L.powf x (1.07 : 𝔻)).val - _| ≤ _
    generalize (L.powf x (1.07 : 𝔻)).val = P at *
    have kp : 0 < K := lt_trans (by norm_num) h
    have b1 := pow_bound (q := e) k0 (by linarith) e1 (by norm_num at e2; linarith)
    have b2 := pow_bound (q := 107 / 100) k0 (by linarith) (by norm_num) (by norm_num)
    have n := pow_near (q := 107 / 100) k0 (by linarith) n0 (by linarith) (by norm_num) (by norm_num)
    have b3 : 0 ≤ K ^ (107 / 100 : ℝ) := rpow_nonneg k0 _
    have mid : |K ^ e - K ^ (107 / 100 : ℝ)| ≤ 5 / 10 ^ 6 := by
      have e3 : K ^ e = K ^ (107 / 100 : ℝ) * exp ((e - 107 / 100) * log K) := by
        rw [rpow_def_of_pos kp, rpow_def_of_pos kp, ← exp_add]; congr 1; ring
      have hη : |e - 107 / 100| ≤ 1 / 10 ^ 12 := by rw [abs_le]; norm_num; constructor <;> linarith
      have l1 : log K ≤ K := (log_le_sub_one_of_pos kp).trans (by linarith)
      have l2 : -log K ≤ K⁻¹ := by
        rw [← log_inv]; exact (log_le_sub_one_of_pos (inv_pos.2 kp)).trans (by linarith)
      have l3 : K⁻¹ ≤ 10 ^ 6 := by
        rw [inv_le_comm₀ kp (by norm_num)]; refine le_trans (by norm_num) h.le
      have l4 : |log K| ≤ 10 ^ 6 := by rw [abs_le]; constructor <;> norm_num at l3 ⊢ <;> linarith
      have hs : |(e - 107 / 100) * log K| ≤ 1 / 10 ^ 12 * |log K| := by
        rw [abs_mul]; exact mul_le_mul_of_nonneg_right hη (abs_nonneg _)
      have hs1 : |(e - 107 / 100) * log K| ≤ 1 := hs.trans (by norm_num at l4 ⊢; linarith)
      have hexp := Real.abs_exp_sub_one_le hs1
      rw [e3, show K ^ (107 / 100 : ℝ) * exp ((e - 107 / 100) * log K) - K ^ (107 / 100 : ℝ) =
        K ^ (107 / 100 : ℝ) * (exp ((e - 107 / 100) * log K) - 1) by ring, abs_mul, abs_of_nonneg b3]
      have t1 : K ^ (107 / 100 : ℝ) * |log K| ≤ 1.1 * 10 ^ 6 := by
        rcases le_total K 1 with hk | hk
        · have : K ^ (107 / 100 : ℝ) ≤ 1 := rpow_le_one k0 hk (by norm_num)
          calc K ^ (107 / 100 : ℝ) * |log K| ≤ 1 * 10 ^ 6 := mul_le_mul this l4 (abs_nonneg _) (by norm_num)
            _ ≤ _ := by norm_num
        · have : |log K| ≤ 721 := by rw [abs_of_nonneg (log_nonneg hk)]; linarith
          calc K ^ (107 / 100 : ℝ) * |log K| ≤ (2 * 721) * 721 := mul_le_mul (b2.trans (by linarith)) this (abs_nonneg _) (by norm_num)
            _ ≤ _ := by norm_num
      have t2 := mul_le_mul_of_nonneg_left (hexp.trans (mul_le_mul_of_nonneg_left hs (by norm_num : (0 : ℝ) ≤ 2))) b3
      refine t2.trans ?_
      have : K ^ (107 / 100 : ℝ) * (2 * (1 / 10 ^ 12 * |log K|)) = 2 / 10 ^ 12 * (K ^ (107 / 100 : ℝ) * |log K|) := by ring
      rw [this]
      generalize K ^ (107 / 100 : ℝ) * |log K| = X at *
      norm_num at *
      linarith
    have u1 := abs_le.1 dp
    have u2 := abs_le.1 mid
    have u3 := abs_le.1 n
    generalize K ^ e = A at *
    generalize K ^ (107 / 100 : ℝ) = B at *
    generalize N ^ (107 / 100 : ℝ) = C at *
    generalize |K - N| = D at *
    rw [abs_le]
    norm_num at *
    constructor <;> linarith

/-- The raw temperature of every colour is near the documented one. -/
theorem temp_near (hS : L.Sound) (hT : L.TempOk) (argb : Int) :
    Ap (rawTemperatureOfArgb argb : 𝔻) (temperature argb) (1 / 10 ^ 4) := by
  have hρ : ρ = 1 / 10 ^ 12 := rfl
  obtain ⟨⟨v, iv, dv⟩, ⟨w, iw, dw⟩, ba, bb⟩ := lab64 (L := L) hS.pow argb
  rw [temperature_eq]
  unfold rawTemperatureOfArgb
  simp only
  generalize (labFromArgb argb : Vec3 ℝ) = lab at *
  generalize (labFromArgb argb : Vec3 𝔻) = lab64 at *
  have hv : |v| ≤ 502 := by
    have := abs_le.1 dv; have := abs_le.1 ba; rw [abs_le]; norm_num at *; constructor <;> linarith
  have hw : |w| ≤ 502 := by
    have := abs_le.1 dw; have := abs_le.1 bb; rw [abs_le]; norm_num at *; constructor <;> linarith
  have norm_le : ∀ a b : ℝ, |a| ≤ 502 → |b| ≤ 502 → ‖(⟨a, b⟩ : ℂ)‖ ≤ 720 := by
    intro a b ha hb
    rw [Complex.norm_eq_sqrt_sq_add_sq, Real.sqrt_le_left (by norm_num)]
    have h1 := pow_le_pow_left₀ (abs_nonneg a) ha 2
    have h2 := pow_le_pow_left₀ (abs_nonneg b) hb 2
    rw [sq_abs] at h1 h2
    norm_num at *
    linarith
  have hn := norm_le v w hv hw
  have hn' := norm_le lab.x1 lab.x2 (ba.trans (by norm_num)) (bb.trans (by norm_num))
  obtain ⟨f, hθ⟩ := hS.atan lab64.x2 lab64.x1 iw.1 iv.1
  have hang := hT.atan lab64.x2 lab64.x1 iw.1 iv.1
  rw [iv.2, iw.2] at hang
  obtain ⟨θ, iθ, hθ, hang⟩ : ∃ θ, Is (Fl.atan2 lab64.x2 lab64.x1 : 𝔻) θ ∧ |θ| ≤ 3.1416 ∧ (¬ (v = 0 ∧ w = 0) →
      ∃ k : ℤ, |θ - (Complex.arg ⟨v, w⟩ + k * (2 * π))| ≤ 1 / 10 ^ 12) := ⟨_, ⟨f, rfl⟩, hθ, hang⟩
  have ic := cos64 hS.trig iθ hθ
  obtain ⟨K, iK, k0, dK⟩ := chroma64 iv iw hv hw
  have ip := chroma_pow64 hS hT iK k0 (norm_nonneg _) hn dK
  have pb := pow_bound (q := 107 / 100) (norm_nonneg (⟨v, w⟩ : ℂ)) (by linarith) (by norm_num) (by norm_num)
  have p0 : 0 ≤ ‖(⟨v, w⟩ : ℂ)‖ ^ (107 / 100 : ℝ) := rpow_nonneg (norm_nonneg _) _
  have i2 : Ap (0.02 : 𝔻) 0.02 ρ := ap_lit rfl (by norm_num [abs_of_pos])
  have i5 : Ap (-0.5 : 𝔻) (-0.5) ρ := (ap_lit (L := L) (m := 5) (s := true) (e := 1) (v := 0.5) rfl (by norm_num [abs_of_pos])).neg
  have wn := warmth_near (z := ⟨v, w⟩) (w := ⟨lab.x1, lab.x2⟩) (by linarith) (by linarith)
  have wd : ‖(⟨v, w⟩ : ℂ) - ⟨lab.x1, lab.x2⟩‖ ≤ 32 / 10 ^ 5 := by
    refine (Complex.norm_le_abs_re_add_abs_im _).trans ?_
    simp only [Complex.sub_re, Complex.sub_im]
    norm_num at *
    linarith
  -- the exact angle
  have hcos : |‖(⟨v, w⟩ : ℂ)‖ ^ (107 / 100 : ℝ) * cos (θ - 50 * π / 180) - warmth ⟨v, w⟩| ≤ 1 / 10 ^ 8 := by
    unfold warmth
    rw [← mul_sub, abs_mul, abs_of_nonneg p0]
    by_cases hz : v = 0 ∧ w = 0
    · have : (⟨v, w⟩ : ℂ) = 0 := by rw [hz.1, hz.2]; rfl
      rw [this, norm_zero, zero_rpow (by norm_num), zero_mul]
      norm_num
    · obtain ⟨k, hk⟩ := hang hz
      have e : cos (Complex.arg ⟨v, w⟩ - 50 * π / 180) = cos (Complex.arg ⟨v, w⟩ - 50 * π / 180 + k * (2 * π)) :=
        (cos_add_int_mul_two_pi _ k).symm
      rw [e]
      have h1 := abs_cos_sub_cos_le (θ - 50 * π / 180) (Complex.arg ⟨v, w⟩ - 50 * π / 180 + k * (2 * π))
      rw [show θ - 50 * π / 180 - (Complex.arg ⟨v, w⟩ - 50 * π / 180 + k * (2 * π)) = θ - (Complex.arg ⟨v, w⟩ + k * (2 * π)) by ring] at h1
      have h2 := mul_le_mul (pb.trans (show 2 * ‖(⟨v, w⟩ : ℂ)‖ ≤ 1440 by linarith)) (h1.trans hk) (abs_nonneg _) (by norm_num)
      refine h2.trans (by norm_num)
  generalize ‖(⟨v, w⟩ : ℂ)‖ ^ (107 / 100 : ℝ) = R at *
  have hR : |R| ≤ 1440 := by rw [abs_of_nonneg p0]; linarith
  have m1 := (i2.mul ip (A := 0.02) (B := 1440) (by norm_num [abs_of_pos]) hR (by rw [hρ]; norm_num)).weaken (ε := 1 / 10 ^ 5)
    (by rw [hρ]; norm_num)
  have m2 := (m1.mul ic (A := 29) (B := 1) (by rw [abs_mul]; norm_num [abs_of_pos] at *; linarith) (abs_cos_le_one _)
    (by norm_num)).weaken (ε := 2 / 10 ^ 5) (by rw [hρ]; norm_num)
  have hb : |0.02 * R * cos (θ - 50 * π / 180)| ≤ 29 := by
    rw [abs_mul, abs_mul]
    have := abs_cos_le_one (θ - 50 * π / 180)
    calc |(0.02 : ℝ)| * |R| * |cos (θ - 50 * π / 180)| ≤ (|(0.02 : ℝ)| * |R|) * 1 :=
          mul_le_mul_of_nonneg_left this (by positivity)
      _ ≤ 29 := by norm_num [abs_of_pos] at *; linarith
  have m3 := (i5.add m2 (by
    have := abs_add_le (-0.5) (0.02 * R * cos (θ - 50 * π / 180))
    rw [hρ]
    have h5 : |(-0.5 : ℝ)| = 0.5 := by norm_num [abs_of_neg]
    rw [h5] at this
    generalize |(-0.5) + 0.02 * R * cos (θ - 50 * π / 180)| = X at *
    norm_num at *
    linarith)).weaken (ε := 3 / 10 ^ 5) (by rw [hρ]; norm_num)
  refine (m3.shift (ε := 6 / 10 ^ 5) ?_).weaken (by norm_num)
  have h1 := abs_le.1 hcos
  have h2 := abs_le.1 wn
  have e : 0.02 * R * cos (θ - 50 * π / 180) = 0.02 * (R * cos (θ - 50 * π / 180)) := by ring
  rw [e]
  generalize R * cos (θ - 50 * π / 180) = X at *
  generalize warmth ⟨v, w⟩ = Y at *
  generalize warmth ⟨lab.x1, lab.x2⟩ = Z at *
  rw [abs_le]
  norm_num at *
  constructor <;> linarith

end Mcu.Lemmas
