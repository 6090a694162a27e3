import Verif.Lemmas.F64Ray

/-! A colour of the exact search whose computed responses are those of a colour near the gamut: the same holds of the point of
the ray, and the responses agree. -/

namespace Mcu.Lemmas

open Mcu.Ieee Props Props.Binary64 MathUtils ColorUtils HctSolver Real

variable {L : Libm}

local notation "𝔻" => F64 L

/-- Rounding next to a number `S` that is not tiny. -/
theorem rnd_next {v K S : ℝ} (hS : 1 / 1000 ≤ S) (h : |v| ≤ K * S) (hK : 0 ≤ K) : |rnd v - v| ≤ (K * (2 / 10 ^ 16) + 1 / 10 ^ 60) * S := by
  refine (rnd_any v).trans ?_
  have h1 : |v| * (2 / 10 ^ 16) ≤ K * S * (2 / 10 ^ 16) := mul_le_mul_of_nonneg_right h (by norm_num)
  have h2 : (1 : ℝ) / 10 ^ 72 ≤ 1 / 10 ^ 60 * S := by
    have := mul_le_mul_of_nonneg_left hS (show (0 : ℝ) ≤ 1 / 10 ^ 60 by norm_num)
    refine le_trans ?_ this
    norm_num
  calc _ ≤ K * S * (2 / 10 ^ 16) + 1 / 10 ^ 60 * S := add_le_add h1 h2
    _ = _ := by ring

theorem abs_mul_le {x y A B : ℝ} (hx : |x| ≤ A) (hy : |y| ≤ B) : |x * y| ≤ A * B := by
  rw [abs_mul]; exact mul_le_mul hx hy (abs_nonneg _) ((abs_nonneg _).trans hx)

/-! ### The responses -/

theorem resp_add {p M a N b : 𝔻} {ϖ m x n y S : ℝ} (hp : Is p ϖ) (hM : Is M m) (ha : Is a x) (hN : Is N n) (hb : Is b y)
    (hS : 1 / 1000 ≤ S) (bp : |ϖ| ≤ S) (bx : |x| ≤ 1.01 * S) (by' : |y| ≤ 1.01 * S) (bm : |m| ≤ 6300) (bn : |n| ≤ 6300)
    (h : Dbl.Fin ((460.0 * p + M * a + N * b) / 1403.0)) :
    ∃ α, Is ((460.0 * p + M * a + N * b) / 1403.0) α ∧ |1403 * α - (460 * ϖ + m * x + n * y)| ≤ 1 / 10 ^ 10 * S := by
  have i1403 : Is (1403.0 : 𝔻) 1403 := by simpa using lit (L := L) 14030 1 true 1403 (by norm_num) (by norm_num)
  have i460 : Is (460.0 : 𝔻) 460 := by simpa using lit (L := L) 4600 1 true 460 (by norm_num) (by norm_num)
  obtain ⟨u, iu, hr⟩ := inv_div i1403 (by norm_num) h
  obtain ⟨f1, f2⟩ := fin_add iu.1
  have jn := inv_mul hN hb f2
  obtain ⟨v, iv, ju⟩ := inv_add jn iu.1
  obtain rfl := iu.unique ju
  obtain ⟨f3, f4⟩ := fin_add iv.1
  have jm := inv_mul hM ha f4
  obtain ⟨w, iw, jv⟩ := inv_add jm iv.1
  obtain rfl := iv.unique jv
  have jw := inv_mul i460 hp iw.1
  obtain rfl := iw.unique jw
  refine ⟨_, hr, ?_⟩
  have S0 : 0 < S := by linarith
  have b1 := abs_mul_le (x := 460) (A := 460) (by norm_num) bp
  have b2 := abs_mul_le bm bx
  have b3 := abs_mul_le bn by'
  rw [← mul_assoc] at b2 b3
  have e1 := rnd_next hS b1 (by norm_num)
  have e2 := rnd_next hS b2 (by norm_num)
  have e3 := rnd_next hS b3 (by norm_num)
  generalize m * x = mx at *
  generalize n * y = ny at *
  generalize rnd (460 * ϖ) = p' at *
  generalize rnd mx = m' at *
  generalize rnd ny = n' at *
  rw [abs_le] at e1 e2 e3 b1 b2 b3
  have b4 : |p' + m'| ≤ 7000 * S := by
    rw [abs_le]; norm_num at *; constructor <;> linarith
  have e4 := rnd_next hS b4 (by norm_num)
  generalize rnd (p' + m') = s1 at *
  rw [abs_le] at e4 b4
  have b5 : |s1 + n'| ≤ 14000 * S := by
    rw [abs_le]; norm_num at *; constructor <;> linarith
  have e5 := rnd_next hS b5 (by norm_num)
  generalize rnd (s1 + n') = s2 at *
  rw [abs_le] at e5 b5
  have b6 : |s2 / 1403| ≤ 10 * S := by
    rw [abs_le, le_div_iff₀ (by norm_num), div_le_iff₀ (by norm_num)]; norm_num at *; constructor <;> linarith
  have e6 := rnd_next hS b6 (by norm_num)
  generalize rnd (s2 / 1403) = z at *
  rw [abs_le] at e6 ⊢
  norm_num at *
  constructor <;> linarith

theorem resp_sub {p M a N b : 𝔻} {ϖ m x n y S : ℝ} (hp : Is p ϖ) (hM : Is M m) (ha : Is a x) (hN : Is N n) (hb : Is b y)
    (hS : 1 / 1000 ≤ S) (bp : |ϖ| ≤ S) (bx : |x| ≤ 1.01 * S) (by' : |y| ≤ 1.01 * S) (bm : |m| ≤ 6300) (bn : |n| ≤ 6300)
    (h : Dbl.Fin ((460.0 * p - M * a - N * b) / 1403.0)) :
    ∃ α, Is ((460.0 * p - M * a - N * b) / 1403.0) α ∧ |1403 * α - (460 * ϖ - m * x - n * y)| ≤ 1 / 10 ^ 10 * S := by
  have i1403 : Is (1403.0 : 𝔻) 1403 := by simpa using lit (L := L) 14030 1 true 1403 (by norm_num) (by norm_num)
  have i460 : Is (460.0 : 𝔻) 460 := by simpa using lit (L := L) 4600 1 true 460 (by norm_num) (by norm_num)
  obtain ⟨u, iu, hr⟩ := inv_div i1403 (by norm_num) h
  obtain ⟨f1, f2⟩ := fin_sub iu.1
  have jn := inv_mul hN hb f2
  obtain ⟨v, iv, ju⟩ := inv_sub jn iu.1
  obtain rfl := iu.unique ju
  obtain ⟨f3, f4⟩ := fin_sub iv.1
  have jm := inv_mul hM ha f4
  obtain ⟨w, iw, jv⟩ := inv_sub jm iv.1
  obtain rfl := iv.unique jv
  have jw := inv_mul i460 hp iw.1
  obtain rfl := iw.unique jw
  refine ⟨_, hr, ?_⟩
  have S0 : 0 < S := by linarith
  have b1 := abs_mul_le (x := 460) (A := 460) (by norm_num) bp
  have b2 := abs_mul_le bm bx
  have b3 := abs_mul_le bn by'
  rw [← mul_assoc] at b2 b3
  have e1 := rnd_next hS b1 (by norm_num)
  have e2 := rnd_next hS b2 (by norm_num)
  have e3 := rnd_next hS b3 (by norm_num)
  generalize m * x = mx at *
  generalize n * y = ny at *
  generalize rnd (460 * ϖ) = p' at *
  generalize rnd mx = m' at *
  generalize rnd ny = n' at *
  rw [abs_le] at e1 e2 e3 b1 b2 b3
  have b4 : |p' - m'| ≤ 7000 * S := by
    rw [abs_le]; norm_num at *; constructor <;> linarith
  have e4 := rnd_next hS b4 (by norm_num)
  generalize rnd (p' - m') = s1 at *
  rw [abs_le] at e4 b4
  have b5 : |s1 - n'| ≤ 14000 * S := by
    rw [abs_le]; norm_num at *; constructor <;> linarith
  have e5 := rnd_next hS b5 (by norm_num)
  generalize rnd (s1 - n') = s2 at *
  rw [abs_le] at e5 b5
  have b6 : |s2 / 1403| ≤ 10 * S := by
    rw [abs_le, le_div_iff₀ (by norm_num), div_le_iff₀ (by norm_num)]; norm_num at *; constructor <;> linarith
  have e6 := rnd_next hS b6 (by norm_num)
  generalize rnd (s2 / 1403) = z at *
  rw [abs_le] at e6 ⊢
  norm_num at *
  constructor <;> linarith

theorem i451 : Is (451.0 : 𝔻) 451 := by simpa using lit (L := L) 4510 1 true 451 (by norm_num) (by norm_num)
theorem i288 : Is (288.0 : 𝔻) 288 := by simpa using lit (L := L) 2880 1 true 288 (by norm_num) (by norm_num)
theorem i891 : Is (891.0 : 𝔻) 891 := by simpa using lit (L := L) 8910 1 true 891 (by norm_num) (by norm_num)
theorem i261 : Is (261.0 : 𝔻) 261 := by simpa using lit (L := L) 2610 1 true 261 (by norm_num) (by norm_num)
theorem i220 : Is (220.0 : 𝔻) 220 := by simpa using lit (L := L) 2200 1 true 220 (by norm_num) (by norm_num)
theorem i6300 : Is (6300.0 : 𝔻) 6300 := by simpa using lit (L := L) 63000 1 true 6300 (by norm_num) (by norm_num)

theorem fin_div' {x y : 𝔻} {b : ℝ} (hy : Is y b) (hb : b ≠ 0) (h : Dbl.Fin (x / y)) : Dbl.Fin x := (inv_div hy hb h).choose_spec.1.1

/-- The computed responses in terms of the computed achromatic response and `gamma`. -/
theorem responses64 {p g c s : 𝔻} {ϖ γ κ σ : ℝ} (hp : Is p ϖ) (hc : Is c κ) (hs : Is s σ) (bc : |κ| ≤ 1.001) (bs : |σ| ≤ 1.001)
    (p0 : 1 / 1000 ≤ ϖ) (hg : Is g γ) (fr : Dbl.Fin (respR p (g * c) (g * s))) (fg : Dbl.Fin (respG p (g * c) (g * s)))
    (fb : Dbl.Fin (respB p (g * c) (g * s))) :
    ∃ r g' b, Is (respR p (g * c) (g * s)) r ∧ Is (respG p (g * c) (g * s)) g' ∧ Is (respB p (g * c) (g * s)) b ∧
      |1403 * r - (460 * ϖ + 451 * (γ * κ) + 288 * (γ * σ))| ≤ 1 / 10 ^ 9 * (ϖ + |γ|) ∧
      |1403 * g' - (460 * ϖ - 891 * (γ * κ) - 261 * (γ * σ))| ≤ 1 / 10 ^ 9 * (ϖ + |γ|) ∧
      |1403 * b - (460 * ϖ - 220 * (γ * κ) - 6300 * (γ * σ))| ≤ 1 / 10 ^ 9 * (ϖ + |γ|) := by
  have i1403 : Is (1403.0 : 𝔻) 1403 := by simpa using lit (L := L) 14030 1 true 1403 (by norm_num) (by norm_num)
  have f1 := fin_div' i1403 (by norm_num) fr
  have fy := (fin_mul' (fin_add f1).2).2
  have fx := (fin_mul' (fin_add (fin_add f1).1).2).2
  have jx := inv_mul hg hc fx
  have jy := inv_mul hg hs fy
  have g0 := abs_nonneg γ
  set S := ϖ + |γ| with hS
  have S0 : 1 / 1000 ≤ S := by linarith
  have Sp : 0 < S := by linarith
  have bγ : |γ| ≤ 1 * S := by linarith
  have bx := abs_mul_le bγ bc
  have by' := abs_mul_le bγ bs
  have bx : |γ * κ| ≤ 1.001 * S := by linarith
  have by' : |γ * σ| ≤ 1.001 * S := by linarith
  have ex := rnd_next S0 bx (by norm_num)
  have ey := rnd_next S0 by' (by norm_num)
  have bp : |ϖ| ≤ S := by rw [abs_of_pos (by linarith)]; linarith
  generalize γ * κ = x at *
  generalize γ * σ = y at *
  have cx : |rnd x| ≤ 1.01 * S := by
    rw [abs_le] at *
    generalize rnd x = x' at *
    norm_num at *; constructor <;> linarith
  have cy : |rnd y| ≤ 1.01 * S := by
    rw [abs_le] at *
    generalize rnd y = y' at *
    norm_num at *; constructor <;> linarith
  obtain ⟨r, ir, hr⟩ := resp_add hp i451 jx i288 jy S0 bp cx cy (by norm_num) (by norm_num) fr
  obtain ⟨g', ig, hg'⟩ := resp_sub hp i891 jx i261 jy S0 bp cx cy (by norm_num) (by norm_num) fg
  obtain ⟨b, ib, hb⟩ := resp_sub hp i220 jx i6300 jy S0 bp cx cy (by norm_num) (by norm_num) fb
  refine ⟨r, g', b, ir, ig, ib, ?_, ?_, ?_⟩
  all_goals
    rw [abs_le] at *
    generalize rnd x = x' at *
    generalize rnd y = y' at *
    clear ir ig ib jx jy hp hg hc hs fr fg fb f1 fx fy i1403
    norm_num at *
    constructor <;> linarith

/-! ### Numerator and denominator -/

theorem rl_num {p t : 𝔻} {P T : ℝ} (hp : Rl p P (1 / 10 ^ 11)) (ht : Rl t T (1 / 10 ^ 11)) (p0 : 0.0078 ≤ P) (p1 : P ≤ 40)
    (t0 : 1 / 10 ^ 6 ≤ T) (t1 : T ≤ 10 ^ 60) : Rl (numOf p t) (23 * (P + 0.305) * T) (3 / 10 ^ 11) := by
  have i23 : Is (23.0 : 𝔻) 23 := by simpa using lit (L := L) 230 1 true 23 (by norm_num) (by norm_num)
  have P0 : 0 < P := by norm_num at p0; linarith
  have T0 : 0 < T := lt_of_lt_of_le (by norm_num) t0
  have r1 := hp.add (rl_lit (L := L) (m := 305) (s := true) (e := 3) 0.305 (by norm_num) (by norm_num) (by norm_num)) P0 (by norm_num) (by norm_num) (by norm_num)
    (by norm_num; linarith) (by norm_num; linarith) (by norm_num) (1.001 / 10 ^ 11) (by norm_num)
  have r2 := i23.rl.mul r1 (by norm_num) (by positivity) le_rfl (by norm_num) (by norm_num; linarith) (by norm_num; linarith) (by norm_num) (1.01 / 10 ^ 11) (by norm_num)
  refine r2.mul ht (by positivity) T0 (by norm_num) (by norm_num) ?_ ?_ (by norm_num) _ (by norm_num)
  · have : 1 * (1 / 10 ^ 6) ≤ 23 * (P + 0.305) * T := mul_le_mul (by norm_num; linarith) t0 (by norm_num) (by positivity)
    refine le_trans ?_ this
    norm_num
  · have : 23 * (P + 0.305) * T ≤ 1000 * 10 ^ 60 := mul_le_mul (by norm_num; linarith) t1 T0.le (by norm_num)
    refine this.trans ?_
    norm_num

theorem den64 {p t c s : 𝔻} {ϖ T κ σ : ℝ} (hp : Is p ϖ) (ht : Rl t T (1 / 10 ^ 11)) (hc : Is c κ) (hs : Is s σ) (bc : |κ| ≤ 1.001)
    (bs : |σ| ≤ 1.001) (p0 : 2000 ≤ ϖ) (p1 : ϖ ≤ 5000) (t0 : 0 < T) (t1 : T ≤ 10 ^ 60) :
    ∃ D, Is (denOf p t c s) D ∧ |D - (23 * ϖ + T * (11 * κ + 108 * σ))| ≤ 2 / 10 ^ 9 * (T + ϖ) := by
  have i23 : Is (23.0 : 𝔻) 23 := by simpa using lit (L := L) 230 1 true 23 (by norm_num) (by norm_num)
  have i11 : Is (11.0 : 𝔻) 11 := by simpa using lit (L := L) 110 1 true 11 (by norm_num) (by norm_num)
  have i108 : Is (108.0 : 𝔻) 108 := by simpa using lit (L := L) 1080 1 true 108 (by norm_num) (by norm_num)
  obtain ⟨τ, iτ, hτ⟩ := ht
  set S := T + ϖ with hS
  have S0 : 1 / 1000 ≤ S := by norm_num; linarith
  have Sp : 0 < S := by linarith
  have S1 : S ≤ 10 ^ 61 := by
    rw [hS]
    have : (10 : ℝ) ^ 61 = 10 * 10 ^ 60 := by norm_num
    have : (10000 : ℝ) ≤ 10 ^ 60 := by norm_num
    linarith
  have step : ∀ v : ℝ, |v| ≤ 1000 * S → |rnd v| < 2 ^ 1024 ∧ |rnd v - v| ≤ 1 / 10 ^ 12 * S := fun v hv => by
    refine ⟨rnd_huge (hv.trans ?_), (rnd_next S0 hv (by norm_num)).trans (mul_le_mul_of_nonneg_right (by norm_num) Sp.le)⟩
    calc 1000 * S ≤ 1000 * 10 ^ 61 := by linarith
      _ ≤ _ := by norm_num
  rw [abs_le] at hτ
  have bτ : |τ| ≤ 1.001 * S := by rw [abs_le]; norm_num at *; constructor <;> linarith
  have bT : |T| ≤ S := by rw [abs_of_pos t0]; linarith
  -- 23 p
  obtain ⟨o1, e1⟩ := step (23 * ϖ) (by rw [abs_of_pos (by linarith)]; linarith)
  have j1 := i23.mul hp o1
  -- 11 t c
  obtain ⟨o2, e2⟩ := step (11 * τ) (by rw [abs_le] at *; norm_num at *; constructor <;> linarith)
  have j2 := i11.mul iτ o2
  have b2 : |rnd (11 * τ)| ≤ 12 * S := by
    generalize rnd (11 * τ) = w at *
    rw [abs_le] at *; norm_num at *; constructor <;> linarith
  have b3 := abs_mul_le b2 bc
  obtain ⟨o3, e3⟩ := step (rnd (11 * τ) * κ) (b3.trans (by norm_num; linarith))
  have j3 := j2.mul hc o3
  have m3 : |rnd (11 * τ) * κ - T * (11 * κ)| ≤ 2 / 10 ^ 10 * S := by
    have h : |rnd (11 * τ) - 11 * T| ≤ 1.5 / 10 ^ 10 * S := by
      generalize rnd (11 * τ) = w at *
      rw [abs_le] at *; norm_num at *; constructor <;> linarith
    have := abs_mul_le h bc
    rw [show rnd (11 * τ) * κ - T * (11 * κ) = (rnd (11 * τ) - 11 * T) * κ by ring]
    refine this.trans ?_
    norm_num; linarith
  -- 108 t s
  obtain ⟨o4, e4⟩ := step (108 * τ) (by rw [abs_le] at *; norm_num at *; constructor <;> linarith)
  have j4 := i108.mul iτ o4
  have b4 : |rnd (108 * τ)| ≤ 109 * S := by
    generalize rnd (108 * τ) = w at *
    rw [abs_le] at *; norm_num at *; constructor <;> linarith
  have b5 := abs_mul_le b4 bs
  obtain ⟨o5, e5⟩ := step (rnd (108 * τ) * σ) (b5.trans (by norm_num; linarith))
  have j5 := j4.mul hs o5
  have m5 : |rnd (108 * τ) * σ - T * (108 * σ)| ≤ 1.2 / 10 ^ 9 * S := by
    have h : |rnd (108 * τ) - 108 * T| ≤ 1.1 / 10 ^ 9 * S := by
      generalize rnd (108 * τ) = w at *
      rw [abs_le] at *; norm_num at *; constructor <;> linarith
    have := abs_mul_le h bs
    rw [show rnd (108 * τ) * σ - T * (108 * σ) = (rnd (108 * τ) - 108 * T) * σ by ring]
    refine this.trans ?_
    norm_num; linarith
  -- sums
  have c1 := abs_mul_le bT bc
  have c2 := abs_mul_le bT bs
  rw [mul_add, show T * (11 * κ) = 11 * (T * κ) by ring, show T * (108 * σ) = 108 * (T * σ) by ring] at *
  generalize T * κ = tk at *
  generalize T * σ = ts at *
  generalize rnd (11 * τ) * κ = w3 at *
  generalize rnd (108 * τ) * σ = w5 at *
  generalize rnd w3 = z3 at *
  generalize rnd w5 = z5 at *
  generalize rnd (23 * ϖ) = z1 at *
  obtain ⟨o6, e6⟩ := step (z1 + z3) (by rw [abs_le] at *; norm_num at *; constructor <;> linarith)
  have j6 := j1.add j3 o6
  generalize rnd (z1 + z3) = z6 at *
  obtain ⟨o7, e7⟩ := step (z6 + z5) (by rw [abs_le] at *; norm_num at *; constructor <;> linarith)
  have j7 := j6.add j5 o7
  refine ⟨_, j7, ?_⟩
  generalize rnd (z6 + z5) = z7 at *
  clear j1 j2 j3 j4 j5 j6 j7 step
  rw [abs_le] at *
  norm_num at *
  constructor <;> linarith

end Mcu.Lemmas
