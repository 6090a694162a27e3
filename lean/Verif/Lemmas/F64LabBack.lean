import Verif.Lemmas.F64Channel
import Verif.Lemmas.F64Near
import Verif.Lemmas.F64Temperature
import Verif.Spec.Near

/-! The colour computed in binary64 for a point of L*a*b*: every channel is within one of the exact channel, also for points
outside of the gamut. -/

namespace Mcu.Lemmas

open Mcu.Ieee Props Props.Binary64 MathUtils ColorUtils HctSolver Spec Real

variable {L : Libm}

local notation "𝔻" => F64 L

/-! ### One channel -/

theorem is_round_wide {x : 𝔻} {a : ℝ} (hx : Is x a) (h : |a| ≤ 10 ^ 6) : ∃ n : ℤ, Is (Fl.round x) n ∧ |n - a| ≤ 1 / 2 := by
  have h := abs_le.1 h
  obtain ⟨n, hn⟩ : ∃ n : ℤ, n = (fun v : ℝ => if 0 ≤ v then ⌊v + 1 / 2⌋ else ⌈v - 1 / 2⌉) (Dbl.val x) := ⟨_, rfl⟩
  have hd : |(n : ℝ) - a| ≤ 1 / 2 := by
    rw [hn, hx.2, abs_le]
    simp only
    split
    · constructor <;> linarith [Int.floor_le (a + 1 / 2), Int.lt_floor_add_one (a + 1 / 2)]
    · constructor <;> linarith [Int.le_ceil (a - 1 / 2), Int.ceil_lt_add_one (a - 1 / 2)]
  have hb : |n| ≤ 2 ^ 53 := by
    have := abs_le.1 hd
    have h1 : (n : ℝ) ≤ ((2000000 : ℤ) : ℝ) := by norm_num at h ⊢; linarith
    have h2 : ((-2000000 : ℤ) : ℝ) ≤ (n : ℝ) := by norm_num at h ⊢; linarith
    have h1 : n ≤ 2000000 := by exact_mod_cast h1
    have h2 : -2000000 ≤ n := by exact_mod_cast h2
    rw [abs_le]; constructor <;> omega
  exact ⟨n, is_toInteger (L := L) _ (by norm_num) x hx.1 n hn.symm hb, hd⟩

theorem clamp_low {n : ℤ} (h : n ≤ 0) : clampInt 0 255 (satI64 n) = 0 := by
  unfold clampInt satI64
  split <;> (try split) <;> omega

theorem clamp_high {n : ℤ} (h : 255 ≤ n) : clampInt 0 255 (satI64 n) = 255 := by
  unfold clampInt satI64
  split <;> (try split) <;> omega

theorem channel_of_round {x : 𝔻} {n : ℤ} (h : Is (Fl.round (trueDelinearized x)) n) : delinearized x = clampInt 0 255 (satI64 n) := by
  have e : delinearized x = clampInt 0 255 (Fl.toI64 (Fl.round (trueDelinearized x))) := rfl
  rw [e, h.toI64, realTrunc_intCast]

/-- Below the range the channel is 0. -/
theorem channel_low {x : 𝔻} {a : ℝ} (hx : Is x a) (h : |a| ≤ 999) (h0 : a ≤ 0) : delinearized x = 0 := by
  have hρ : ρ = 1 / 10 ^ 12 := rfl
  have h' := abs_le.1 h
  have lh : Is (100.0 : 𝔻) 100 := by simpa using lit (L := L) 1000 1 true 100 (by norm_num) (by norm_num)
  have l255 : Is (255.0 : 𝔻) 255 := by simpa using lit (L := L) 2550 1 true 255 (by norm_num) (by norm_num)
  have hq : |a / 100| ≤ 10 := by rw [abs_le]; constructor <;> linarith
  obtain ⟨r1, r2⟩ := rnd_ok (v := a / 100) (by linarith)
  have iq := hx.div lh (by norm_num) r1
  have q0 : rnd (a / 100) ≤ 0 := by
    have := rnd_mono (v := a / 100) (w := 0) (by linarith)
    rwa [rnd_zero] at this
  have hthr : Ap (0.0031308 : 𝔻) 0.0031308 ρ := ap_lit rfl (by norm_num [abs_of_pos])
  have hb : x / 100.0 ≤ (0.0031308 : 𝔻) := iq.ap.le_of hthr (by rw [hρ]; norm_num at q0 ⊢; linarith)
  obtain ⟨c, ic, hc⟩ : Ap (12.92 : 𝔻) 12.92 ρ := ap_lit rfl (by norm_num [abs_of_pos])
  have hc' := abs_le.1 hc
  rw [hρ] at hc' r2
  have r2' := abs_le.1 r2
  norm_num at hc' r2' hq
  have hq' := abs_le.1 hq
  have c0 : 0 ≤ c := by linarith
  have p0 : rnd (a / 100) * c ≤ 0 := mul_nonpos_of_nonpos_of_nonneg q0 c0
  have p1 : -(11 * 13) ≤ rnd (a / 100) * c := by nlinarith
  obtain ⟨s1, s2⟩ := rnd_ok (v := rnd (a / 100) * c) (by rw [abs_le]; constructor <;> linarith)
  have ip := iq.mul ic s1
  have s0 : rnd (rnd (a / 100) * c) ≤ 0 := by
    have := rnd_mono p0
    rwa [rnd_zero] at this
  rw [hρ] at s2
  have s2' := abs_le.1 s2
  norm_num at s2'
  generalize rnd (rnd (a / 100) * c) = y at *
  have hy : |y * 255| ≤ 10 ^ 5 := by rw [abs_le]; norm_num; constructor <;> linarith
  have u1 := rnd_huge (v := y * 255) (hy.trans (by norm_num))
  have it := ip.mul l255 u1
  have u0 : rnd (y * 255) ≤ 0 := by
    have := rnd_mono (v := y * 255) (w := 0) (by linarith)
    rwa [rnd_zero] at this
  have u2 := rnd_any (y * 255)
  have u2' := abs_le.1 u2
  have hy' := abs_le.1 hy
  have et : trueDelinearized x = x / 100.0 * 12.92 * 255.0 := by
    simp only [trueDelinearized]; rw [if_pos hb]
  obtain ⟨n, hn, hd⟩ := is_round_wide it (by
    rw [abs_le]; norm_num at u2' hy' hy ⊢; constructor <;> linarith)
  rw [← et] at hn
  rw [channel_of_round hn]
  refine clamp_low ?_
  have hd' := abs_le.1 hd
  have : (n : ℝ) < ((1 : ℤ) : ℝ) := by push_cast; linarith
  have : n < 1 := by exact_mod_cast this
  omega

/-- Above the range the channel is 255. -/
theorem channel_high (hL : L.PowOk) {x : 𝔻} {a : ℝ} (hx : Is x a) (h : a ≤ 999) (h0 : 100.02 ≤ a) : delinearized x = 255 := by
  have hρ : ρ = 1 / 10 ^ 12 := rfl
  norm_num at h0
  have ha : |a| ≤ 999 := by rw [abs_of_nonneg (by linarith)]; exact h
  have hn : Ap (x / 100.0) (a / 100) ρ :=
    (hx.ap.div ap100 (β := 100) (Q := 10) (by norm_num) (by norm_num) (by linarith) (by norm_num)).weaken (by norm_num)
  have hthr : Ap (0.0031308 : 𝔻) 0.0031308 ρ := ap_lit rfl (by norm_num [abs_of_pos])
  have hb : ¬ x / 100.0 ≤ (0.0031308 : 𝔻) := hn.not_le_of hthr (by rw [hρ]; norm_num; linarith)
  have h55 : Ap (0.055 : 𝔻) 0.055 ρ := ap_lit rfl (by norm_num [abs_of_pos])
  have h1055 : Ap (1.055 : 𝔻) 1.055 ρ := ap_lit rfl (by norm_num [abs_of_pos])
  have h24 : Ap (2.4 : 𝔻) 2.4 ρ := ap_lit rfl (by norm_num [abs_of_pos])
  have hex : Ap (1.0 / 2.4 : 𝔻) (1.0 / 2.4) (2 * ρ) := by
    have := (ap1 (L := L)).div h24 (β := 2.4) (Q := 1) (by norm_num [abs_of_pos]) (by unfold ρ; norm_num)
      (by norm_num) (by unfold ρ; norm_num)
    rw [show (1.0 : ℝ) / 2.4 = 1 / 2.4 by norm_num]
    exact this.weaken (by unfold ρ; norm_num)
  have hp := ((hn.nr (2 * ρ) 1 (by norm_num; linarith) (by linarith) (by rw [hρ]; norm_num; linarith)).pow hL hex (1 / 10 ^ 9)
    (by rw [hρ]; norm_num) (by norm_num) (by rw [hρ]; norm_num) (by norm_num; linarith) (by rw [hρ]; norm_num)
    (by rw [hρ]; norm_num) (by norm_num)).ap (1 / 10 ^ 8) (by
      have : (a / 100) ^ (1.0 / 2.4 : ℝ) ≤ 10 := by
        calc (a / 100) ^ (1.0 / 2.4 : ℝ) ≤ (a / 100) ^ (1 : ℝ) := rpow_le_rpow_of_exponent_le (by linarith) (by norm_num)
          _ = a / 100 := rpow_one _
          _ ≤ 10 := by linarith
      norm_num at this ⊢; linarith)
  have P0 : 1 ≤ (a / 100) ^ (1.0 / 2.4 : ℝ) := one_le_rpow (by linarith) (by norm_num)
  have P1 : (a / 100) ^ (1.0 / 2.4 : ℝ) ≤ 3 := by
    rw [e124]
    apply rpow_le_of_le_pow (by norm_num) (by norm_num) (by linarith)
    calc (a / 100) ^ 5 ≤ 10 ^ 5 := pow_le_pow_left₀ (by linarith) (by linarith) 5
      _ ≤ 3 ^ 12 := by norm_num
  generalize (a / 100) ^ (1.0 / 2.4 : ℝ) = P at *
  have m1 := (h1055.mul hp (A := 1.055) (B := 3) (by norm_num [abs_of_pos]) (by rw [abs_of_nonneg (by linarith)]; exact P1)
    (by rw [hρ]; norm_num)).weaken (ε := 1 / 10 ^ 7) (by rw [hρ]; norm_num)
  have m2 := (m1.sub h55 (by
    have : |1.055 * P - 0.055| ≤ 4 := by rw [abs_le]; norm_num; constructor <;> linarith
    norm_num at this ⊢; linarith)).weaken (ε := 2 / 10 ^ 7) (by rw [hρ]; norm_num)
  have m3 := (m2.mul ap255 (A := 3.2) (B := 255) (by rw [abs_le]; norm_num; constructor <;> linarith) (by norm_num)
    (by norm_num)).weaken (ε := 1 / 10 ^ 3) (by rw [hρ]; norm_num)
  have et : trueDelinearized x = (1.055 * Fl.powf (x / 100.0) (1.0 / 2.4) - 0.055) * 255.0 := by
    simp only [trueDelinearized]; rw [if_neg hb]
  rw [← et] at m3
  obtain ⟨w, iw, hw⟩ := m3
  have hw' := abs_le.1 hw
  norm_num at hw'
  obtain ⟨n, hn, hd⟩ := is_round_wide iw (by rw [abs_le]; norm_num; constructor <;> linarith)
  rw [channel_of_round hn]
  refine clamp_high ?_
  have hd' := abs_le.1 hd
  have : ((254 : ℤ) : ℝ) < (n : ℝ) := by push_cast; linarith
  have : 254 < n := by exact_mod_cast this
  omega

/-- In exact reals, linear values that differ by 0.018 at most have channels that differ by one at most. -/
theorem channel_step {a v : ℝ} (h : v ≤ a + 0.018) : delinearized v ≤ delinearized a + 1 := by
  have r1 := c10_range a
  have r2 := c10_range v
  by_cases hc : delinearized a = 255
  · omega
  · have hc1 : delinearized a + 1 ≤ 255 := by omega
    have ha : a < linearized (delinearized a + 1) - 0.009 := by
      by_contra hcon
      have := delinearized_mono (not_lt.1 hcon)
      rw [delinearized_near (c := delinearized a + 1) (by omega) hc1 (by
        rw [sub_sub_cancel_left, abs_neg, abs_of_pos (by norm_num)])] at this
      omega
    have hv : v ≤ linearized (delinearized a + 1) + 0.009 := by norm_num at ha h ⊢; linarith
    have := delinearized_mono hv
    rwa [delinearized_near (x := linearized (delinearized a + 1) + 0.009) (c := delinearized a + 1) (by omega) hc1 (by
      rw [add_sub_cancel_left, abs_of_pos (by norm_num)])] at this

theorem channel_neg {a : ℝ} (h : a ≤ 0.009) : delinearized a = 0 := by
  have := delinearized_mono h
  rw [delinearized_near (x := 0.009) (c := 0) le_rfl (by norm_num) (by
    rw [linearized_small (by norm_num)]; norm_num [abs_of_pos])] at this
  have := c10_range a
  omega

/-- The channel computed in binary64 from a value near `a` is within one of the exact channel of `a`. -/
theorem channel_any (hL : L.PowOk) {x : 𝔻} {a δ : ℝ} (hx : Ap x a δ) (hδ : δ ≤ 0.0179) (h : |a| ≤ 998) :
    |delinearized x - delinearized a| ≤ 1 := by
  obtain ⟨v, iv, hv⟩ := hx
  have hv' := abs_le.1 hv
  have h' := abs_le.1 h
  have r1 := c10_range a
  norm_num at hδ
  rcases lt_or_ge v (-0.01) with h1 | h1
  · norm_num at h1
    rw [channel_low iv (by rw [abs_le]; constructor <;> linarith) (by linarith), channel_neg (a := a) (by norm_num; linarith)]
    norm_num
  rcases le_or_gt v 100.02 with h2 | h2
  · obtain ⟨w, w0, w1, w2, e⟩ := channel64 hL iv h1 h2
    have w2' := abs_le.1 w2
    norm_num at w2'
    rw [← e]
    have s1 : delinearized w ≤ delinearized a + 1 := by
      rcases le_total v 0 with h0 | h0
      · rw [max_eq_right h0] at w2'
        rw [channel_neg (a := w) (by norm_num; linarith)]; omega
      · rw [max_eq_left h0] at w2'
        exact channel_step (by norm_num; linarith)
    have s2 : delinearized a ≤ delinearized w + 1 := by
      refine channel_step ?_
      have := le_max_left v 0
      norm_num; linarith
    rw [abs_le]; constructor <;> omega
  · norm_num at h2
    rw [channel_high hL iv (by linarith) (by norm_num; linarith)]
    have : delinearized (100 : ℝ) ≤ delinearized a := delinearized_mono (by linarith)
    rw [delinearized_near (x := 100) (c := 255) (by norm_num) le_rfl (by
      rw [linearized_255]; norm_num)] at this
    have : delinearized a = 255 := by omega
    rw [this]; norm_num

/-! ### From L*a*b* -/

theorem ap_lab_y {l : 𝔻} {l' : ℝ} (hl : Ap l l' (5 / 10 ^ 5)) (h0 : 0 ≤ (l' + 16) / 116) (h1 : (l' + 16) / 116 ≤ 1.001) :
    Ap ((l + 16.0) / 116.0) ((l' + 16) / 116) (5 / 10 ^ 7) := by
  have hρ : ρ = 1 / 10 ^ 12 := rfl
  norm_num at h1
  have b : |l' + 16| ≤ 120 := by rw [abs_le]; constructor <;> linarith
  have s := (hl.add ap16 (by norm_num; linarith)).weaken (ε := 51 / 10 ^ 6) (by rw [hρ]; norm_num)
  exact (s.div ap116 (β := 116) (Q := 2) (by norm_num) (by norm_num) (by linarith) (by norm_num)).weaken (by rw [hρ]; norm_num)

theorem ap_lab_x {a f : 𝔻} {a' f' : ℝ} (ha : Ap a a' (2 / 10 ^ 4)) (hf : Ap f f' (5 / 10 ^ 7)) (f0 : 0 ≤ f') (f1 : f' ≤ 1.001)
    (h0 : 0 ≤ a' / 500 + f') (h1 : a' / 500 + f' ≤ 1.001) : Ap (a / 500.0 + f) (a' / 500 + f') (2 / 10 ^ 6) := by
  have hρ : ρ = 1 / 10 ^ 12 := rfl
  norm_num at f1 h1
  have b : |a'| ≤ 600 := by rw [abs_le]; constructor <;> linarith
  have d := (ha.div ap500 (β := 500) (Q := 2) (by norm_num) (by norm_num) (by linarith) (by norm_num)).weaken (ε := 5 / 10 ^ 7)
    (by rw [hρ]; norm_num)
  exact (d.add hf (by rw [abs_of_nonneg h0]; norm_num; linarith)).weaken (by rw [hρ]; norm_num)

theorem ap_lab_z {b f : 𝔻} {b' f' : ℝ} (hb : Ap b b' (2 / 10 ^ 4)) (hf : Ap f f' (5 / 10 ^ 7)) (f0 : 0 ≤ f') (f1 : f' ≤ 1.001)
    (h0 : 0 ≤ f' - b' / 200) (h1 : f' - b' / 200 ≤ 1.001) : Ap (f - b / 200.0) (f' - b' / 200) (2 / 10 ^ 6) := by
  have hρ : ρ = 1 / 10 ^ 12 := rfl
  norm_num at f1 h1
  have h : |b'| ≤ 300 := by rw [abs_le]; constructor <;> linarith
  have d := (hb.div ap200 (β := 200) (Q := 2) (by norm_num) (by norm_num) (by linarith) (by norm_num)).weaken (ε := 11 / 10 ^ 7)
    (by rw [hρ]; norm_num)
  exact (hf.sub d (by rw [abs_of_nonneg h0]; norm_num; linarith)).weaken (by rw [hρ]; norm_num)

theorem ap_lab_last {u w : 𝔻} {f W : ℝ} (hu : Ap u f (2 / 10 ^ 6)) (h0 : 0 ≤ f) (h1 : f ≤ 1.001) (hw : Ap w W ρ) (hW : 95 ≤ W)
    (hW1 : W ≤ 109) : Ap (labInvf u * w) (labInvf f * W) (1 / 10 ^ 3) ∧ |labInvf f * W| ≤ 110 := by
  have hρ : ρ = 1 / 10 ^ 12 := rfl
  have d := (ap_labInvf hu (by linarith) (by norm_num at h1 ⊢; linarith) (by norm_num)).weaken (ε := 81 / 10 ^ 7) (by norm_num)
  have hq : |labInvf f| ≤ 1.004 := by
    have a := labInvf_strictMono.monotone h0
    have b := labInvf_strictMono.monotone h1
    rw [labInvf_of_le (f := 0) (by norm_num)] at a
    rw [labInvf_of_gt (f := 1.001) (by norm_num)] at b
    rw [abs_le]; norm_num at a b ⊢; constructor <;> linarith
  have hW2 : |W| ≤ 109 := by rw [abs_of_nonneg (by linarith)]; exact hW1
  refine ⟨(d.mul hw (A := 1.004) (B := 109) hq hW2 (by rw [hρ]; norm_num)).weaken (by rw [hρ]; norm_num), ?_⟩
  rw [abs_mul]
  calc |labInvf f| * |W| ≤ 1.004 * 109 := mul_le_mul hq hW2 (abs_nonneg _) (by norm_num)
    _ ≤ 110 := by norm_num

/-- A row of the matrix from XYZ to linear RGB, and its channel. -/
theorem row_channel (hL : L.PowOk) {p q r x y z : 𝔻} {P Q R X Y Z : ℝ} (hp : Ap p P ρ) (hq : Ap q Q ρ) (hr : Ap r R ρ)
    (hx : Ap x X (1 / 10 ^ 3)) (hy : Ap y Y (1 / 10 ^ 3)) (hz : Ap z Z (1 / 10 ^ 3)) (hP : |P| ≤ 3.3) (hQ : |Q| ≤ 3.3)
    (hR : |R| ≤ 3.3) (hX : |X| ≤ 110) (hY : |Y| ≤ 110) (hZ : |Z| ≤ 110) (hS : |P| + |Q| + |R| ≤ 6) :
    |delinearized (p * x + q * y + r * z) - delinearized (P * X + Q * Y + R * Z)| ≤ 1 := by
  have hρ : ρ = 1 / 10 ^ 12 := rfl
  have hs : |P * X + Q * Y + R * Z| ≤ 660 := by
    refine (abs_add_three _ _ _).trans ?_
    rw [abs_mul, abs_mul, abs_mul]
    have a1 := mul_le_mul_of_nonneg_left hX (abs_nonneg P)
    have a2 := mul_le_mul_of_nonneg_left hY (abs_nonneg Q)
    have a3 := mul_le_mul_of_nonneg_left hZ (abs_nonneg R)
    linarith
  refine channel_any hL (δ := 0.0179) ((ap_dot hp hq hr hx hy hz hP hQ hR hX hY hZ (by rw [hρ]; norm_num) ?_).weaken ?_) le_rfl (by linarith)
  · rw [hρ]; norm_num; linarith
  · rw [hρ]; norm_num

/-- The colour of a point of L*a*b* near an exact one. -/
theorem argbFromLab_near (hL : L.PowOk) {l a b : 𝔻} {l' a' b' : ℝ} (hl : Ap l l' (5 / 10 ^ 5)) (ha : Ap a a' (2 / 10 ^ 4))
    (hb : Ap b b' (2 / 10 ^ 4)) (y0 : 0 ≤ (l' + 16) / 116) (y1 : (l' + 16) / 116 ≤ 1.001)
    (x0 : 0 ≤ a' / 500 + (l' + 16) / 116) (x1 : a' / 500 + (l' + 16) / 116 ≤ 1.001)
    (z0 : 0 ≤ (l' + 16) / 116 - b' / 200) (z1 : (l' + 16) / 116 - b' / 200 ≤ 1.001) :
    ChannelsNear (argbFromLab l a b) (argbFromLab l' a' b') := by
  have wx : Ap (95.047 : F64 L) 95.047 ρ := ap_lit rfl (by norm_num [abs_of_pos])
  have wy : Ap (100.0 : F64 L) 100.0 ρ := by
    have := (ap100 (L := L)).weaken ρ_pos.le
    rwa [show (100.0 : ℝ) = 100 by norm_num]
  have wz : Ap (108.883 : F64 L) 108.883 ρ := ap_lit rfl (by norm_num [abs_of_pos])
  have fy := ap_lab_y hl y0 y1
  obtain ⟨hx, bx⟩ := ap_lab_last (ap_lab_x ha fy y0 y1 x0 x1) x0 x1 wx (by norm_num) (by norm_num)
  obtain ⟨hy, by'⟩ := ap_lab_last (fy.weaken (ε := 2 / 10 ^ 6) (by norm_num)) y0 y1 wy (by norm_num) (by norm_num)
  obtain ⟨hz, bz⟩ := ap_lab_last (ap_lab_z hb fy y0 y1 z0 z1) z0 z1 wz (by norm_num) (by norm_num)
  have e16 : (16.0 : ℝ) = 16 := by norm_num
  have e116 : (116.0 : ℝ) = 116 := by norm_num
  have e500 : (500.0 : ℝ) = 500 := by norm_num
  have e200 : (200.0 : ℝ) = 200 := by norm_num
  simp only [argbFromLab, argbFromXyz, whitePointD65, xyzToSrgb, ChannelsNear, e16, e116, e500, e200]
  generalize (labInvf (a / 500.0 + (l + 16.0) / 116.0) * 95.047 : 𝔻) = x at *
  generalize (labInvf ((l + 16.0) / 116.0) * 100.0 : 𝔻) = y at *
  generalize (labInvf ((l + 16.0) / 116.0 - b / 200.0) * 108.883 : 𝔻) = z at *
  generalize labInvf (a' / 500 + (l' + 16) / 116) * 95.047 = X at *
  generalize labInvf ((l' + 16) / 116) * 100.0 = Y at *
  generalize labInvf ((l' + 16) / 116 - b' / 200) * 108.883 = Z at *
  have c1 := row_channel hL (p := 3.2413774792388685) (q := -1.5376652402851851)
      (r := -0.49885366846268053) (ap_lit rfl (by norm_num [abs_of_pos]))
      (Ap.neg (ap_lit rfl (by norm_num [abs_of_pos]))) (Ap.neg (ap_lit rfl (by norm_num [abs_of_pos]))) hx hy hz
      (by norm_num [abs_of_pos]) (by norm_num [abs_of_pos]) (by norm_num [abs_of_pos]) bx by' bz (by norm_num [abs_of_pos])
  have c2 := row_channel hL (p := -0.9691452513005321) (q := 1.8758853451067872)
      (r := 0.04156585616912061) (Ap.neg (ap_lit rfl (by norm_num [abs_of_pos])))
      (ap_lit rfl (by norm_num [abs_of_pos])) (ap_lit rfl (by norm_num [abs_of_pos])) hx hy hz
      (by norm_num [abs_of_pos]) (by norm_num [abs_of_pos]) (by norm_num [abs_of_pos]) bx by' bz (by norm_num [abs_of_pos])
  have c3 := row_channel hL (p := 0.05562093689691305) (q := -0.20395524564742123)
      (r := 1.0571799111220335) (ap_lit rfl (by norm_num [abs_of_pos]))
      (Ap.neg (ap_lit rfl (by norm_num [abs_of_pos]))) (ap_lit rfl (by norm_num [abs_of_pos])) hx hy hz
      (by norm_num [abs_of_pos]) (by norm_num [abs_of_pos]) (by norm_num [abs_of_pos]) bx by' bz (by norm_num [abs_of_pos])
  have k : ∀ {F : Type} [Fl F] (u v w : F), redFromArgb (argbFromRgb (delinearized u) (delinearized v) (delinearized w)) = delinearized u ∧
      greenFromArgb (argbFromRgb (delinearized u) (delinearized v) (delinearized w)) = delinearized v ∧
      blueFromArgb (argbFromRgb (delinearized u) (delinearized v) (delinearized w)) = delinearized w := by
    intro F _ u v w
    have r1 := c10_range u
    have r2 := c10_range v
    have r3 := c10_range w
    generalize delinearized u = i at *
    generalize delinearized v = j at *
    generalize delinearized w = k at *
    simp only [redFromArgb, greenFromArgb, blueFromArgb, argbFromRgb]
    refine ⟨?_, ?_, ?_⟩ <;> omega
  simp only [(k _ _ _).1, (k _ _ _).2.1, (k _ _ _).2.2]
  exact ⟨c1, c2, c3⟩

end Mcu.Lemmas
