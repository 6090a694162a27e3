import Verif.Lemmas.F64BackUcs
import Verif.Lemmas.F64Distance
import Verif.Spec.LibmExp

/-! An appearance made from coordinates of the uniform colour space keeps them, in IEEE-754 binary64. -/

namespace Mcu.Lemmas

open Mcu.Ieee Props Props.Binary64 MathUtils ColorUtils HctSolver Real

variable {L : Libm}

local notation "𝔻" => F64 L

/-- Near `a`, and not negative. -/
def Np (x : 𝔻) (a δ : ℝ) : Prop := ∃ v, Is x v ∧ 0 ≤ v ∧ |v - a| ≤ δ

theorem Np.ap {x : 𝔻} {a δ : ℝ} (h : Np x a δ) : Ap x a δ := by
  obtain ⟨v, iv, -, hv⟩ := h
  exact ⟨v, iv, hv⟩

theorem np_rnd {x : 𝔻} {w t a B η : ℝ} (hx : |rnd w| < 2 ^ 1024 → Is x (rnd w)) (w0 : 0 ≤ w) (hw : |w - t| ≤ a) (hB : w ≤ B) (B1 : B ≤ 10 ^ 40)
    (hη : a + B * (2 / 10 ^ 16) + 1 / 10 ^ 72 ≤ η) : Np x t η := by
  have hr := rnd_huge (v := w) (by rw [abs_of_nonneg w0]; exact hB.trans (B1.trans (by norm_num)))
  obtain ⟨v, iv, hv⟩ := ap_rndS hx hw (by rwa [abs_of_nonneg w0]) B1 hη
  refine ⟨v, iv, ?_, hv⟩
  rw [← iv.2, (hx hr).2]
  exact (rnd_pos_range w0).2.2

theorem Np.mul {x y : 𝔻} {s t a b : ℝ} (hx : Np x s a) (hy : Np y t b) (S T B η : ℝ) (hS : |s| ≤ S) (hT : |t| ≤ T) (hB : (S + a) * (T + b) ≤ B) (B1 : B ≤ 10 ^ 40)
    (hη : a * T + S * b + a * b + B * (2 / 10 ^ 16) + 1 / 10 ^ 72 ≤ η) : Np (x * y) (s * t) η := by
  obtain ⟨w, iw, hw⟩ := hx.ap.mulS hy.ap S T B η hS hT hB B1 hη
  have a0 := hx.ap.nonneg
  obtain ⟨u, iu, u0, hu⟩ := hx
  obtain ⟨v, iv, v0, hv⟩ := hy
  refine ⟨w, iw, ?_, hw⟩
  have uB : u ≤ S + a := by have := (abs_le.1 hu).2; have := (abs_le.1 hS).2; linarith
  have vB : v ≤ T + b := by have := (abs_le.1 hv).2; have := (abs_le.1 hT).2; linarith
  have uv : u * v ≤ B := (mul_le_mul uB vB v0 (u0.trans uB)).trans hB
  have r := iu.mul iv (rnd_huge (by rw [abs_of_nonneg (mul_nonneg u0 v0)]; exact uv.trans (B1.trans (by norm_num))))
  rw [← iw.2, r.2]
  exact (rnd_pos_range (mul_nonneg u0 v0)).2.2

theorem np_228 : ∃ l : ℝ, Is (0.0228 : 𝔻) l ∧ |l - 0.0228| ≤ 3 / 10 ^ 17 := by
  obtain ⟨l, il, hl⟩ := rl_228 (L := L)
  exact ⟨l, il, hl.trans (by norm_num)⟩

/-- The distance from the grey axis. -/
theorem length_np {a b : 𝔻} {v w : ℝ} (iv : Is a v) (iw : Is b w) (hi : Real.sqrt (v * v + w * w) ≤ 200) :
    Np (Fl.sqrt (a * a + b * b)) (Real.sqrt (v * v + w * w)) (1 / 10 ^ 12) := by
  have a0 := mul_self_nonneg v
  have b0 := mul_self_nonneg w
  have N0 : 0 ≤ v * v + w * w := add_nonneg a0 b0
  have N2 : v * v + w * w ≤ 10 ^ 5 := by
    rw [← Real.sq_sqrt N0]
    exact (pow_le_pow_left₀ (Real.sqrt_nonneg _) hi 2).trans (by norm_num)
  have A : Np (a * a) (v * v) (v * v * (2 / 10 ^ 16) + 1 / 10 ^ 72) :=
    np_rnd (B := v * v) (a := 0) (fun h => iv.mul iv h) a0 (by simp) le_rfl (le_trans (by linarith) (show (10 : ℝ) ^ 5 ≤ 10 ^ 40 by norm_num)) (by linarith)
  have B : Np (b * b) (w * w) (w * w * (2 / 10 ^ 16) + 1 / 10 ^ 72) :=
    np_rnd (B := w * w) (a := 0) (fun h => iw.mul iw h) b0 (by simp) le_rfl (le_trans (by linarith) (show (10 : ℝ) ^ 5 ≤ 10 ^ 40 by norm_num)) (by linarith)
  obtain ⟨p, ip, p0, hp⟩ := A
  obtain ⟨q, iq, q0, hq⟩ := B
  have hp' := abs_le.1 hp
  have hq' := abs_le.1 hq
  have C : Np (a * a + b * b) (v * v + w * w) ((v * v + w * w) * (1 / 10 ^ 15) + 1 / 10 ^ 70) := by
    refine np_rnd (B := 2 * (v * v + w * w) + 1 / 10 ^ 70) (a := (v * v + w * w) * (2 / 10 ^ 16) + 2 / 10 ^ 72) (fun h => ip.add iq h) (add_nonneg p0 q0) ?_ ?_ ?_ ?_
    · rw [abs_le]; constructor <;> linarith
    · norm_num at *; linarith
    · norm_num at *; linarith
    · norm_num at *; linarith
  obtain ⟨N, iN, hN0, hN⟩ := C
  have hN' := abs_le.1 hN
  have hs : √N ≤ 201 := by
    rw [Real.sqrt_le_left (by norm_num)]
    have : v * v + w * w ≤ 200 ^ 2 := by
      rw [← Real.sq_sqrt N0]
      exact pow_le_pow_left₀ (Real.sqrt_nonneg _) hi 2
    norm_num at *; linarith
  refine np_rnd (w := √N) (B := 201) (a := 9 / 10 ^ 13) (fun h => iN.sqrt hN0 h) (Real.sqrt_nonneg _) ?_ hs (by norm_num) (by norm_num)
  by_cases hlo : 1 / 10 ^ 5 ≤ √(v * v + w * w)
  · have hd : (√N - √(v * v + w * w)) * (√N + √(v * v + w * w)) = N - (v * v + w * w) := by
      have e1 := Real.mul_self_sqrt hN0
      have e2 := Real.mul_self_sqrt N0
      nlinarith
    have hsum : √(v * v + w * w) ≤ √N + √(v * v + w * w) := le_add_of_nonneg_left (Real.sqrt_nonneg _)
    have e2 := Real.mul_self_sqrt N0
    generalize √N = n at *
    generalize √(v * v + w * w) = r at *
    have rp : 0 < r := lt_of_lt_of_le (by norm_num) hlo
    have h1 : |n - r| * r ≤ r * r * (1 / 10 ^ 15) + 1 / 10 ^ 70 := by
      have : |n - r| * r ≤ |n - r| * (n + r) := mul_le_mul_of_nonneg_left hsum (abs_nonneg _)
      rw [show |n - r| * (n + r) = |(n - r) * (n + r)| by rw [abs_mul, abs_of_nonneg (rp.le.trans hsum)], hd] at this
      rw [e2]; exact this.trans hN
    by_contra hc
    push Not at hc
    have h2 : 9 / 10 ^ 13 * r < |n - r| * r := mul_lt_mul_of_pos_right hc rp
    have h3 : r * r * (1 / 10 ^ 15) ≤ 200 * r * (1 / 10 ^ 15) := mul_le_mul_of_nonneg_right (mul_le_mul_of_nonneg_right hi rp.le) (by norm_num)
    norm_num at *; linarith
  · push Not at hlo
    have hr2 : v * v + w * w ≤ (1 / 10 ^ 5) ^ 2 := by
      rw [← Real.sq_sqrt N0]
      exact pow_le_pow_left₀ (Real.sqrt_nonneg _) hlo.le 2
    have hdiff : |N - (v * v + w * w)| ≤ (9 / 10 ^ 13) ^ 2 := hN.trans (by norm_num at *; linarith)
    have hd : (√N - √(v * v + w * w)) * (√N + √(v * v + w * w)) = N - (v * v + w * w) := by
      have e1 := Real.mul_self_sqrt hN0
      have e2 := Real.mul_self_sqrt N0
      nlinarith
    have n0 := Real.sqrt_nonneg N
    have r0 := Real.sqrt_nonneg (v * v + w * w)
    refine abs_le_of_sq_le_sq ?_ (by norm_num)
    refine le_trans ?_ hdiff
    rw [← hd, abs_mul, ← sq_abs, sq, abs_of_nonneg (add_nonneg n0 r0)]
    refine mul_le_mul_of_nonneg_left ?_ (abs_nonneg _)
    rw [abs_le]; constructor <;> linarith

set_option maxHeartbeats 1000000 in
/-- Expanding and compressing the colourfulness again. -/
theorem mstar_keep (hU : L.ExpUp) (hG : L.ExpGe) (hC : L.CamOk) {m R : 𝔻} {r ρ' : ℝ} (hm : Np m r (1 / 10 ^ 12)) (r0 : 0 ≤ r) (r1 : r ≤ 200) (iR : Is R ρ') (R0 : 0.78 ≤ ρ') (R1 : ρ' ≤ 0.8) :
    Ap (1.0 / 0.0228 * Fl.ln (1.0 + 0.0228 * ((Fl.exp (m * 0.0228) - 1.0) / 0.0228 / R * R))) r (3 / 10 ^ 9) := by
  obtain ⟨l, il, hl⟩ := np_228 (L := L)
  have hl' := abs_le.1 hl
  have l0 : 0.0227 ≤ l := by norm_num at *; linarith
  have l1 : l ≤ 0.0229 := by norm_num at *; linarith
  have lp : 0 < l := lt_of_lt_of_le (by norm_num) l0
  have nl : Np (0.0228 : 𝔻) 0.0228 (3 / 10 ^ 17) := ⟨l, il, lp.le, hl⟩
  have i1 : Is (1.0 : 𝔻) 1 := by simpa using lit (L := L) 10 1 true 1 (by norm_num) (by norm_num)
  -- the exponential
  have Z := hm.mul nl 200 0.0228 5 (4 / 10 ^ 14) (by rw [abs_of_nonneg r0]; exact r1) (by norm_num [abs_le]) (by norm_num) (by norm_num) (by norm_num)
  obtain ⟨ζ, iζ, ζ0, hζ⟩ := Z
  have hζ' := abs_le.1 hζ
  have z0 : 0 ≤ r * 0.0228 := by positivity
  have z1 : r * 0.0228 ≤ 4.57 := by norm_num; linarith
  generalize hz : r * 0.0228 = z at *
  have ζ1 : ζ ≤ 5 := by norm_num at *; linarith
  obtain ⟨fE, hE⟩ := hU _ iζ.1 (by rw [iζ.2]; exact ζ0) (by rw [iζ.2]; linarith)
  have gE := hG _ iζ.1 (by rw [iζ.2]; exact ζ0) (by rw [iζ.2]; linarith)
  rw [iζ.2] at hE
  have iE : Is (Fl.exp (m * 0.0228) : 𝔻) (L.exp (m * 0.0228)).val := ⟨fE, rfl⟩
  generalize (L.exp (m * 0.0228)).val = E at *
  generalize (Fl.exp (m * 0.0228) : 𝔻) = ed at *
  have e5 : exp 5 ≤ 149 := by
    have e : exp 5 = exp 1 ^ 5 := by rw [← Real.exp_nat_mul]; norm_num
    rw [e]
    exact (pow_le_pow_left₀ (Real.exp_pos 1).le Real.exp_one_lt_d9.le 5).trans (by norm_num)
  have eζ : exp ζ ≤ 149 := (Real.exp_le_exp.2 ζ1).trans e5
  have ez : exp z ≤ 149 := (Real.exp_le_exp.2 (by linarith)).trans e5
  have ez1 : 1 ≤ exp z := Real.one_le_exp z0
  have d : |exp ζ - exp z| ≤ 149 * (4 / 10 ^ 14) := by
    have h1 := Real.add_one_le_exp (ζ - z)
    have h2 := Real.add_one_le_exp (z - ζ)
    have k1 : exp ζ * exp (z - ζ) = exp z := by rw [← Real.exp_add]; congr 1; ring
    have k2 : exp z * exp (ζ - z) = exp ζ := by rw [← Real.exp_add]; congr 1; ring
    have p1 := mul_le_mul_of_nonneg_left h2 (Real.exp_pos ζ).le
    have p2 := mul_le_mul_of_nonneg_left h1 (Real.exp_pos z).le
    rw [k1] at p1
    rw [k2] at p2
    have pz := Real.exp_pos z
    have pζ := Real.exp_pos ζ
    rw [abs_le]
    constructor
    · nlinarith
    · nlinarith
  have hE2 : |E - exp z| ≤ 8 / 10 ^ 12 := by
    have := abs_add_le (E - exp ζ) (exp ζ - exp z)
    rw [sub_add_sub_cancel] at this
    norm_num at *; linarith
  have hE3 := abs_le.1 hE2
  generalize hX : exp z = X at *
  -- the difference
  have D : Np (ed - 1.0) (X - 1) (9 / 10 ^ 12) := np_rnd (w := E - 1) (B := 149) (a := 8 / 10 ^ 12) (fun h => iE.sub i1 h) (by linarith) (by rw [show E - 1 - (X - 1) = E - X by ring]; exact hE2)
    (by norm_num at *; linarith) (by norm_num) (by norm_num)
  obtain ⟨δ, iδ, δ0, hδ⟩ := D
  have hδ' := abs_le.1 hδ
  have δ1 : δ ≤ 149 := by norm_num at *; linarith
  -- the quotient
  have Q : Np ((ed - 1.0) / 0.0228) (δ / l) (2 / 10 ^ 12) := np_rnd (w := δ / l) (B := 6600) (a := 0) (fun h => iδ.div il lp.ne' h) (div_nonneg δ0 lp.le) (by simp)
    (by rw [div_le_iff₀ lp]; norm_num at *; linarith) (by norm_num) (by norm_num)
  have Q1 : δ / l ≤ 6600 := by rw [div_le_iff₀ lp]; norm_num at *; linarith
  have Q2 : |δ / l * l - (X - 1)| ≤ 9 / 10 ^ 12 := by rw [div_mul_cancel₀ _ lp.ne']; exact hδ
  have Q00 : 0 ≤ δ / l := div_nonneg δ0 lp.le
  generalize δ / l = κ at *
  obtain ⟨q, iq, q0, hq⟩ := Q
  have hq' := abs_le.1 hq
  have q1 : q ≤ 6601 := by norm_num at *; linarith
  have Rp : 0 < ρ' := lt_of_lt_of_le (by norm_num) R0
  have qR : q / ρ' ≤ 8500 := by rw [div_le_iff₀ Rp]; norm_num at *; linarith
  have qR0 : 0 ≤ q / ρ' := div_nonneg q0 Rp.le
  obtain ⟨c, ic, c0, hc⟩ : Np ((ed - 1.0) / 0.0228 / R) (q / ρ') (2 / 10 ^ 12) := np_rnd (w := q / ρ') (B := 8500) (a := 0) (fun h => iq.div iR Rp.ne' h) qR0 (by simp) qR (by norm_num) (by norm_num)
  have hcR : |c * ρ' - q| ≤ 2 / 10 ^ 12 := by
    have : c * ρ' - q = (c - q / ρ') * ρ' := by rw [sub_mul, div_mul_cancel₀ _ Rp.ne']
    rw [this, abs_mul, abs_of_pos Rp]
    exact (mul_le_mul hc (R1.trans (by norm_num : (0.8:ℝ) ≤ 1)) Rp.le (by norm_num)).trans (by norm_num)
  have hcR' := abs_le.1 hcR
  have M : Np ((ed - 1.0) / 0.0228 / R * R) q (5 / 10 ^ 12) := np_rnd (w := c * ρ') (B := 6602) (a := 2 / 10 ^ 12) (fun h => ic.mul iR h) (mul_nonneg c0 Rp.le) hcR (by norm_num at *; linarith) (by norm_num) (by norm_num)
  obtain ⟨μ, iμ, μ0, hμ⟩ := M
  have hμ' := abs_le.1 hμ
  -- the logarithm
  have hlμ : |l * μ - (X - 1)| ≤ 1 / 10 ^ 11 := by
    have : l * μ - (X - 1) = l * (μ - κ) + (κ * l - (X - 1)) := by ring
    rw [this]
    refine (abs_add_le _ _).trans ?_
    rw [abs_mul, abs_of_pos lp]
    have h1 : |μ - κ| ≤ 7 / 10 ^ 12 := by rw [abs_le]; constructor <;> linarith
    have := mul_le_mul l1 h1 (abs_nonneg _) (by norm_num)
    norm_num at *; linarith
  have hlμ' := abs_le.1 hlμ
  obtain ⟨y, iy, y0, hy⟩ : Np (0.0228 * ((ed - 1.0) / 0.0228 / R * R)) (X - 1) (11 / 10 ^ 12) := np_rnd (w := l * μ) (B := 150) (a := 1 / 10 ^ 11) (fun h => il.mul iμ h) (mul_nonneg lp.le μ0) hlμ (by norm_num at *; linarith) (by norm_num) (by norm_num)
  have hy' := abs_le.1 hy
  have ix0 := i1.add iy (rnd_huge (by rw [abs_of_nonneg (by linarith)]; norm_num at *; linarith))
  have x1 : 1 ≤ rnd (1 + y) := i1.rep.le_rnd (by linarith)
  have hxx : |rnd (1 + y) - X| ≤ 12 / 10 ^ 12 := by
    have h1 := rnd_any (1 + y)
    rw [abs_of_nonneg (show 0 ≤ 1 + y by linarith)] at h1
    have := abs_add_le (rnd (1 + y) - (1 + y)) (1 + y - X)
    rw [sub_add_sub_cancel] at this
    have h2 : |1 + y - X| ≤ 11 / 10 ^ 12 := by rw [show 1 + y - X = y - (X - 1) by ring]; exact hy
    norm_num at *; linarith
  generalize rnd (1 + y) = x at *
  have hxx' := abs_le.1 hxx
  have x2 : x ≤ 150 := by norm_num at *; linarith
  obtain ⟨fN, hN⟩ := hC.ln _ ix0.1 (by rw [ix0.2]; exact x1) (by rw [ix0.2]; norm_num at *; linarith)
  rw [ix0.2] at hN
  have xp : 0 < x := by linarith
  have Xp : 0 < X := by linarith
  have lg : |log x - log X| ≤ 12 / 10 ^ 12 := by
    have k1 := Real.log_le_sub_one_of_pos (div_pos xp Xp)
    have k2 := Real.log_le_sub_one_of_pos (div_pos Xp xp)
    rw [Real.log_div xp.ne' Xp.ne'] at k1
    rw [Real.log_div Xp.ne' xp.ne'] at k2
    have b1 : x / X - 1 ≤ 12 / 10 ^ 12 := by
      rw [sub_le_iff_le_add, div_le_iff₀ Xp]; nlinarith
    have b2 : X / x - 1 ≤ 12 / 10 ^ 12 := by
      rw [sub_le_iff_le_add, div_le_iff₀ xp]; nlinarith
    rw [abs_le]; constructor <;> linarith
  have hlog : log X = z := by rw [← hX, Real.log_exp]
  have lx0 : 0 ≤ log x := Real.log_nonneg x1
  have lx1 : log x ≤ 6 := by
    have := abs_le.1 lg
    rw [hlog] at this
    norm_num at *; linarith
  have N : Ap (Fl.ln (1.0 + 0.0228 * ((ed - 1.0) / 0.0228 / R * R))) z (13 / 10 ^ 12) := by
    refine ⟨_, ⟨fN, rfl⟩, ?_⟩
    have hN2 := hN.trans (show 1 / 10 ^ 13 * log x ≤ 6 / 10 ^ 13 by norm_num at lx1 ⊢; linarith)
    rw [hlog] at lg
    refine (abs_sub_le _ (log x) _).trans ((add_le_add hN2 lg).trans (by norm_num))
  have K : Ap (1.0 / 0.0228 : 𝔻) (1 / 0.0228) (1 / 10 ^ 12) := by
    refine ap_rndS (w := 1 / l) (B := 45) (a := 9 / 10 ^ 13) (fun h => i1.div il lp.ne' h) ?_ ?_ (by norm_num) (by norm_num)
    · rw [div_sub_div _ _ lp.ne' (by norm_num), abs_div, abs_of_pos (by positivity : 0 < l * 0.0228), div_le_iff₀ (by positivity)]
      rw [show 1 * 0.0228 - l * 1 = -(l - 0.0228) by ring, abs_neg]
      norm_num at *; linarith
    · rw [abs_of_pos (by positivity), div_le_iff₀ lp]; norm_num at *; linarith
  have F := K.mulS N 44 5 222 (3 / 10 ^ 9) (by norm_num [abs_le]) (by rw [abs_of_nonneg z0]; linarith) (by norm_num) (by norm_num) (by norm_num)
  have e : 1 / 0.0228 * z = r := by rw [← hz]; ring
  rwa [e] at F

/-- The lightness coordinate. -/
theorem jstar_keep {x : 𝔻} {u : ℝ} (ix : Is x u) (hu : |u| ≤ 141) :
    Ap ((1.0 + 100.0 * 0.007) * (x / (1.0 - (x - 100.0) * 0.007)) / (1.0 + 0.007 * (x / (1.0 - (x - 100.0) * 0.007)))) u (1 / 10 ^ 9) := by
  have hu' := abs_le.1 hu
  have i100 : Is (100.0 : 𝔻) 100 := l100
  have i1 : Is (1.0 : 𝔻) 1 := l1
  have l7 : Ap (0.007 : 𝔻) 0.007 (1 / 10 ^ 17) := (nr_lit (m := 7) (s := true) (e := 3) 3 (by norm_num) (by norm_num) (by norm_num)).ap _ (by norm_num)
  have n : Ap (x - 100.0) (u - 100) (5 / 10 ^ 14) := ix.ap.subS i100.ap 241 _ (by
    have : |u - 100| ≤ 241 := by rw [abs_le]; constructor <;> linarith
    linarith) (by norm_num) (by norm_num)
  have q := n.mulS l7 241 0.007 2 (4 / 10 ^ 15) (by rw [abs_le]; constructor <;> linarith) (by norm_num [abs_le]) (by norm_num) (by norm_num) (by norm_num)
  have d := i1.ap.subS q 3 (6 / 10 ^ 15) (by
    have : |1 - (u - 100) * 0.007| ≤ 2.7 := by norm_num [abs_le]; constructor <;> linarith
    norm_num at *; linarith) (by norm_num) (by norm_num)
  have hD0 : 0.713 ≤ 1 - (u - 100) * 0.007 := by norm_num; linarith
  have hj1 : |u| ≤ 198 * (1 - (u - 100) * 0.007) := by rw [abs_le]; norm_num; constructor <;> linarith
  have hj2 : -52.7 * (1 - (u - 100) * 0.007) ≤ u := by norm_num; linarith
  have hD : 1.7 - 0.007 * u = 1 - (u - 100) * 0.007 := by ring
  generalize 1 - (u - 100) * 0.007 = D at *
  have Dp : 0 < D := lt_of_lt_of_le (by norm_num) hD0
  have J := ix.ap.div d (β := 0.713) (Q := 198) (by rw [abs_of_pos Dp]; exact hD0) (by norm_num) (by norm_num at *; linarith) (by norm_num)
  have J := J.weaken (ε := 3 / 10 ^ 12) (by unfold ρ; norm_num)
  have j1 : |u / D| ≤ 198 := by rw [abs_div, abs_of_pos Dp, div_le_iff₀ Dp]; exact hj1
  have j2 : -52.7 ≤ u / D := by rw [le_div_iff₀ Dp]; exact hj2
  have back : 1.7 * (u / D) / (1 + 0.007 * (u / D)) = u := by
    have h1 : 1 + 0.007 * (u / D) = 1.7 / D := by
      rw [eq_div_iff Dp.ne', add_mul, mul_assoc, div_mul_cancel₀ _ Dp.ne', ← hD]; ring
    rw [h1]; field_simp
  generalize x / (1.0 - (x - 100.0) * 0.007) = jd at *
  generalize u / D = j at *
  have s1 := i100.ap.mulS l7 100 0.007 1 (2 / 10 ^ 15) (by norm_num) (by norm_num [abs_le]) (by norm_num) (by norm_num) (by norm_num)
  have s2 := i1.ap.addS s1 2 (3 / 10 ^ 15) (by norm_num [abs_le]) (by norm_num) (by norm_num)
  have s3 := s2.mulS J 1.7 198 340 (6 / 10 ^ 12) (by norm_num [abs_le]) j1 (by norm_num) (by norm_num) (by norm_num)
  have t1 := l7.mulS J 0.007 198 2 (3 / 10 ^ 14) (by norm_num [abs_le]) j1 (by norm_num) (by norm_num) (by norm_num)
  have j1' := abs_le.1 j1
  have t2 := i1.ap.addS t1 3 (4 / 10 ^ 14) (by
    have : |1 + 0.007 * j| ≤ 2.5 := by norm_num [abs_le]; constructor <;> linarith
    norm_num at *; linarith) (by norm_num) (by norm_num)
  have B0 : 0.63 ≤ 1 + 0.007 * j := by norm_num at *; linarith
  have F := s3.div t2 (β := 0.63) (Q := 540) (by rw [abs_of_pos (lt_of_lt_of_le (by norm_num) B0)]; exact B0) (by norm_num) (by
    rw [abs_mul]
    norm_num at *; linarith) (by norm_num)
  have e : (1 + 100 * 0.007) * j / (1 + 0.007 * j) = u := by
    rw [show (1 + 100 * 0.007 : ℝ) = 1.7 by norm_num]; exact back
  rw [e] at F
  exact F.weaken (by unfold ρ; norm_num)

/-- The appearance keeps the coordinates it is made from. -/
theorem ucs_keep (hS : L.Sound) (hT : L.TempOk) (hC : L.CamOk) (hU : L.ExpUp) (hG : L.ExpGe) {x y z : 𝔻} {u v w : ℝ} (ix : Is x u) (iy : Is y v) (iz : Is z w)
    (hu : |u| ≤ 141) (hr : √(v * v + w * w) ≤ 200) :
    Ap (Cam16.fromUcs x y z).jstar u (1 / 10 ^ 8) ∧ Ap (Cam16.fromUcs x y z).astar v (1 / 10 ^ 8) ∧ Ap (Cam16.fromUcs x y z).bstar w (1 / 10 ^ 8) := by
  obtain ⟨R, iR, R0, R1⟩ := in_root_sharp hS.pow
  have r0 := Real.sqrt_nonneg (v * v + w * w)
  have M := mstar_keep hU hG hC (length_np iy iz hr) r0 hr iR R0 R1
  obtain ⟨H, iH, H0, H1, k, hk⟩ := hue_part hS.atan iy iz
  obtain ⟨g, ig, g0, g1, hg⟩ := rad_of iH H0 H1
  obtain ⟨fc, hc, fs, hs⟩ := hS.trig _ ig.1 (by rw [ig.2]; exact g0) (by rw [ig.2]; linarith)
  rw [ig.2] at hc hs
  have ac : Ap (Fl.cos (hueUcs y z * Fl.pi / 180.0)) (cos g) (1 / 10 ^ 12) := ⟨_, ⟨fc, rfl⟩, hc⟩
  have as : Ap (Fl.sin (hueUcs y z * Fl.pi / 180.0)) (sin g) (1 / 10 ^ 12) := ⟨_, ⟨fs, rfl⟩, hs⟩
  have key : |√(v * v + w * w) * cos g - v| ≤ 1 / 10 ^ 9 ∧ |√(v * v + w * w) * sin g - w| ≤ 1 / 10 ^ 9 := by
    by_cases h0 : v = 0 ∧ w = 0
    · obtain ⟨rfl, rfl⟩ := h0
      norm_num
    · obtain ⟨n, hn⟩ := hT.atan z y iz.1 iy.1 (by rw [iy.2, iz.2]; exact h0)
      rw [iy.2, iz.2] at hn
      have en : ‖(⟨v, w⟩ : ℂ)‖ = √(v * v + w * w) := by
        rw [Complex.norm_eq_sqrt_sq_add_sq]; congr 1; ring
      have ev : √(v * v + w * w) * cos (Complex.arg ⟨v, w⟩) = v := by rw [← en]; exact Complex.norm_mul_cos_arg _
      have ew : √(v * v + w * w) * sin (Complex.arg ⟨v, w⟩) = w := by rw [← en]; exact Complex.norm_mul_sin_arg _
      have hd : |g - (Complex.arg ⟨v, w⟩ + (n + k : ℤ) * (2 * π))| ≤ 2 / 10 ^ 12 := by
        rw [abs_le] at *
        push_cast
        constructor <;> norm_num at * <;> linarith
      have cc : |cos g - cos (Complex.arg ⟨v, w⟩)| ≤ 2 / 10 ^ 12 := by
        rw [← Real.cos_add_int_mul_two_pi (Complex.arg ⟨v, w⟩) (n + k)]
        exact (Real.abs_cos_sub_cos_le _ _).trans hd
      have ss : |sin g - sin (Complex.arg ⟨v, w⟩)| ≤ 2 / 10 ^ 12 := by
        rw [← Real.sin_add_int_mul_two_pi (Complex.arg ⟨v, w⟩) (n + k)]
        exact (Real.abs_sin_sub_sin_le _ _).trans hd
      have sm {d : ℝ} (h : |d| ≤ 2 / 10 ^ 12) : |√(v * v + w * w) * d| ≤ 1 / 10 ^ 9 := by
        rw [abs_mul, abs_of_nonneg r0]
        exact (mul_le_mul hr h (abs_nonneg _) (by norm_num)).trans (by norm_num)
      constructor
      · have := sm cc
        rwa [mul_sub, ev] at this
      · have := sm ss
        rwa [mul_sub, ew] at this
  have fin {c : 𝔻} {t a : ℝ} (hc : Ap c t (1 / 10 ^ 12)) (ht : |t| ≤ 1) (ha : |√(v * v + w * w) * t - a| ≤ 1 / 10 ^ 9) :
      Ap (1.0 / 0.0228 * Fl.ln (1.0 + 0.0228 * ((Fl.exp (Fl.sqrt (y * y + z * z) * 0.0228) - 1.0) / 0.0228 / (vc64 L).fLroot * (vc64 L).fLroot)) * c) a (1 / 10 ^ 8) :=
    ((M.mulS hc 200 1 201 (4 / 10 ^ 9) (by rw [abs_of_nonneg r0]; exact hr) ht (by norm_num) (by norm_num) (by norm_num)).shift ha).weaken (by norm_num)
  exact ⟨(jstar_keep ix hu).weaken (by norm_num), fin ac (Real.abs_cos_le_one _) key.1, fin as (Real.abs_sin_le_one _) key.2⟩

end Mcu.Lemmas
