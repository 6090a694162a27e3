import Verif.Lemmas.F64Setting
import Verif.Props.Binary64Tone

/-! The tone of the colour the HCT solver finds, in IEEE-754 binary64, the exact search included. -/

namespace Mcu.Props.Binary64

open Mcu.Ieee MathUtils ColorUtils HctSolver Lemmas

variable {L : Libm}

local notation "𝔻" => F64 L

/-- The assumptions on the math library can be met together: a library that rounds exact results satisfies them. -/
theorem libm_rounding : ∃ L : Libm, (L.PowOk ∧ L.PowTail ∧ L.TrigOk ∧ L.ExpOk) ∧
    (∀ x y : Dbl, x.Fin → L.powf x y = Dbl.ofReal false (x.val ^ y.val)) ∧
    (∀ y x : Dbl, L.atan2 y x = Dbl.ofReal false (Complex.arg ⟨x.val, y.val⟩)) := by
  have small : ∀ (s : Bool) (v : ℝ), |v| ≤ 1 → (Dbl.ofReal s v).Fin ∧ |(Dbl.ofReal s v).val - v| ≤ 1 / 10 ^ 12 := by
    intro s v hv
    obtain ⟨h1, h2⟩ := rnd_ok (v := v) (hv.trans (by norm_num))
    have := is_ofReal (L := ⟨fun x _ => x, id, id, id, id, fun x _ => x⟩) s h1
    refine ⟨this.1, ?_⟩
    rw [show (Dbl.ofReal s v).val = rnd v from this.2]
    exact h2
  let pw : Dbl → Dbl → Dbl := fun x y => match x with
    | .nan => .nan
    | .inf false => .inf false
    | x => Dbl.ofReal false (x.val ^ y.val)
  have epw : ∀ x y : Dbl, x.Fin → pw x y = Dbl.ofReal false (x.val ^ y.val) := by
    intro x y hx
    cases x with
    | nan => exact hx.elim
    | inf s => exact hx.elim
    | zero s => rfl
    | num v h => rfl
  refine ⟨⟨pw, fun x => Dbl.ofReal false (Real.exp x.val), id, fun x => Dbl.ofReal false (Real.sin x.val),
    fun x => Dbl.ofReal false (Real.cos x.val), fun y x => Dbl.ofReal false (Complex.arg ⟨x.val, y.val⟩)⟩,
    ⟨?_, ⟨?_, fun _ _ _ => rfl, fun _ _ _ => rfl⟩, ?_, ?_⟩, epw, fun _ _ => rfl⟩
  · intro x y hx _ h1 h2 h3 h4
    change (pw x y).Fin ∧ |(pw x y).val - _| ≤ _
    rw [epw x y hx]
    exact rounded_powf h1 h2 h3 h4
  · intro x y hx _ h1 h2 h3 h4
    change (pw x y).Fin ∧ 0 ≤ (pw x y).val ∧ (pw x y).val ≤ _ ∧ (_ → (pw x y).val = 0)
    rw [epw x y hx]
    have e0 : (x.val = 0 → x.val ^ y.val = 0) := by
      intro h; rw [h, Real.zero_rpow (by norm_num at h3; linarith)]
    have p0 : 0 ≤ x.val ^ y.val := Real.rpow_nonneg h1 _
    have p1 : x.val ^ y.val ≤ 9 / 10 ^ 14 := by
      calc x.val ^ y.val ≤ (2 / 10 ^ 6 : ℝ) ^ y.val := Real.rpow_le_rpow h1 h2 (by norm_num at h3; linarith)
        _ ≤ (2 / 10 ^ 6 : ℝ) ^ (2.3 : ℝ) := Real.rpow_le_rpow_of_exponent_ge (by norm_num) (by norm_num) h3
        _ ≤ _ := by
          have := rpow_le_of_le_pow (x := (2 / 10 ^ 6 : ℝ)) (p := 23) (q := 10) (a := 9 / 10 ^ 14) (by norm_num) (by norm_num) (by norm_num) (by norm_num)
          rw [show (2.3 : ℝ) = ((23 : ℕ) : ℝ) / ((10 : ℕ) : ℝ) by norm_num]; exact this
    obtain ⟨r1, r2⟩ := rnd_ok (v := x.val ^ y.val) (by rw [abs_of_nonneg p0]; exact p1.trans (by norm_num))
    have hi := is_ofReal (L := ⟨fun x _ => x, id, id, id, id, fun x _ => x⟩) false r1
    refine ⟨hi.1, ?_⟩
    rw [show (Dbl.ofReal false (x.val ^ y.val)).val = rnd (x.val ^ y.val) from hi.2]
    refine ⟨rnd_nonneg p0, ?_, fun h => by rw [e0 h, rnd_zero]⟩
    have := abs_le.1 (rnd_any (x.val ^ y.val))
    rw [abs_of_nonneg p0] at this
    generalize rnd (x.val ^ y.val) = r at *
    generalize x.val ^ y.val = q at *
    norm_num at *; linarith
  · intro x _ h1 h2
    obtain ⟨a1, a2⟩ := small false (Real.cos x.val) (Real.abs_cos_le_one _)
    obtain ⟨b1, b2⟩ := small false (Real.sin x.val) (Real.abs_sin_le_one _)
    exact ⟨a1, a2, b1, b2⟩
  · intro x _ h1 h2
    exact small false (Real.exp x.val) (by rw [abs_of_pos (Real.exp_pos _)]; exact Real.exp_le_one_iff.2 h2)

theorem libm_exists : ∃ L : Libm, L.PowOk ∧ L.PowTail ∧ L.TrigOk ∧ L.ExpOk :=
  let ⟨L, h, _⟩ := libm_rounding
  ⟨L, h⟩

theorem in_radians {h : 𝔻} (hh : Fin h) : In (radians h) 0 7 := by
  obtain ⟨f, h0, h1, -⟩ := c06_binary64_partial h hh
  have ia : Is (sanitizeDegreesDouble h) (val (sanitizeDegreesDouble h)) := ⟨f, rfl⟩
  have a : In (sanitizeDegreesDouble h) 0 360 := ⟨_, ia, h0, h1⟩
  have l180 : Is (180.0 : 𝔻) 180 := by simpa using lit (L := L) 1800 1 true 180 (by norm_num) (by norm_num)
  obtain ⟨x, ix, -, x1⟩ := a.div (in_lit (L := L) (m := 1800) (s := true) (e := 1) 180 (by norm_num) (by norm_num [abs_le])) (-0.001) 2.001 (by norm_num) (by norm_num) (by norm_num) (by norm_num) (by norm_num) (by norm_num)
  obtain ⟨a', ia', jx⟩ := inv_div l180 (by norm_num) ix.1
  obtain rfl := ia'.unique ia
  have x0 : 0 ≤ x := by rw [ix.unique jx]; exact rnd_nonneg (div_nonneg h0 (by norm_num))
  obtain ⟨z, iz, z0, z1⟩ := in_pi (L := L)
  obtain ⟨y, iy, -, y1⟩ := In.mul (x := sanitizeDegreesDouble h / 180.0) ⟨x, ix, x0, x1⟩ ⟨z, iz, z0, z1⟩ (-0.001) 7 (by norm_num) (by norm_num) (by norm_num) (by norm_num) (by norm_num) (by norm_num)
  refine ⟨y, iy, ?_, y1⟩
  rw [iy.unique (Lemmas.inv_mul ix iz iy.1)]
  exact rnd_nonneg (mul_nonneg x0 (by norm_num at z0; linarith))

/-- C26 in binary64: for every finite hue, every finite chroma up to 10⁵⁰ and every tone between 0 and 100 the tone of the
colour the solver finds differs from the requested tone by at most 0.846. -/
theorem c26_binary64 (hL : L.PowOk) (hT : L.PowTail) (hR : L.TrigOk) (hE : L.ExpOk) (h c t : 𝔻) (hh : Fin h) (hc : Fin c)
    (c1 : val c ≤ 10 ^ 50) (ht : Fin t) (h0 : 0 ≤ val t) (h1 : val t ≤ 100) :
    |val (lstarFromArgb (solveToInt h c t) : 𝔻) - val t| ≤ 0.846 := by
  rcases solve_cases hL h c t ht h0 h1 with h | ⟨hp, hcube, hguard, -, e⟩
  · exact h.trans (by norm_num)
  have near := Ap.val_near (ap_lstarFromArgb hL (solveToInt h c t))
  have hρ : ρ = 1 / 10 ^ 12 := rfl
  obtain ⟨w, iw, hw⟩ := ap_lit (L := L) (m := 1) (s := true) (e := 4) (v := 0.0001) rfl (by norm_num [abs_of_pos])
  change Is (0.0001 : 𝔻) w at iw
  rw [hρ] at hw
  have hw := abs_le.1 hw
  push Not at hguard
  obtain ⟨g1, g2, g3⟩ := hguard
  have ic : Is c (val c) := ⟨hc, rfl⟩
  have it : Is t (val t) := ⟨ht, rfl⟩
  rw [ic.lt_iff iw, not_lt] at g1
  rw [it.lt_iff iw, not_lt] at g2
  obtain ⟨v, iv, v0, v1, dv⟩ := is_target it h0 g3
  have hset : Setting (radians h) c := setting_of hL hR (in_radians hh) hc (by norm_num at *; change _ ≤ val c; linarith) c1
  have dark : 0.00001107 ≤ (yFromLstar (val t) : ℝ) := by
    rw [yFromLstar_eq]
    rcases le_or_gt ((val t + 16) / 116) (6 / 29) with hl | hl
    · rw [labInvf_of_le hl]
      norm_num at *; linarith
    · rw [labInvf_of_gt hl]
      have := pow_le_pow_left₀ (by norm_num) hl.le 3
      norm_num at *; linarith
  have v11 : 1.1e-5 ≤ v := by
    have := abs_le.1 dv
    norm_num at *; linarith
  have v100 : v ≤ 100 := v1.trans (by norm_num)
  obtain ⟨hfin, f, jf, f1, f2, f3⟩ := newton64 hL hT hE hset iv v11 v100 hp
  have hp4 := hp 4 le_rfl
  rw [e] at near ⊢
  generalize candidate (radians h) c (yFromLstar t) 4 = p at *
  obtain ⟨g, ig, hg⟩ := ap_lit (L := L) (m := 10001) (s := true) (e := 2) (v := 100.01) rfl (by norm_num [abs_of_pos])
  change Is (100.01 : 𝔻) g at ig
  obtain ⟨X, hX⟩ : ∃ X : _root_.Fin 3 → ℝ, X = fun i => Dbl.val (p.get i) := ⟨_, rfl⟩
  have iX : IsV p X := fun i => ⟨hfin i, by rw [hX]⟩
  obtain ⟨hn, -⟩ := hp4
  push Not at hn hcube
  have n : ∀ i, ¬ p.get i < 0.0 := fun i => by
    fin_cases i
    · exact hn.1
    · exact hn.2.1
    · exact hn.2.2
  have m : ∀ i, ¬ p.get i > 100.01 := fun i => by
    fin_cases i
    · exact hcube.1
    · exact hcube.2.1
    · exact hcube.2.2
  have X0 : ∀ i, 0 ≤ X i := fun i => by
    have := n i
    rw [(iX i).lt_iff l0'] at this
    exact not_lt.1 this
  have X1 : ∀ i, X i ≤ 100.02 := fun i => by
    have := m i
    rw [show (p.get i > 100.01) = ((100.01 : 𝔻) < p.get i) from rfl, ig.lt_iff (iX i)] at this
    have hg := abs_le.1 hg
    rw [hρ] at hg
    norm_num at *; linarith
  have col := color64_lum hL iX X0 X1
  obtain ⟨f', jf', ef⟩ := ap_fnj iX X0 X1
  obtain rfl := jf'.unique jf
  have d1 := (lstarFromY_lipschitz f' (wlum X)).trans (mul_le_mul_of_nonneg_left ef (by norm_num))
  have d2 := lstar_close64 (by norm_num at v11; linarith) v100 f3 ⟨f1, f2⟩
  have d3 := lstarFromY_lipschitz v (yFromLstar (val t))
  rw [c11_lstar_y_lstar] at d3
  have d3 := d3.trans (mul_le_mul_of_nonneg_left (show |v - yFromLstar (val t)| ≤ 2 / 10 ^ 8 from dv) (by norm_num))
  have a1 := abs_le.1 near.2
  have a2 := abs_le.1 col
  have a3 := abs_le.1 d1
  have a4 := abs_le.1 d2
  have a5 := abs_le.1 d3
  rw [abs_le]
  generalize val (lstarFromArgb (argbFromLinrgb p) : 𝔻) = z at *
  generalize (lstarFromArgb (argbFromLinrgb p) : ℝ) = z' at *
  clear near col d1 d2 d3
  norm_num at *
  constructor <;> linarith

/-- The hypotheses are met: some library satisfies the assumptions, and hue 120, chroma 40, tone 50 are as required. -/
example : ∃ (L : Libm) (h c t : F64 L), L.PowOk ∧ L.PowTail ∧ L.TrigOk ∧ L.ExpOk ∧ Fin h ∧ Fin c ∧ val c = 40 ∧ Fin t ∧
    val t = 50 := by
  obtain ⟨L, h⟩ := libm_exists
  have h1 : Is (L := L) 120.0 120 := by simpa using lit (L := L) 1200 1 true 120 (by norm_num) (by norm_num)
  have h2 : Is (L := L) 40.0 40 := by simpa using lit (L := L) 400 1 true 40 (by norm_num) (by norm_num)
  have h3 : Is (L := L) 50.0 50 := by simpa using lit (L := L) 500 1 true 50 (by norm_num) (by norm_num)
  exact ⟨L, 120.0, 40.0, 50.0, h.1, h.2.1, h.2.2.1, h.2.2.2, h1.1, h2.1, h2.2, h3.1, h3.2⟩

end Mcu.Props.Binary64
