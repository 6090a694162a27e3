import Verif.Lemmas.F64UcsNear
import Verif.Props.Chroma
import Verif.Props.Binary64Temperature

/-! Properties C68 and C83 in IEEE-754 binary64: accuracy of the colour appearance model. -/

namespace Mcu.Props.Binary64

open Mcu.Ieee MathUtils ColorUtils Lemmas

variable {L : Libm}

local notation "𝔻" => F64 L

theorem not_black_iff (argb : Int) : NotBlack argb ↔ argb % 2 ^ 24 ≠ 0 := by
  unfold NotBlack
  simp only [redFromArgb, greenFromArgb, blueFromArgb]
  omega

/-- A representable number above 1 is at least 1 + 2⁻⁵². -/
theorem rep_gt_one {v : ℝ} (h : Rep v) (h1 : 1 < v) : 1 + 2 ^ (-52 : ℤ) ≤ v := by
  obtain ⟨m, e, hm, -, rfl⟩ := h
  have hp := two_zpow_pos e
  rcases lt_or_ge e 0 with he | he
  · obtain ⟨k, rfl⟩ : ∃ k : ℕ, e = -(k : ℤ) := ⟨e.natAbs, by omega⟩
    have e1 : (2 : ℝ) ^ (-(k : ℤ)) = ((2 ^ k : ℤ) : ℝ)⁻¹ := by rw [zpow_neg, zpow_natCast]; push_cast; rfl
    have kp : (0 : ℤ) < 2 ^ k := by positivity
    have kp' : (0 : ℝ) < ((2 ^ k : ℤ) : ℝ) := by exact_mod_cast kp
    rw [e1, ← div_eq_mul_inv, lt_div_iff₀ kp', one_mul] at h1
    have h1' : (2 : ℤ) ^ k < m := by exact_mod_cast h1
    have h2 : (2 : ℤ) ^ k < 2 ^ 53 := h1'.trans (lt_of_le_of_lt (le_abs_self m) hm)
    have hk : k < 53 := (pow_lt_pow_iff_right₀ (by norm_num : (1 : ℤ) < 2)).1 h2
    have h3 : ((2 ^ k : ℤ) : ℝ) ≤ 2 ^ 52 := by
      have : (2 : ℤ) ^ k ≤ 2 ^ 52 := pow_le_pow_right₀ (by norm_num) (by omega)
      exact_mod_cast this
    have h4 : ((2 ^ k : ℤ) : ℝ) + 1 ≤ m := by exact_mod_cast h1'
    rw [e1, ← div_eq_mul_inv, le_div_iff₀ kp']
    have e2 : (2 : ℝ) ^ (-52 : ℤ) = 1 / 2 ^ 52 := by norm_num
    rw [e2]
    generalize ((2 ^ k : ℤ) : ℝ) = x at *
    have : 1 / 2 ^ 52 * x ≤ 1 := by rw [div_mul_eq_mul_div, one_mul]; exact (div_le_one (by norm_num)).2 h3
    linarith
  · obtain ⟨k, rfl⟩ : ∃ k : ℕ, e = (k : ℤ) := ⟨e.natAbs, by omega⟩
    have e1 : (m : ℝ) * (2 : ℝ) ^ (k : ℤ) = ((m * 2 ^ k : ℤ) : ℝ) := by push_cast; rw [zpow_natCast]
    rw [e1] at *
    have h1' : 1 < m * 2 ^ k := by exact_mod_cast h1
    have h2 : (2 : ℝ) ≤ ((m * 2 ^ k : ℤ) : ℝ) := by exact_mod_cast h1'
    refine le_trans ?_ h2
    norm_num

/-- All assumptions on the math library hold for one that rounds correctly. -/
theorem hue_sound_rounding : ∃ L : Libm, L.Sound ∧ L.TempOk ∧ L.CamOk ∧ L.AtanZero ∧ ∀ x y : Dbl, x.Fin → L.powf x y = Dbl.ofReal false (x.val ^ y.val) := by
  obtain ⟨L, hS, hT, hp, ha⟩ := temp_sound_rounding
  refine ⟨{ L with ln := fun x => Dbl.ofReal false (Real.log x.val) }, ⟨hS.pow, ⟨hS.tail.small, hS.tail.nan, hS.tail.inf⟩, hS.dark, hS.trig, hS.exp, hS.atan⟩, ⟨hT.atan, hT.faint⟩, ⟨?_, ?_⟩, fun y x _ _ y0 x0 => .inl ?_, hp⟩
  · intro x y hx hy x0 y0
    change (L.powf x y).Fin ∧ (L.powf x y).val = 0
    rw [hp x y hx, x0, Real.zero_rpow y0.ne']
    have hi := is_ofReal (L := L) (v := 0) false (by simp [rnd_zero])
    rw [rnd_zero] at hi
    exact hi
  · intro x hx x0 x1
    change (Dbl.ofReal false (Real.log x.val)).Fin ∧ |(Dbl.ofReal false (Real.log x.val)).val - Real.log x.val| ≤ _
    have rx : Rep x.val := Is.rep (L := L) (x := x) ⟨hx, rfl⟩
    generalize x.val = u at *
    have l1 : Real.log u ≤ 10 ^ 6 := (Real.log_le_sub_one_of_pos (by linarith)).trans (by linarith)
    have l0 : 0 ≤ Real.log u := Real.log_nonneg x0
    have hi := is_ofReal (L := L) (v := Real.log u) false (rnd_huge (by rw [abs_of_nonneg l0]; exact l1.trans (by norm_num)))
    refine ⟨hi.1, ?_⟩
    rw [show (Dbl.ofReal false (Real.log u)).val = rnd (Real.log u) from hi.2]
    rcases x0.eq_or_lt with e | e
    · rw [← e, Real.log_one, rnd_zero]; simp
    · have h := rep_gt_one rx e
      have h2 := Real.one_sub_inv_le_log_of_pos (show 0 < u by linarith)
      have h3 : 1 / 10 ^ 17 ≤ 1 - u⁻¹ := by
        have : u⁻¹ ≤ (1 + 2 ^ (-52 : ℤ))⁻¹ := inv_anti₀ (by norm_num) h
        refine le_trans ?_ (sub_le_sub_left this 1)
        norm_num
      have r := rnd_any (Real.log u)
      rw [abs_of_nonneg l0] at r
      refine r.trans ?_
      generalize Real.log u = l at *
      norm_num at *
      linarith
  · change (L.atan2 y x).val = 0
    rw [ha, x0, y0, show (⟨0, 0⟩ : ℂ) = 0 from rfl, Complex.arg_zero]
    have hi := is_ofReal (L := L) (v := 0) false (by simp [rnd_zero])
    rw [rnd_zero] at hi
    exact hi.2

theorem hue_sound_exists : ∃ L : Libm, L.Sound ∧ L.TempOk ∧ L.CamOk ∧ L.AtanZero := by
  obtain ⟨L, hS, hT, hC, hZ, -⟩ := hue_sound_rounding
  exact ⟨L, hS, hT, hC, hZ⟩

theorem cam_sound_exists : ∃ L : Libm, L.Sound ∧ L.TempOk ∧ L.CamOk := by
  obtain ⟨L, hS, hT, hC, -⟩ := hue_sound_exists
  exact ⟨L, hS, hT, hC⟩

/-! ## C83 -/

/-- C83: the hue of every colour but black is computed to within 2·10⁻⁴ degrees around the circle. -/
theorem c83_hue (hS : L.Sound) (hT : L.TempOk) (argb : Int) (h : argb % 2 ^ 24 ≠ 0) :
    Fin (Hct.fromInt argb : Hct 𝔻).getHue ∧
      ∃ k : ℤ, |val (Hct.fromInt argb : Hct 𝔻).getHue - ((Hct.fromInt argb : Hct ℝ).getHue + k * 360)| ≤ 2 / 10 ^ 4 := by
  obtain ⟨⟨v, k, iv, -, -, hv⟩, -⟩ := cam_near hS hT ((not_black_iff argb).2 h)
  refine ⟨iv.1, k, ?_⟩
  rw [show val (Hct.fromInt argb : Hct 𝔻).getHue = v from iv.2]
  exact hv.trans (by norm_num)

theorem near_of_nr {x : 𝔻} {t ε : ℝ} {n : ℕ} (e : ℝ) (h : Nr x t ε n) (he : ε ≤ e) : Fin x ∧ 0 < t ∧ |val x - t| ≤ e * t := by
  obtain ⟨v, iv, hv⟩ := h.rl
  refine ⟨iv.1, h.pos, ?_⟩
  rw [show val x = v from iv.2]
  exact hv.trans (mul_le_mul_of_nonneg_right he h.pos.le)

/-- C83: the chroma of every colour but black is computed with a relative error of at most 4·10⁻⁶. -/
theorem c83_chroma (hS : L.Sound) (hT : L.TempOk) (argb : Int) (h : argb % 2 ^ 24 ≠ 0) :
    Fin (Hct.fromInt argb : Hct 𝔻).getChroma ∧
      |val (Hct.fromInt argb : Hct 𝔻).getChroma - (Hct.fromInt argb : Hct ℝ).getChroma| ≤ 4 / 10 ^ 6 * (Hct.fromInt argb : Hct ℝ).getChroma := by
  obtain ⟨-, c, -⟩ := cam_near hS hT ((not_black_iff argb).2 h)
  obtain ⟨h1, -, h2⟩ := near_of_nr (4 / 10 ^ 6) c (by norm_num)
  exact ⟨h1, h2⟩

/-- C83: lightness, brightness, colourfulness and saturation of every colour but black are positive and computed with relative errors
of at most 10⁻¹⁰, 10⁻¹⁰, 4·10⁻⁶ and 5·10⁻⁶. -/
theorem c83_appearance (hS : L.Sound) (hT : L.TempOk) (argb : Int) (h : argb % 2 ^ 24 ≠ 0) :
    let k : Cam16 𝔻 := Cam16.fromInt argb
    let e : Cam16 ℝ := Cam16.fromInt argb
    (Fin k.j ∧ 0 < e.j ∧ |val k.j - e.j| ≤ 1 / 10 ^ 10 * e.j) ∧ (Fin k.q ∧ 0 < e.q ∧ |val k.q - e.q| ≤ 1 / 10 ^ 10 * e.q) ∧
      (Fin k.m ∧ 0 < e.m ∧ |val k.m - e.m| ≤ 4 / 10 ^ 6 * e.m) ∧ (Fin k.s ∧ 0 < e.s ∧ |val k.s - e.s| ≤ 5 / 10 ^ 6 * e.s) := by
  obtain ⟨-, -, j, q, m, s⟩ := cam_near hS hT ((not_black_iff argb).2 h)
  exact ⟨near_of_nr _ j (by norm_num), near_of_nr _ q (by norm_num), near_of_nr _ m (by norm_num), near_of_nr _ s (by norm_num)⟩

/-- C83: the coordinates of every colour but black in the uniform colour space: J' with a relative error of at most 10⁻¹⁰, a' and b'
to within 8·10⁻⁶ of the distance from the neutral axis. -/
theorem c83_uniform (hS : L.Sound) (hT : L.TempOk) (hC : L.CamOk) (argb : Int) (h : argb % 2 ^ 24 ≠ 0) :
    let k : Cam16 𝔻 := Cam16.fromInt argb
    let e : Cam16 ℝ := Cam16.fromInt argb
    (Fin k.jstar ∧ |val k.jstar - e.jstar| ≤ 1 / 10 ^ 10 * e.jstar) ∧
      (Fin k.astar ∧ |val k.astar - e.astar| ≤ 8 / 10 ^ 6 * Real.sqrt (e.astar ^ 2 + e.bstar ^ 2)) ∧
      (Fin k.bstar ∧ |val k.bstar - e.bstar| ≤ 8 / 10 ^ 6 * Real.sqrt (e.astar ^ 2 + e.bstar ^ 2)) := by
  have hn := (not_black_iff argb).2 h
  obtain ⟨j1, -, j2⟩ := near_of_nr (1 / 10 ^ 10) (nr_jstar hS.pow hS.exp (L := L) hn) le_rfl
  obtain ⟨⟨a, ia, ha⟩, ⟨b, ib, hb⟩⟩ := ucs_near hS hT hC hn
  dsimp only
  rw [← mstar_radius argb hn, show val (Cam16.fromInt argb : Cam16 𝔻).astar = a from ia.2, show val (Cam16.fromInt argb : Cam16 𝔻).bstar = b from ib.2]
  exact ⟨⟨j1, j2⟩, ⟨ia.1, ha⟩, ib.1, hb⟩

/-- C83: black has lightness, brightness, chroma and colourfulness exactly 0. -/
theorem c83_black (hS : L.Sound) (hC : L.CamOk) (argb : Int) (h : argb % 2 ^ 24 = 0) :
    let k : Cam16 𝔻 := Cam16.fromInt argb
    (Fin k.j ∧ val k.j = 0) ∧ (Fin k.chroma ∧ val k.chroma = 0) ∧ (Fin k.q ∧ val k.q = 0) ∧ (Fin k.m ∧ val k.m = 0) :=
  black_cam hS hC (fun hn => (not_black_iff argb).1 hn h)

/-- C83: on two platforms with different (sound) math libraries, the hue of a colour differs by at most 4·10⁻⁴ degrees around the
circle and the chroma by at most one part in 10⁵. -/
theorem c83_platforms {L₁ L₂ : Libm} (h1 : L₁.Sound) (t1 : L₁.TempOk) (h2 : L₂.Sound) (t2 : L₂.TempOk) (argb : Int) (h : argb % 2 ^ 24 ≠ 0) :
    (∃ k : ℤ, |val (Hct.fromInt argb : Hct (F64 L₁)).getHue - val (Hct.fromInt argb : Hct (F64 L₂)).getHue - k * 360| ≤ 4 / 10 ^ 4) ∧
      |val (Hct.fromInt argb : Hct (F64 L₁)).getChroma - val (Hct.fromInt argb : Hct (F64 L₂)).getChroma| ≤
        1 / 10 ^ 5 * val (Hct.fromInt argb : Hct (F64 L₁)).getChroma := by
  obtain ⟨-, k1, a1⟩ := c83_hue h1 t1 argb h
  obtain ⟨-, k2, a2⟩ := c83_hue h2 t2 argb h
  obtain ⟨-, c1⟩ := c83_chroma h1 t1 argb h
  obtain ⟨-, c2⟩ := c83_chroma h2 t2 argb h
  have cp := c68_nonneg argb
  constructor
  · refine ⟨k1 - k2, ?_⟩
    have a1 := abs_le.1 a1
    have a2 := abs_le.1 a2
    push_cast
    rw [abs_le]
    constructor <;> norm_num at * <;> linarith
  · have c1 := abs_le.1 c1
    have c2 := abs_le.1 c2
    rw [abs_le]
    generalize (Hct.fromInt argb : Hct ℝ).getChroma = c at *
    constructor <;> norm_num at * <;> linarith

/-! ## C68 -/

/-- C68 (binary64): the chroma of a colour is finite and not negative, and it is 0 exactly for black. -/
theorem c68_binary64_only_black (hS : L.Sound) (hT : L.TempOk) (hC : L.CamOk) (argb : Int) :
    Fin (Hct.fromInt argb : Hct 𝔻).getChroma ∧ 0 ≤ val (Hct.fromInt argb : Hct 𝔻).getChroma ∧
      (val (Hct.fromInt argb : Hct 𝔻).getChroma = 0 ↔ argb % 2 ^ 24 = 0) := by
  by_cases h : argb % 2 ^ 24 = 0
  · obtain ⟨-, ⟨f, e⟩, -⟩ := c83_black hS hC argb h
    have e' : val (Hct.fromInt argb : Hct 𝔻).getChroma = 0 := e
    exact ⟨f, e'.ge, iff_of_true e' h⟩
  · obtain ⟨f, hc⟩ := c83_chroma hS hT argb h
    have hp : 0 < (Hct.fromInt argb : Hct ℝ).getChroma := lt_of_le_of_ne (c68_nonneg argb) (fun e => h ((c68_only_black argb).1 e.symm))
    have hc := abs_le.1 hc
    have : 0 < val (Hct.fromInt argb : Hct 𝔻).getChroma := by
      generalize (Hct.fromInt argb : Hct ℝ).getChroma = c at *
      norm_num at *; linarith
    exact ⟨f, this.le, iff_of_false this.ne' h⟩

/-- The hypotheses can be met: gray, blue and black with a correctly rounding library. -/
example : ∃ L : Libm, (val (Hct.fromInt 0xFF808080 : Hct (F64 L)).getChroma ≠ 0 ∧ val (Hct.fromInt 0xFF000000 : Hct (F64 L)).getChroma = 0) ∧
    ∃ k : ℤ, |val (Hct.fromInt 0xFF0000FF : Hct (F64 L)).getHue - ((Hct.fromInt 0xFF0000FF : Hct ℝ).getHue + k * 360)| ≤ 2 / 10 ^ 4 := by
  obtain ⟨L, hS, hT, hC⟩ := cam_sound_exists
  refine ⟨L, ⟨fun h => ?_, ((c68_binary64_only_black hS hT hC _).2.2).2 (by norm_num)⟩, (c83_hue hS hT _ (by norm_num)).2⟩
  have := ((c68_binary64_only_black hS hT hC _).2.2).1 h
  norm_num at this

end Mcu.Props.Binary64
