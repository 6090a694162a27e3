import Verif.Lemmas.F64Tone
import Verif.Props.Binary64

/-! Colour conversions in IEEE-754 binary64, for every math library whose `powf` is accurate (`Libm.PowOk`).

`(linearized c : F64 L)` is the double the code computes, `val` its value; `(linearized c : ℝ)` is the same formula without
rounding. -/

namespace Mcu.Props.Binary64

open Mcu.Ieee Mcu.Lemmas MathUtils Contrast ColorUtils

variable {L : Libm}

local notation "𝔻" => F64 L

/-- A correctly rounded `powf` meets the bound of `Libm.PowOk`. -/
theorem rounded_powf {x y : Dbl} (hx0 : 1 / 10 ^ 6 ≤ x.val) (hx1 : x.val ≤ 10 ^ 60) (hy0 : 0 ≤ y.val) (hy3 : y.val ≤ 3) :
    (Dbl.ofReal false (x.val ^ y.val)).Fin ∧
    |(Dbl.ofReal false (x.val ^ y.val)).val - x.val ^ y.val| ≤ x.val ^ y.val / 10 ^ 13 := by
  have hx : (0 : ℝ) < x.val := lt_of_lt_of_le (by norm_num) hx0
  have hp : (0 : ℝ) < x.val ^ y.val := Real.rpow_pos_of_pos hx _
  have hup : x.val ^ y.val ≤ ((2 : ℝ) ^ 200) ^ 3 := by
    calc x.val ^ y.val ≤ (2 ^ 200 : ℝ) ^ y.val := Real.rpow_le_rpow hx.le (hx1.trans (by norm_num)) hy0
      _ ≤ (2 ^ 200 : ℝ) ^ (3 : ℝ) := Real.rpow_le_rpow_of_exponent_le (by norm_num) hy3
      _ = ((2 : ℝ) ^ 200) ^ (3 : ℕ) := by rw [← Real.rpow_natCast]; norm_num
  have hlo : (1 : ℝ) / 10 ^ 18 ≤ x.val ^ y.val := by
    calc (1 : ℝ) / 10 ^ 18 = (1 / 10 ^ 6 : ℝ) ^ (3 : ℕ) := by norm_num
      _ = (1 / 10 ^ 6 : ℝ) ^ (3 : ℝ) := by rw [← Real.rpow_natCast]; norm_num
      _ ≤ (1 / 10 ^ 6 : ℝ) ^ y.val := Real.rpow_le_rpow_of_exponent_ge (by norm_num) (by norm_num) hy3
      _ ≤ x.val ^ y.val := Real.rpow_le_rpow (by norm_num) hx0 hy0
  have hs : |rnd (x.val ^ y.val)| < 2 ^ 1024 := by
    have h6 : Rep (((2 : ℝ) ^ 200) ^ 3) := by
      have := rep_zpow (e := 600) (by norm_num)
      rwa [show ((2 : ℝ) ^ (600 : ℤ)) = (2 ^ 200) ^ 3 by rw [← pow_mul, ← zpow_natCast]; norm_num] at this
    rw [abs_of_nonneg (rnd_nonneg hp.le)]
    refine (h6.rnd_le hup).trans_lt ?_
    rw [← pow_mul]
    exact pow_lt_pow_right₀ (by norm_num) (by norm_num)
  have hi := is_ofReal (L := ⟨fun x y => Dbl.ofReal false (x.val ^ y.val), id, id, id, id, fun x _ => x⟩) false hs
  refine ⟨hi.1, ?_⟩
  have he := rnd_error (x.val ^ y.val)
  rw [show Dbl.val (Dbl.ofReal false (x.val ^ y.val)) = rnd (x.val ^ y.val) from hi.2]
  refine he.trans ?_
  rw [abs_of_pos hp]
  have h1 : (2 : ℝ) ^ (-1075 : ℤ) ≤ 2 ^ (-200 : ℤ) := zpow_le_zpow_right₀ (by norm_num) (by norm_num)
  have h2 : (2 : ℝ) ^ (-200 : ℤ) ≤ 1 / 10 ^ 40 := by norm_num
  have h3 : (2 : ℝ) ^ (-53 : ℤ) ≤ 1 / 10 ^ 15 := by norm_num
  have h4 : x.val ^ y.val * 2 ^ (-53 : ℤ) ≤ x.val ^ y.val * (1 / 10 ^ 15) := mul_le_mul_of_nonneg_left h3 hp.le
  have h5 := h1.trans h2
  generalize (2 : ℝ) ^ (-1075 : ℤ) = u at *
  generalize x.val ^ y.val = p at *
  norm_num at *
  linarith

/-- The accuracy assumption can be met: a library with a correctly rounded `powf` satisfies it. -/
theorem powOk_exists : ∃ L : Libm, L.PowOk :=
  ⟨⟨fun x y => Dbl.ofReal false (x.val ^ y.val), id, id, id, id, fun x _ => x⟩, fun _ _ _ _ h1 h2 h3 h4 => rounded_powf h1 h2 h3 h4⟩

theorem Ap.val_near {x : 𝔻} {a δ : ℝ} (h : Ap x a δ) : Fin x ∧ |val x - a| ≤ δ := by
  obtain ⟨v, hv, hd⟩ := h
  refine ⟨hv.1, ?_⟩
  rw [show val x = v from hv.2]; exact hd

/-! ### C10 -/

/-- C10 (binary64): converting a channel to linear light and back returns the channel, although every step rounds. -/
theorem c10_binary64_round_trip (hL : L.PowOk) (c : Int) (h0 : 0 ≤ c) (h1 : c ≤ 255) :
    delinearized (linearized c : 𝔻) = c :=
  delinearized_ap hL (ap_linearized hL h0 h1) h0 h1 (by rw [sub_self, abs_zero]; norm_num)

/-- C10 (binary64): the computed linear values are finite, within 4·10⁻⁸ of the exact formula, and strictly increasing. -/
theorem c10_binary64_increasing (hL : L.PowOk) (c : Int) (h0 : 0 ≤ c) (h1 : c ≤ 255) :
    Fin (linearized c : 𝔻) ∧ |val (linearized c : 𝔻) - linearized c| ≤ 4 / 10 ^ 8 ∧
    ∀ d : Int, c < d → d ≤ 255 → (linearized c : 𝔻) < linearized d := by
  have a := ap_linearized hL h0 h1
  refine ⟨(Ap.val_near a).1, (Ap.val_near a).2, fun d hcd hd => ?_⟩
  refine a.lt_of (ap_linearized hL (by omega) hd) ?_
  -- if the gap were small, `delinearized_near` would identify both channels
  by_contra hc
  have hlt := linearized_step c d hcd
  have : delinearized (linearized d : ℝ) = c := by
    refine delinearized_near h0 h1 ?_
    rw [abs_of_nonneg (by linarith)]
    norm_num at hc ⊢; linarith
  rw [c10_round_trip d (by omega) hd] at this
  omega

example : (0 : Int) ≤ 128 ∧ (128 : Int) < 129 ∧ (129 : Int) ≤ 255 := by decide

/-! ### C11 -/

/-- C11 (binary64): tone to luminance to tone, and back, on [0, 100]: the rounding errors never exceed 3·10⁻⁶. -/
theorem c11_binary64_round_trip (hL : L.PowOk) (x : 𝔻) (hx : Fin x) (h0 : 0 ≤ val x) (h1 : val x ≤ 100) :
    (Fin (lstarFromY (yFromLstar x)) ∧ |val (lstarFromY (yFromLstar x)) - val x| ≤ 3 / 10 ^ 6) ∧
    (Fin (yFromLstar (lstarFromY x)) ∧ |val (yFromLstar (lstarFromY x)) - val x| ≤ 3 / 10 ^ 6) := by
  have ax := (is_of x hx).ap
  constructor
  · have hy := (c11_range (val x)).1.1 ⟨h0, h1⟩
    have a := ap_yFromLstar ax (by linarith) (by linarith) (by norm_num)
    have b := ap_lstarFromY hL a (by linarith [hy.1]) (by norm_num; linarith [hy.2]) (by norm_num)
    rw [c11_lstar_y_lstar] at b
    exact Ap.val_near (b.weaken (by norm_num))
  · have hl := (c11_range (val x)).2.1 ⟨h0, h1⟩
    have a := ap_lstarFromY hL ax (by linarith) (by norm_num; linarith) (by norm_num)
    have b := ap_yFromLstar a (by linarith [hl.1]) (by linarith [hl.2]) (by norm_num)
    rw [c11_y_lstar_y] at b
    exact Ap.val_near (b.weaken (by norm_num))

/-! ### C12 and C13 -/

/-- C12 (binary64): converting a colour to XYZ and back keeps the three channels and sets alpha to 255. -/
theorem c12_binary64_round_trip (hL : L.PowOk) (argb : Int) :
    argbFromXyz (xyzFromArgb argb : Vec3 𝔻).x0 (xyzFromArgb argb : Vec3 𝔻).x1
      (xyzFromArgb argb : Vec3 𝔻).x2 = 0xFF000000 + argb % 2 ^ 24 := by
  obtain ⟨h0, h1, h2⟩ := ap_xyz hL argb
  exact argbFromXyz_near hL argb (h0.weaken (by norm_num)) (h1.weaken (by norm_num)) (h2.weaken (by norm_num))

/-- C13 (binary64): converting a colour to L*a*b* and back keeps the three channels and sets alpha to 255. -/
theorem c13_binary64_round_trip (hL : L.PowOk) (argb : Int) :
    argbFromLab (labFromArgb argb : Vec3 𝔻).x0 (labFromArgb argb : Vec3 𝔻).x1
      (labFromArgb argb : Vec3 𝔻).x2 = 0xFF000000 + argb % 2 ^ 24 := lab_round_trip hL argb

/-! ### C15 -/

/-- The linear values of different channels are at least 0.009 apart. -/
theorem linearized_apart {c d : Int} (h0 : 0 ≤ c) (h : c < d) (hd : d ≤ 255) :
    (linearized c : ℝ) + 0.009 ≤ linearized d := by
  by_contra hc
  have hlt := linearized_step c d h
  have : delinearized (linearized d : ℝ) = c := by
    refine delinearized_near h0 (by omega) ?_
    rw [abs_of_nonneg (by linarith)]
    norm_num at hc ⊢; linarith
  rw [c10_round_trip d (by omega) hd] at this
  omega

/-- C15 (binary64): the computed tone is finite, within 2·10⁻⁵ of [0, 100], and still strictly increases when some channel
increases and none decreases. -/
theorem c15_binary64 (hL : L.PowOk) (a : Int) :
    Fin (lstarFromArgb a : 𝔻) ∧ -(2 / 10 ^ 5) ≤ val (lstarFromArgb a : 𝔻) ∧
    val (lstarFromArgb a : 𝔻) ≤ 100 + 2 / 10 ^ 5 ∧
    ∀ b : Int, redFromArgb a ≤ redFromArgb b → greenFromArgb a ≤ greenFromArgb b → blueFromArgb a ≤ blueFromArgb b →
      (redFromArgb a < redFromArgb b ∨ greenFromArgb a < greenFromArgb b ∨ blueFromArgb a < blueFromArgb b) →
      (lstarFromArgb a : 𝔻) < lstarFromArgb b := by
  have ha := ap_lstarFromArgb hL a
  have hr := c15_range a
  obtain ⟨f, n⟩ := Ap.val_near ha
  have n' := abs_le.1 n
  refine ⟨f, by linarith, by linarith, fun b h1 h2 h3 hne => ?_⟩
  refine ha.lt_of (ap_lstarFromArgb hL b) ?_
  have gap : (xyzFromArgb a : Vec3 ℝ).x1 + 0.0006 ≤ (xyzFromArgb b : Vec3 ℝ).x1 := by
    rw [luminance_eq, luminance_eq]
    obtain ⟨ra, ga, ba⟩ := channel_range a
    obtain ⟨rb, gb, bb⟩ := channel_range b
    have r : (linearized _ : ℝ) ≤ linearized _ := c10_strictMono.monotone h1
    have g : (linearized _ : ℝ) ≤ linearized _ := c10_strictMono.monotone h2
    have u : (linearized _ : ℝ) ≤ linearized _ := c10_strictMono.monotone h3
    norm_num
    rcases hne with h | h | h
    · have := linearized_apart ra.1 h rb.2; norm_num at this; linarith
    · have := linearized_apart ga.1 h gb.2; norm_num at this; linarith
    · have := linearized_apart ba.1 h bb.2; norm_num at this; linarith
  rw [lstarFromArgb_eq, lstarFromArgb_eq, lstarFromY_eq, lstarFromY_eq]
  have ya := luminance_range a
  have yb := luminance_range b
  have bound : ∀ y : ℝ, 0 ≤ y → y ≤ 100 → labF (y / 100) ≤ 1.1 := by
    intro y h0 h1
    have := (labF_bounds (t := y / 100) (by positivity) (by norm_num; linarith)).2
    norm_num at this ⊢; linarith
  have lip := labInvf_lipschitz (bound _ yb.1 yb.2) (bound _ ya.1 ya.2)
  have mono := labF_strictMono.monotone (show (xyzFromArgb a : Vec3 ℝ).x1 / 100 ≤ (xyzFromArgb b : Vec3 ℝ).x1 / 100 by
    norm_num at gap; linarith)
  rw [labInvf_labF, labInvf_labF, abs_of_nonneg (by norm_num at gap; linarith), abs_of_nonneg (by linarith)] at lip
  norm_num at gap ⊢
  linarith

example : redFromArgb 0xFF102030 ≤ redFromArgb 0xFF112030 ∧
    redFromArgb 0xFF102030 < redFromArgb 0xFF112030 := by decide

/-! ### C16 -/

/-- C16 (binary64): asking for the computed tone of a gray returns exactly that gray. -/
theorem c16_binary64_exact_on_grays (hL : L.PowOk) (argb : Int) (h : 0xFF000000 ≤ argb ∧ argb ≤ 0xFFFFFFFF)
    (hrg : redFromArgb argb = greenFromArgb argb) (hgb : greenFromArgb argb = blueFromArgb argb) :
    argbFromLstar (lstarFromArgb argb : 𝔻) = argb := by
  obtain ⟨hr, -, -⟩ := channel_range argb
  have hl := c15_range argb
  have a := ap_yFromLstar (ap_lstarFromArgb hL argb) (by linarith [hl.1]) (by linarith [hl.2]) (by norm_num)
  rw [lstar_of_gray argb (redFromArgb argb) rfl hrg.symm (hrg.trans hgb).symm, c11_y_lstar_y] at a
  simp only [argbFromLstar, delinearized_ap hL a hr.1 hr.2 (by rw [sub_self, abs_zero]; norm_num)]
  have := c02_opaque_identity argb h
  rwa [← hgb, ← hrg] at this

example : (0xFF000000 : Int) ≤ 0xFF777777 ∧ redFromArgb 0xFF777777 = greenFromArgb 0xFF777777 := by
  decide

/-- C16 (binary64): the computed tone of the gray built from a tone in [0, 100] differs from it by at most 0.2601. -/
theorem c16_binary64_accuracy (hL : L.PowOk) (t : 𝔻) (ht : Fin t) (h0 : 0 ≤ val t) (h1 : val t ≤ 100) :
    |val (lstarFromArgb (argbFromLstar t) : 𝔻) - val t| ≤ 0.2601 := by
  have hy := (c11_range (val t)).1.1 ⟨h0, h1⟩
  obtain ⟨v, hv, hd⟩ := ap_yFromLstar (is_of t ht).ap (by linarith) (by linarith) (by norm_num)
  -- the computed luminance lies in [0, 100]
  obtain ⟨-, f1, -, f2, -⟩ := c11_binary64 t t ht ht h0 le_rfl h1
  rw [show val (yFromLstar t) = v from hv.2] at f1 f2
  have lev := delinearized_level hL hv f1 f2
  have hlev := lOf_of_level (by positivity) lev
  set c := delinearized (yFromLstar t) with hc
  have cr := c10_range (yFromLstar t)
  have hcol := c01_pack_unpack c c c cr cr cr
  have near := (Ap.val_near (ap_lstarFromArgb hL (argbFromLstar t))).2
  have e : argbFromLstar t = argbFromRgb c c c := rfl
  rw [e] at near ⊢
  rw [lstar_of_gray _ c hcol.1 hcol.2.1 hcol.2.2, lstarFromY_eq] at near
  have hdt : |lOf (v / 100) - val t| ≤ 3 / 10 ^ 6 := by
    have e2 : val t = 116 * labF (yFromLstar (val t) / 100) - 16 := by
      have := c11_lstar_y_lstar (val t)
      rw [lstarFromY_eq] at this
      linarith
    have lip := labF_lipschitz (s := v / 100) (t := yFromLstar (val t) / 100) (by norm_num; linarith)
      (by norm_num; linarith [hy.2])
    have hd2 : |v / 100 - yFromLstar (val t) / 100| ≤ 2 / 10 ^ 10 := by
      rw [abs_le] at hd ⊢; norm_num at hd ⊢; constructor <;> linarith
    have lip := lip.trans (mul_le_mul_of_nonneg_left hd2 (by norm_num))
    unfold lOf
    rw [abs_le] at lip ⊢
    norm_num at lip ⊢
    constructor <;> linarith
  unfold lOf at hlev hdt
  rw [abs_le] at *
  norm_num at *
  constructor <;> linarith

end Mcu.Props.Binary64
