import Verif.Lemmas.F64Material

/-! The search for a tone with enough chroma in IEEE-754 binary64: beyond black and white nothing changes any more, so the
search answers with a tone between its start and the end of the scale, if it answers. -/

namespace Mcu.Lemmas

open Mcu.Ieee Props Props.Binary64 MathUtils Contrast ColorUtils DynamicColor Material Spec HctSolver

variable {L : Libm}

local notation "𝔻" => F64 L

theorem big {v : ℝ} (n : ℕ) (hn : n ≤ 1000) (h : |v| ≤ 2 ^ n) : |rnd v| < 2 ^ 1024 := by
  have h2 : Rep (2 ^ 1000 : ℝ) := by
    have := rep_zpow (e := 1000) (by norm_num)
    rwa [show ((2 : ℝ) ^ (1000 : ℤ)) = 2 ^ 1000 by rw [← zpow_natCast]; norm_num] at this
  rw [← rnd_abs]
  refine (h2.rnd_le (h.trans (pow_le_pow_right₀ (by norm_num) hn))).trans_lt ?_
  exact pow_lt_pow_right₀ (by norm_num) (by norm_num)

theorem rep_two (n : ℕ) (hn : n ≤ 900) : Rep (2 ^ n : ℝ) := by
  have := rep_zpow (e := n) (by omega)
  rwa [zpow_natCast] at this

/-- Rounding to an integer, and converting to one, far from zero. -/
theorem round_big {x : 𝔻} {a : ℝ} (hx : Is x a) (h0 : 509 / 2 ≤ a) (h1 : a ≤ 2 ^ 200) : 255 ≤ Fl.toI64 (Fl.round x) := by
  obtain ⟨f1, rfl⟩ := hx
  rcases x with _ | s | s | ⟨u, hu⟩
  · exact f1.elim
  · exact f1.elim
  · exact absurd (show (509 / 2 : ℝ) ≤ 0 from h0) (by norm_num)
  · replace h0 : 509 / 2 ≤ u := h0
    replace h1 : u ≤ 2 ^ 200 := h1
    have hn : (255 : ℤ) ≤ (if 0 ≤ u then ⌊u + 1 / 2⌋ else ⌈u - 1 / 2⌉) := by
      rw [if_pos (by linarith), Int.le_floor]; push_cast; linarith
    have hn' : (((if 0 ≤ u then ⌊u + 1 / 2⌋ else ⌈u - 1 / 2⌉ : ℤ)) : ℝ) ≤ 2 ^ 201 := by
      rw [if_pos (by linarith)]
      refine (Int.floor_le _).trans ?_
      have : (2 : ℝ) ^ 201 = 2 * 2 ^ 200 := by rw [pow_succ]; ring
      rw [this]
      generalize (2 : ℝ) ^ 200 = K at *
      linarith
    have e : Fl.round (F := 𝔻) (Dbl.num u hu) = Dbl.ofReal (Dbl.num u hu).neg? ((if 0 ≤ u then ⌊u + 1 / 2⌋ else ⌈u - 1 / 2⌉ : ℤ) : ℝ) := rfl
    rw [e]
    generalize (if 0 ≤ u then ⌊u + 1 / 2⌋ else ⌈u - 1 / 2⌉) = n at *
    have hnr : (255 : ℝ) ≤ n := by exact_mod_cast hn
    have hi := is_ofReal (L := L) (Dbl.num u hu).neg? (v := (n : ℝ)) (big 201 (by norm_num) (by
      rw [abs_of_nonneg (by linarith)]; exact hn'))
    have r255 : Rep 255 := by simpa using rep_int (n := 255) (by norm_num)
    have hr := r255.le_rnd hnr
    rw [show Fl.toI64 (F := 𝔻) (Dbl.ofReal (Dbl.num u hu).neg? (n : ℝ)) = _ from hi.toI64]
    unfold satI64 realTrunc
    rw [if_pos (by linarith)]
    have : (255 : ℤ) ≤ ⌊rnd (n : ℝ)⌋ := by rw [Int.le_floor]; exact_mod_cast hr
    omega

theorem round_neg {x : 𝔻} {a : ℝ} (hx : Is x a) (h0 : -(2 ^ 200) ≤ a) (h1 : a ≤ 0) : Fl.toI64 (Fl.round x) ≤ 0 := by
  obtain ⟨f1, rfl⟩ := hx
  rcases x with _ | s | s | ⟨u, hu⟩
  · exact f1.elim
  · exact f1.elim
  · have e : Fl.toI64 (F := 𝔻) (Fl.round (F := 𝔻) (Dbl.zero s)) = satI64 (realTrunc 0) := rfl
    rw [e]; simp [satI64, realTrunc]
  · replace h0 : -(2 ^ 200) ≤ u := h0
    replace h1 : u ≤ 0 := h1
    have hn : (if 0 ≤ u then ⌊u + 1 / 2⌋ else ⌈u - 1 / 2⌉) ≤ (0 : ℤ) := by
      split
      · rw [← Int.lt_add_one_iff, Int.floor_lt]; push_cast; linarith
      · rw [Int.ceil_le]; push_cast; linarith
    have hn' : -(2 ^ 201) ≤ (((if 0 ≤ u then ⌊u + 1 / 2⌋ else ⌈u - 1 / 2⌉ : ℤ)) : ℝ) := by
      have : (2 : ℝ) ^ 201 = 2 * 2 ^ 200 := by rw [pow_succ]; ring
      rw [this]
      have : (1 : ℝ) ≤ 2 ^ 200 := one_le_pow₀ (by norm_num)
      generalize (2 : ℝ) ^ 200 = K at *
      split
      · linarith [Int.lt_floor_add_one (u + 1 / 2)]
      · linarith [Int.le_ceil (u - 1 / 2)]
    have e : Fl.round (F := 𝔻) (Dbl.num u hu) = Dbl.ofReal (Dbl.num u hu).neg? ((if 0 ≤ u then ⌊u + 1 / 2⌋ else ⌈u - 1 / 2⌉ : ℤ) : ℝ) := rfl
    rw [e]
    generalize (if 0 ≤ u then ⌊u + 1 / 2⌋ else ⌈u - 1 / 2⌉) = n at *
    have hnr : (n : ℝ) ≤ 0 := by exact_mod_cast hn
    have hi := is_ofReal (L := L) (Dbl.num u hu).neg? (v := (n : ℝ)) (big 201 (by norm_num) (by
      rw [abs_of_nonpos hnr]; linarith))
    have hr := rep0.rnd_le hnr
    rw [show Fl.toI64 (F := 𝔻) (Dbl.ofReal (Dbl.num u hu).neg? (n : ℝ)) = _ from hi.toI64]
    unfold satI64 realTrunc
    split
    · next hz => rw [le_antisymm hr hz, Int.floor_zero]; norm_num
    · have : ⌈rnd (n : ℝ)⌉ ≤ 0 := by rw [Int.ceil_le]; exact_mod_cast hr
      omega

theorem is_pow64 (hL : L.PowOk) {x y : 𝔻} {a b : ℝ} (hx : Is x a) (hy : Is y b)
    (a0 : 1 / 10 ^ 6 ≤ a) (a1 : a ≤ 10 ^ 60) (b0 : 0 ≤ b) (b1 : b ≤ 3) :
    ∃ p, Is (Fl.powf x y) p ∧ |p - a ^ b| ≤ a ^ b / 10 ^ 13 := by
  obtain ⟨hx, rfl⟩ := hx
  obtain ⟨hy, rfl⟩ := hy
  obtain ⟨p1, p2⟩ := hL x y hx hy a0 a1 b0 b1
  exact ⟨_, ⟨p1, rfl⟩, p2⟩

theorem clampInt_ge {n : ℤ} (h : 255 ≤ n) : clampInt 0 255 n = 255 := by
  unfold clampInt; split
  · omega
  · split <;> omega

theorem clampInt_le {n : ℤ} (h : n ≤ 0) : clampInt 0 255 n = 0 := by
  unfold clampInt; split
  · omega
  · split <;> omega

/-- Everything at or beyond tone 100 is white. -/
theorem white64 (hL : L.PowOk) {t : 𝔻} {v : ℝ} (ht : Is t v) (h0 : 100 ≤ v) (h1 : v ≤ 2 ^ 53) :
    argbFromLstar t = argbFromRgb 255 255 255 := by
  have K (a b : ℕ) : (2 : ℝ) ^ (a + b) = 2 ^ a * 2 ^ b := pow_add _ _ _
  have i1 := ht.add l16 (big 54 (by norm_num) (by rw [abs_of_nonneg (by linarith)]; norm_num at h1 ⊢; linarith))
  have a0 : 116 ≤ rnd (v + 16) := rep116.le_rnd (by linarith)
  have a1 : rnd (v + 16) ≤ 2 ^ 54 := (rep_two 54 (by norm_num)).rnd_le (by norm_num at h1 ⊢; linarith)
  have i2 := i1.div l116 (by norm_num) (big 54 (by norm_num) (by
    rw [abs_of_nonneg (by positivity)]; norm_num at a1 ⊢; linarith))
  generalize rnd (v + 16) = a at *
  have b0 : 1 ≤ rnd (a / 116) := rep1.le_rnd (by linarith)
  have b1 : rnd (a / 116) ≤ 2 ^ 54 := (rep_two 54 (by norm_num)).rnd_le (by norm_num at a1 ⊢; linarith)
  generalize rnd (a / 116) = b at *
  have q1 : b * b ≤ 2 ^ 108 := by
    calc b * b ≤ 2 ^ 54 * 2 ^ 54 := mul_le_mul b1 b1 (by linarith) (by norm_num)
      _ = 2 ^ 108 := by norm_num
  have i3 := i2.mul i2 (big 108 (by norm_num) (by rw [abs_of_nonneg (by positivity)]; exact q1))
  have c0 : 1 ≤ rnd (b * b) := rep1.le_rnd (by nlinarith)
  have c1 : rnd (b * b) ≤ 2 ^ 108 := (rep_two 108 (by norm_num)).rnd_le q1
  generalize rnd (b * b) = c at *
  have q2 : c * b ≤ 2 ^ 162 := by
    calc c * b ≤ 2 ^ 108 * 2 ^ 54 := mul_le_mul c1 b1 (by linarith) (by norm_num)
      _ = 2 ^ 162 := by norm_num
  have i4 := i3.mul i2 (big 162 (by norm_num) (by rw [abs_of_nonneg (by positivity)]; exact q2))
  have d0 : 1 ≤ rnd (c * b) := rep1.le_rnd (by nlinarith)
  have d1 : rnd (c * b) ≤ 2 ^ 162 := (rep_two 162 (by norm_num)).rnd_le q2
  generalize rnd (c * b) = d at *
  have ie := (l216 (L := L)).div l24389 (by norm_num) (small 0 (by norm_num) (by norm_num))
  have he : rnd (216 / 24389) ≤ 1 / 2 :=
    (show Rep (1 / 2) from ⟨1, -1, by norm_num, by norm_num, by norm_num⟩).rnd_le (by norm_num)
  have iy : Is (yFromLstar t) (rnd (100 * d)) := by
    simp only [yFromLstar, labInvf]
    rw [if_pos ((ie.lt_iff i4).2 (by linarith))]
    exact (l100 (L := L)).mul i4 (big 170 (by norm_num) (by
      rw [abs_of_nonneg (by positivity)]; norm_num at d1 ⊢; linarith))
  have y0 : 100 ≤ rnd (100 * d) := rep100.le_rnd (by linarith)
  have y1 : rnd (100 * d) ≤ 2 ^ 169 := (rep_two 169 (by norm_num)).rnd_le (by norm_num at d1 ⊢; linarith)
  generalize rnd (100 * d) = y at *
  have i5 := iy.div l100 (by norm_num) (big 170 (by norm_num) (by
    rw [abs_of_nonneg (by positivity)]; norm_num at y1 ⊢; linarith))
  have n0 : 1 ≤ rnd (y / 100) := rep1.le_rnd (by linarith)
  have n1 : rnd (y / 100) ≤ 2 ^ 169 := (rep_two 169 (by norm_num)).rnd_le (by norm_num at y1 ⊢; linarith)
  generalize rnd (y / 100) = n at *
  obtain ⟨z, iz, hz⟩ := ap_lit (L := L) (m := 31308) (s := true) (e := 7) (v := 0.0031308) rfl (by norm_num [abs_of_pos])
  obtain ⟨w, iw, hw⟩ := ap_lit (L := L) (m := 24) (s := true) (e := 1) (v := 2.4) rfl (by norm_num [abs_of_pos])
  obtain ⟨u, iu, hu⟩ := ap_lit (L := L) (m := 1055) (s := true) (e := 3) (v := 1.055) rfl (by norm_num [abs_of_pos])
  obtain ⟨x, ix, hx⟩ := ap_lit (L := L) (m := 55) (s := true) (e := 3) (v := 0.055) rfl (by norm_num [abs_of_pos])
  have hz := abs_le.1 hz
  have hw := abs_le.1 hw
  have hu := abs_le.1 hu
  have hx := abs_le.1 hx
  unfold ρ at hz hw hu hx
  norm_num at hz hw hu hx
  have i6 := (l1 (L := L)).div iw (by linarith) (small 0 (by norm_num) (by
    rw [abs_of_nonneg (by apply div_nonneg <;> linarith), div_le_iff₀ (by linarith)]; linarith))
  have w0 : 0 ≤ rnd (1 / w) := rnd_nonneg (by apply div_nonneg <;> linarith)
  have w1 : rnd (1 / w) ≤ 1 := rep1.rnd_le (by rw [div_le_iff₀ (by linarith)]; linarith)
  generalize rnd (1 / w) = k at *
  obtain ⟨p, ip, hp⟩ := is_pow64 hL i5 i6 (by linarith) (n1.trans (by norm_num)) w0 (by linarith)
  have e0 : 1 ≤ n ^ k := Real.one_le_rpow n0 w0
  have e1 : n ^ k ≤ 2 ^ 169 := by
    calc n ^ k ≤ n ^ (1 : ℝ) := Real.rpow_le_rpow_of_exponent_le n0 w1
      _ = n := Real.rpow_one n
      _ ≤ _ := n1
  generalize n ^ k = m at *
  have hp := abs_le.1 hp
  norm_num at hp
  have p0 : 0.9999 ≤ p := by norm_num; linarith [hp.1]
  have p1 : p ≤ 2 ^ 170 := by norm_num at e1 ⊢; linarith [hp.2]
  norm_num at p0
  have i7 := iu.mul ip (big 180 (by norm_num) (by
    rw [abs_of_nonneg (by apply mul_nonneg <;> linarith)]
    calc u * p ≤ 2 * 2 ^ 170 := mul_le_mul (by linarith) p1 (by linarith) (by norm_num)
      _ ≤ _ := by norm_num))
  have f0 : 1079 / 1024 ≤ rnd (u * p) :=
    (show Rep (1079 / 1024) from ⟨1079, -10, by norm_num, by norm_num, by norm_num⟩).le_rnd (by nlinarith)
  have f1 : rnd (u * p) ≤ 2 ^ 171 := (rep_two 171 (by norm_num)).rnd_le (by
    calc u * p ≤ 2 * 2 ^ 170 := mul_le_mul (by linarith) p1 (by linarith) (by norm_num)
      _ ≤ _ := by norm_num)
  generalize rnd (u * p) = q at *
  have i8 := i7.sub ix (big 180 (by norm_num) (by
    rw [abs_of_nonneg (by linarith)]; norm_num at f1 ⊢; linarith))
  have g0 : 1022 / 1024 ≤ rnd (q - x) :=
    (show Rep (1022 / 1024) from ⟨1022, -10, by norm_num, by norm_num, by norm_num⟩).le_rnd (by linarith)
  have g1 : rnd (q - x) ≤ 2 ^ 171 := (rep_two 171 (by norm_num)).rnd_le (by linarith)
  generalize rnd (q - x) = r at *
  have l255 : Is (255.0 : 𝔻) 255 := by simpa using lit (L := L) 2550 1 true 255 (by norm_num) (by norm_num)
  have i9 := i8.mul l255 (big 190 (by norm_num) (by
    rw [abs_of_nonneg (by positivity)]; norm_num at g1 ⊢; linarith))
  have h0 : 509 / 2 ≤ rnd (r * 255) :=
    (show Rep (509 / 2) from ⟨509, -1, by norm_num, by norm_num, by norm_num⟩).le_rnd (by linarith)
  have h1 : rnd (r * 255) ≤ 2 ^ 190 := (rep_two 190 (by norm_num)).rnd_le (by norm_num at g1 ⊢; linarith)
  have hfin : delinearized (yFromLstar t) = 255 := by
    simp only [delinearized]
    rw [if_neg (by rw [i5.le_iff iz]; linarith)]
    have := round_big i9 h0 (h1.trans (by norm_num))
    rw [clampInt_ge this]
  simp only [argbFromLstar, hfin]

theorem low_end : rnd (116 * rnd (16 / 116)) = 16 := by
  rw [f0]
  have := rnd_eq_of_near (v := 116 * (4969489243995030 * (2 : ℝ) ^ (-55 : ℤ)))
    (p := -49) (n := 2 ^ 53) (by norm_num) (by norm_num) (by norm_num) (by rw [abs_lt]; norm_num)
  rw [this]; norm_num

/-- Everything at or beyond tone 0 is black. -/
theorem black64 {t : 𝔻} {v : ℝ} (ht : Is t v) (h0 : v ≤ 0) (h1 : -(2 ^ 53) ≤ v) :
    argbFromLstar t = argbFromRgb 0 0 0 := by
  have i1 := ht.add l16 (big 54 (by norm_num) (by rw [abs_le]; norm_num at h1 ⊢; constructor <;> linarith))
  have a0 : rnd (v + 16) ≤ 16 := rep16.rnd_le (by linarith)
  have a1 : -(2 ^ 54) ≤ rnd (v + 16) := (rep_two 54 (by norm_num)).neg.le_rnd (by norm_num at h1 ⊢; linarith)
  have i2 := i1.div l116 (by norm_num) (big 54 (by norm_num) (by
    rw [abs_le]; norm_num at a1 ⊢; constructor <;> linarith))
  generalize rnd (v + 16) = a at *
  have b0 : rnd (a / 116) ≤ rnd (16 / 116) := rnd_mono (by linarith)
  have b0' : rnd (a / 116) ≤ 1 / 4 := (show Rep (1 / 4) from ⟨1, -2, by norm_num, by norm_num, by norm_num⟩).rnd_le (by linarith)
  have b0'' : rnd (a / 116) ≤ 9 / 64 :=
    (show Rep (9 / 64) from ⟨9, -6, by norm_num, by norm_num, by norm_num⟩).rnd_le (by linarith)
  have b1 : -(2 ^ 54) ≤ rnd (a / 116) := (rep_two 54 (by norm_num)).neg.le_rnd (by norm_num at a1 ⊢; linarith)
  generalize rnd (a / 116) = b at *
  have q1 : |b * b| ≤ 2 ^ 108 := by
    rw [abs_mul]
    have : |b| ≤ 2 ^ 54 := by rw [abs_le]; norm_num at b1 ⊢; constructor <;> linarith
    calc |b| * |b| ≤ 2 ^ 54 * 2 ^ 54 := mul_le_mul this this (abs_nonneg _) (by norm_num)
      _ = 2 ^ 108 := by norm_num
  have i3 := i2.mul i2 (big 108 (by norm_num) q1)
  have c0 : 0 ≤ rnd (b * b) := rnd_nonneg (by nlinarith)
  have c1 : rnd (b * b) ≤ 2 ^ 108 := (rep_two 108 (by norm_num)).rnd_le ((le_abs_self _).trans q1)
  have c2 : 0 ≤ b → rnd (b * b) ≤ 1 / 32 := fun hb =>
    (show Rep (1 / 32) from ⟨1, -5, by norm_num, by norm_num, by norm_num⟩).rnd_le (by nlinarith)
  generalize rnd (b * b) = c at *
  have q2 : |c * b| ≤ 2 ^ 162 := by
    rw [abs_mul, abs_of_nonneg c0]
    have : |b| ≤ 2 ^ 54 := by rw [abs_le]; norm_num at b1 ⊢; constructor <;> linarith
    calc c * |b| ≤ 2 ^ 108 * 2 ^ 54 := mul_le_mul c1 this (abs_nonneg _) (by norm_num)
      _ = 2 ^ 162 := by norm_num
  have i4 := i3.mul i2 (big 162 (by norm_num) q2)
  have d0 : rnd (c * b) ≤ 1 / 128 := by
    refine (show Rep (1 / 128) from ⟨1, -7, by norm_num, by norm_num, by norm_num⟩).rnd_le ?_
    rcases le_or_gt 0 b with hb | hb
    · have := c2 hb
      nlinarith
    · nlinarith
  generalize rnd (c * b) = d at *
  have ie := (l216 (L := L)).div l24389 (by norm_num) (small 0 (by norm_num) (by norm_num))
  have he : 1 / 128 ≤ rnd (216 / 24389) :=
    (show Rep (1 / 128) from ⟨1, -7, by norm_num, by norm_num, by norm_num⟩).le_rnd (by norm_num)
  have i5 := (l116 (L := L)).mul i2 (big 70 (by norm_num) (by rw [abs_le]; norm_num at b1 ⊢; constructor <;> linarith))
  have g0 : rnd (116 * b) ≤ 16 := by
    rw [← low_end]; exact rnd_mono (by linarith)
  have g1 : -(2 ^ 70) ≤ rnd (116 * b) := (rep_two 70 (by norm_num)).neg.le_rnd (by norm_num at b1 ⊢; linarith)
  generalize rnd (116 * b) = g at *
  have i6 := i5.sub l16 (big 71 (by norm_num) (by rw [abs_le]; norm_num at g1 ⊢; constructor <;> linarith))
  have k0 : rnd (g - 16) ≤ 0 := rep0.rnd_le (by linarith)
  have k1 : -(2 ^ 71) ≤ rnd (g - 16) := (rep_two 71 (by norm_num)).neg.le_rnd (by norm_num at g1 ⊢; linarith)
  generalize rnd (g - 16) = k at *
  have ik := (l24389 (L := L)).div l27 (by norm_num) (small 10 (by norm_num) (by norm_num [abs_of_pos]))
  have hk : 1 ≤ rnd (24389 / 27) := rep1.le_rnd (by norm_num)
  generalize rnd (24389 / 27) = κ at *
  have m0 : k / κ ≤ 0 := div_nonpos_of_nonpos_of_nonneg k0 (by linarith)
  have m1 : k ≤ k / κ := by
    rw [le_div_iff₀ (by linarith)]; nlinarith
  have i7 := i6.div ik (by linarith) (big 71 (by norm_num) (by
    rw [abs_of_nonpos m0]; linarith))
  have r0 : rnd (k / κ) ≤ 0 := rep0.rnd_le m0
  have r1 : -(2 ^ 71) ≤ rnd (k / κ) := (rep_two 71 (by norm_num)).neg.le_rnd (by linarith)
  generalize rnd (k / κ) = r at *
  have iy : Is (yFromLstar t) (rnd (100 * r)) := by
    simp only [yFromLstar, labInvf]
    rw [if_neg (by rw [gt_iff_lt, ie.lt_iff i4]; linarith)]
    exact (l100 (L := L)).mul i7 (big 80 (by norm_num) (by
      rw [abs_le]; norm_num at r1 ⊢; constructor <;> linarith))
  have y0 : rnd (100 * r) ≤ 0 := rep0.rnd_le (by linarith)
  have y1 : -(2 ^ 80) ≤ rnd (100 * r) := (rep_two 80 (by norm_num)).neg.le_rnd (by norm_num at r1 ⊢; linarith)
  generalize rnd (100 * r) = y at *
  have i8 := iy.div l100 (by norm_num) (big 80 (by norm_num) (by
    rw [abs_le]; norm_num at y1 ⊢; constructor <;> linarith))
  have n0 : rnd (y / 100) ≤ 0 := rep0.rnd_le (by linarith)
  have n1 : -(2 ^ 80) ≤ rnd (y / 100) := (rep_two 80 (by norm_num)).neg.le_rnd (by norm_num at y1 ⊢; linarith)
  generalize rnd (y / 100) = n at *
  obtain ⟨z, iz, hz⟩ := ap_lit (L := L) (m := 31308) (s := true) (e := 7) (v := 0.0031308) rfl (by norm_num [abs_of_pos])
  obtain ⟨w, iw, hw⟩ := ap_lit (L := L) (m := 1292) (s := true) (e := 2) (v := 12.92) rfl (by norm_num [abs_of_pos])
  have hz := abs_le.1 hz
  have hw := abs_le.1 hw
  unfold ρ at hz hw
  norm_num at hz hw
  have s0 : n * w ≤ 0 := mul_nonpos_of_nonpos_of_nonneg n0 (by linarith)
  have s1 : -(2 ^ 90) ≤ n * w := by norm_num at n1 ⊢; nlinarith
  have i9 := i8.mul iw (big 90 (by norm_num) (by rw [abs_of_nonpos s0]; linarith))
  have t0 : rnd (n * w) ≤ 0 := rep0.rnd_le s0
  have t1 : -(2 ^ 90) ≤ rnd (n * w) := (rep_two 90 (by norm_num)).neg.le_rnd s1
  generalize rnd (n * w) = q at *
  have l255 : Is (255.0 : 𝔻) 255 := by simpa using lit (L := L) 2550 1 true 255 (by norm_num) (by norm_num)
  have i10 := i9.mul l255 (big 100 (by norm_num) (by
    rw [abs_le]; norm_num at t1 ⊢; constructor <;> linarith))
  have u0 : rnd (q * 255) ≤ 0 := rep0.rnd_le (by linarith)
  have u1 : -(2 ^ 100) ≤ rnd (q * 255) := (rep_two 100 (by norm_num)).neg.le_rnd (by norm_num at t1 ⊢; linarith)
  have hfin : delinearized (yFromLstar t) = 0 := by
    simp only [delinearized]
    rw [if_pos (by rw [i8.le_iff iz]; linarith)]
    have := round_neg i10 (by norm_num at u1 ⊢; linarith) u0
    rw [clampInt_le this]
  simp only [argbFromLstar, hfin]

/-- At or beyond the end of the scale, in the direction of the search. -/
def Past (down : Bool) (x : 𝔻) : Prop := ∃ v, Is x v ∧ |v| ≤ 2 ^ 53 ∧ (if down then v ≤ 0 else 100 ≤ v)

/-- One step of the search. -/
noncomputable def step (down : Bool) : 𝔻 := if down then -1.0 else 1.0

theorem past_step {down : Bool} {x : 𝔻} (h : Past down x) : Past down (x + step down) := by
  obtain ⟨v, hv, hb, he⟩ := h
  have hb := abs_le.1 hb
  have top : rnd (2 ^ 53 + 1) = 2 ^ 53 := by
    have := rnd_eq_of_near_even (v := 2 ^ 53 + 1) (p := 1) (n := 2 ^ 52) (by norm_num) (by norm_num) (by norm_num)
      ⟨2 ^ 51, by norm_num⟩ (by norm_num [abs_le])
    rw [this]; norm_num
  have bot : rnd (-(2 ^ 53 + 1)) = -(2 ^ 53) := by rw [rnd_neg, top]
  cases down
  · simp only [Bool.false_eq_true, if_false, step] at he ⊢
    have i := hv.add l1 (big 54 (by norm_num) (by rw [abs_of_nonneg (by linarith)]; norm_num at hb ⊢; linarith))
    have h1 : rnd (v + 1) ≤ 2 ^ 53 := by rw [← top]; exact rnd_mono (by linarith)
    have h0 : 100 ≤ rnd (v + 1) := rep100.le_rnd (by linarith)
    exact ⟨_, i, by rw [abs_of_nonneg (by linarith)]; exact h1, h0⟩
  · simp only [if_true, step] at he ⊢
    have i := hv.add lm1 (big 54 (by norm_num) (by rw [abs_le]; norm_num at hb ⊢; constructor <;> linarith))
    have h1 : -(2 ^ 53) ≤ rnd (v + -1) := by rw [← bot]; exact rnd_mono (by linarith)
    have h0 : rnd (v + -1) ≤ 0 := rep0.rnd_le (by linarith)
    exact ⟨_, i, by rw [abs_of_nonpos (by linarith)]; linarith, h0⟩

/-- The colour at the end of the scale. -/
noncomputable def endColor (down : Bool) : Hct 𝔻 := Hct.fromInt (if down then argbFromRgb 0 0 0 else argbFromRgb 255 255 255)

theorem past_color (hL : L.PowOk) {down : Bool} {x : 𝔻} (h : Past down x) (hue chroma : 𝔻) :
    Hct.fromHct hue chroma x = endColor down := by
  obtain ⟨v, hv, hb, he⟩ := h
  have hb := abs_le.1 hb
  obtain ⟨z, iz, hz⟩ := ap_lit (L := L) (m := 1) (s := true) (e := 4) (v := 0.0001) rfl (by norm_num [abs_of_pos])
  obtain ⟨w, iw, hw⟩ := ap_lit (L := L) (m := 999999) (s := true) (e := 4) (v := 99.9999) rfl (by norm_num [abs_of_pos])
  have hz := abs_le.1 hz
  have hw := abs_le.1 hw
  unfold ρ at hz hw
  norm_num at hz hw
  have key : solveToInt hue chroma x = (if down then argbFromRgb 0 0 0 else argbFromRgb 255 255 255) := by
    cases down
    · simp only [Bool.false_eq_true, if_false] at he ⊢
      simp only [solveToInt]
      rw [if_pos (Or.inr (Or.inr ((iw.lt_iff hv).2 (by linarith)))), white64 hL hv he hb.2]
    · simp only [if_true] at he ⊢
      simp only [solveToInt]
      rw [if_pos (Or.inr (Or.inl ((hv.lt_iff iz).2 (by linarith)))), black64 hv he hb.1]
  unfold Hct.fromHct endColor
  rw [key]

theorem dbl_irrefl (x : 𝔻) : ¬ x < x := fun h => lt_irrefl _ h.2.2

theorem dbl_fmax_or (x y : Dbl) : Dbl.fmax x y = x ∨ Dbl.fmax x y = y := by
  unfold Dbl.fmax
  split
  · right; rfl
  · split
    · left; rfl
    · split
      · right; rfl
      · left; rfl

theorem fmax_or (x y : 𝔻) : Fl.fmax x y = x ∨ Fl.fmax x y = y := dbl_fmax_or x y

/-- A search at the end of the scale that will not end. -/
structure Stuck64 (chroma : 𝔻) (down : Bool) (peak : 𝔻) (closest : Hct 𝔻) : Prop where
  peak : ¬ peak > (endColor (L := L) down).getChroma
  far : ¬ Fl.abs ((endColor down).getChroma - chroma) < (0.4 : 𝔻)
  closest : ¬ Fl.abs ((endColor down).getChroma - chroma) < Fl.abs (closest.getChroma - chroma)

theorem stuck_forever64 (hL : L.PowOk) (hue chroma : 𝔻) (down : Bool) (fuel : Nat) : ∀ (x peak : 𝔻) (closest : Hct 𝔻),
    Past down x → Stuck64 chroma down peak closest → closest.getChroma < chroma →
    chromaLoop hue chroma down fuel x peak closest = none := by
  induction fuel with
  | zero => intros; rfl
  | succ k ih =>
    intro x peak closest hx hs hc
    have hx' := past_step hx
    have hcol := past_color hL hx' hue chroma
    simp only [step] at hx' hcol
    rw [chromaLoop, if_pos hc]
    simp only [hcol]
    rw [if_neg hs.peak, if_neg hs.far, if_neg hs.closest]
    refine ih _ _ closest hx' ⟨?_, hs.far, hs.closest⟩ hc
    rcases fmax_or peak (endColor (L := L) down).getChroma with e | e <;> rw [e]
    · exact hs.peak
    · exact dbl_irrefl _

/-- The tone `n` steps before the end of the scale. -/
def before (down : Bool) (n : ℕ) : ℝ := if down then n else 100 - n

theorem before_step {down : Bool} {n : ℕ} {x : 𝔻} (hn : n < 1000) (h : Is x (before down (n + 1))) :
    Is (x + step down) (before down n) := by
  have hn' : (n : ℝ) < 1000 := by exact_mod_cast hn
  have hn0 : (0 : ℝ) ≤ n := Nat.cast_nonneg n
  cases down
  · simp only [before, Bool.false_eq_true, if_false, step] at h ⊢
    push_cast at h
    have i := h.add l1 (small 10 (by norm_num) (by rw [abs_le]; norm_num; constructor <;> linarith))
    have e : rnd (100 - ((n : ℝ) + 1) + 1) = 100 - n := by
      have := (rep_int (n := 100 - n) (by rw [abs_le]; constructor <;> omega)).rnd_eq
      push_cast at this
      rw [← this]; congr 1; ring_nf
    rwa [e] at i
  · simp only [before, if_true, step] at h ⊢
    push_cast at h
    have i := h.add lm1 (small 10 (by norm_num) (by rw [abs_le]; norm_num; constructor <;> linarith))
    have e : rnd ((n : ℝ) + 1 + -1) = n := by
      have := (rep_int (n := n) (by rw [abs_le]; constructor <;> omega)).rnd_eq
      push_cast at this
      rw [show (n : ℝ) + 1 + -1 = n by ring]; exact this
    rwa [e] at i

theorem chromaLoop_range64 (hL : L.PowOk) (hue chroma : 𝔻) (down : Bool) (fuel : Nat) :
    ∀ (n : Nat) (x peak : 𝔻) (closest : Hct 𝔻) (t : 𝔻), n < 1000 → Is x (before down n) →
    (n = 0 → Stuck64 chroma down peak closest) →
    chromaLoop hue chroma down fuel x peak closest = some t → ∃ m : Nat, m ≤ n ∧ Is t (before down m) := by
  induction fuel with
  | zero => intro n x peak closest t _ _ _ h; cases h
  | succ k ih =>
    intro n x peak closest t hn hx h0 h
    have p0 {y : 𝔻} (hy : Is y (before down 0)) : Past down y := by
      refine ⟨_, hy, ?_, ?_⟩ <;> cases down <;> simp [before, abs_of_pos] <;> norm_num
    by_cases hc : closest.getChroma < chroma
    · rcases Nat.eq_zero_or_pos n with hn0 | hn0
      · subst hn0
        rw [stuck_forever64 hL hue chroma down (k + 1) x peak closest (p0 hx) (h0 rfl) hc] at h; cases h
      · obtain ⟨m, rfl⟩ : ∃ m, n = m + 1 := ⟨n - 1, by omega⟩
        have hx' := before_step (by omega) hx
        simp only [step] at hx'
        rw [chromaLoop, if_pos hc] at h
        simp only at h
        by_cases h1 : peak > (Hct.fromHct hue chroma (x + if down = true then -1.0 else 1.0)).getChroma
        · rw [if_pos h1, Option.some.injEq] at h
          exact ⟨m, by omega, h ▸ hx'⟩
        · rw [if_neg h1] at h
          by_cases h2 : Fl.abs ((Hct.fromHct hue chroma (x + if down = true then -1.0 else 1.0)).getChroma - chroma) < (0.4 : 𝔻)
          · rw [if_pos h2, Option.some.injEq] at h
            exact ⟨m, by omega, h ▸ hx'⟩
          · rw [if_neg h2] at h
            refine Exists.imp (fun q hq => ⟨hq.1.trans (Nat.le_succ m), hq.2⟩) (ih m _ _ _ t (by omega) hx' (fun hm => ?_) h)
            subst hm
            have hcol := past_color hL (p0 hx') hue chroma
            rw [hcol] at h1 h2 ⊢
            refine ⟨?_, h2, ?_⟩
            · rcases fmax_or peak (endColor (L := L) down).getChroma with e | e <;> rw [e]
              · exact h1
              · exact dbl_irrefl _
            · split
              · exact dbl_irrefl _
              · next h3 => exact h3
    · rw [chromaLoop, if_neg hc, Option.some.injEq] at h
      exact ⟨n, le_rfl, h ▸ hx⟩

/-- Downwards from tone 90 the search answers with a tone from 0 to 90, upwards from tone 30 with one from 30 to 100. -/
theorem search_range64 (hL : L.PowOk) (fuel : Nat) (hue chroma t : 𝔻) :
    (findDesiredChromaByTone fuel hue chroma 90.0 true = some t → Fin t ∧ 0 ≤ val t ∧ val t ≤ 90) ∧
    (findDesiredChromaByTone fuel hue chroma 30.0 false = some t → Fin t ∧ 30 ≤ val t ∧ val t ≤ 100) := by
  have l90 : Is (90.0 : 𝔻) 90 := by simpa using lit (L := L) 900 1 true 90 (by norm_num) (by norm_num)
  have l30 : Is (30.0 : 𝔻) 30 := by simpa using lit (L := L) 300 1 true 30 (by norm_num) (by norm_num)
  constructor
  · intro h
    simp only [findDesiredChromaByTone] at h
    split at h
    · obtain ⟨m, hm, i, e⟩ := chromaLoop_range64 hL hue chroma true fuel 90 _ _ _ t (by norm_num)
        (by simpa [before] using l90) (by omega) h
      have : (m : ℝ) ≤ 90 := by exact_mod_cast hm
      rw [show val t = _ from e]
      simp only [before, if_true]
      exact ⟨i, Nat.cast_nonneg m, this⟩
    · cases h; rw [show val (90.0 : 𝔻) = 90 from l90.2]; exact ⟨l90.1, by norm_num, le_rfl⟩
  · intro h
    simp only [findDesiredChromaByTone] at h
    split at h
    · obtain ⟨m, hm, i, e⟩ := chromaLoop_range64 hL hue chroma false fuel 70 _ _ _ t (by norm_num)
        (by rw [before]; norm_num; exact l30) (by omega) h
      have : (m : ℝ) ≤ 70 := by exact_mod_cast hm
      have h0 : (0 : ℝ) ≤ m := Nat.cast_nonneg m
      rw [show val t = _ from e]
      simp only [before, Bool.false_eq_true, if_false]
      exact ⟨i, by linarith, by linarith⟩
    · cases h; rw [show val (30.0 : 𝔻) = 30 from l30.2]; exact ⟨l30.1, le_rfl, by norm_num⟩

theorem searchOk (hL : L.PowOk) (lf : Nat) (s : DynamicScheme 𝔻) : SearchOk lf s := by
  intro _ v hv
  cases hd : s.isDark <;> simp only [hd, if_true, Bool.false_eq_true, if_false] at hv
  · obtain ⟨a, b, c⟩ := (search_range64 hL lf _ _ v).1 hv
    exact Tone.ok ⟨a, b, by linarith⟩
  · obtain ⟨a, b, c⟩ := (search_range64 hL lf _ _ v).2 hv
    exact Tone.ok ⟨a, by linarith, c⟩

end Mcu.Lemmas
