import Verif.Lemmas.F64Material
import Verif.Lemmas.Readable

/-! The tones of the fixed roles, and of the text on them, in IEEE-754 binary64. -/

namespace Mcu.Lemmas

open Mcu.Ieee Props Props.Binary64 MathUtils Contrast ColorUtils DynamicColor Material Spec

variable {L : Libm}

local notation "𝔻" => F64 L

/-! ### Single doubles below 50 -/

/-- A double below 50 stays below 60 when 10 is added. -/
theorem rnd_lt_60 {v : ℝ} (h : Rep v) (hv : v < 50) : rnd (v + 10) < 60 := by
  rcases lt_or_ge v 32 with h32 | h32
  · have r42 : Rep 42 := by simpa using rep_int (n := 42) (by norm_num)
    have := r42.rnd_le (v := v + 10) (by linarith)
    linarith
  · obtain ⟨m, e, hm, -, rfl⟩ := h
    have hm' : (m : ℝ) < 2 ^ 53 := by exact_mod_cast (abs_lt.1 hm).2
    have he : -47 ≤ e := by
      by_contra hc
      push Not at hc
      have h1 : (2 : ℝ) ^ e ≤ 2 ^ (-48 : ℤ) := zpow_le_zpow_right₀ (by norm_num) (by omega)
      have h0 : (0 : ℝ) < 2 ^ e := by positivity
      have h2 : (m : ℝ) * 2 ^ e < 2 ^ 53 * 2 ^ (-48 : ℤ) := by
        have : (m : ℝ) * 2 ^ e < 2 ^ 53 * 2 ^ e := mul_lt_mul_of_pos_right hm' h0
        have : (2 : ℝ) ^ 53 * 2 ^ e ≤ 2 ^ 53 * 2 ^ (-48 : ℤ) := mul_le_mul_of_nonneg_left h1 (by positivity)
        linarith
      norm_num at h2
      linarith
    obtain ⟨j, rfl⟩ : ∃ j : ℕ, e = -47 + j := ⟨(e + 47).toNat, by omega⟩
    have hp : (0 : ℝ) < 2 ^ (-47 : ℤ) := by positivity
    have e1 : (m : ℝ) * 2 ^ (-47 + (j : ℤ)) = ((m * 2 ^ j : ℤ) : ℝ) * 2 ^ (-47 : ℤ) := by
      rw [zpow_add₀ (by norm_num), zpow_natCast]; push_cast; ring
    rw [e1] at hv ⊢
    generalize m * 2 ^ j = k at *
    have hk : k ≤ 50 * 2 ^ 47 - 1 := by
      have : (k : ℝ) < ((50 * 2 ^ 47 : ℤ) : ℝ) := by
        rw [← mul_lt_mul_iff_left₀ hp]
        refine hv.trans_le ?_
        norm_num
      have : k < 50 * 2 ^ 47 := by exact_mod_cast this
      omega
    have hr : Rep ((((60 * 2 ^ 47 - 1 : ℤ)) : ℝ) * 2 ^ (-47 : ℤ)) := ⟨_, _, by norm_num, by norm_num, rfl⟩
    have hle : (k : ℝ) * 2 ^ (-47 : ℤ) ≤ ((50 * 2 ^ 47 - 1 : ℤ) : ℝ) * 2 ^ (-47 : ℤ) :=
      mul_le_mul_of_nonneg_right (by exact_mod_cast hk) hp.le
    have := hr.rnd_le (v := (k : ℝ) * 2 ^ (-47 : ℤ) + 10) (by norm_num at hle ⊢; linarith)
    norm_num at this ⊢
    linarith

/-! ### Tones that stay together -/

theorem together_light64 {n f d dir : 𝔻} (hn : Fin n) (hf : Fin f) (hdir : Is dir (-1)) (hd : Is d 10)
    (hs : val n < 50 ∨ 50 ≤ val f ∨ val n < 60) :
    val (avoidAwkward n f d dir true).1 < 50 ∨ 60 ≤ val (avoidAwkward n f d dir true).2 := by
  have e0 : ¬ (dir > (0.0 : 𝔻)) := by rw [gt_iff_lt, l0.lt_iff hdir]; norm_num
  have v49 : val (49.0 : 𝔻) = 49 := l49.2
  simp only [avoidAwkward, (l50 (L := L)).le_iff (is_of n hn), (is_of n hn).lt_iff l60,
    (l50 (L := L)).le_iff (is_of f hf), (is_of f hf).lt_iff l60, if_neg e0, if_true]
  by_cases c1 : 50 ≤ val n ∧ val n < 60
  · rw [if_pos c1]; left; rw [v49]; norm_num
  · rw [if_neg c1]
    by_cases c2 : 50 ≤ val f ∧ val f < 60
    · rw [if_pos c2]; left; rw [v49]; norm_num
    · rw [if_neg c2]
      rcases hs with hs | hs | hs
      · left; exact hs
      · right; by_contra hc; exact c2 ⟨hs, not_le.1 hc⟩
      · left; by_contra hc; exact c1 ⟨not_lt.1 hc, hs⟩

theorem together_dark64 {n f d dir : 𝔻} (hn : Fin n) (hf : Fin f) (hdir : Is dir 1) (hd : Is d 10)
    (hs : val f < 60 ∨ 50 ≤ val n) :
    60 ≤ val (avoidAwkward n f d dir true).1 ∨ val (avoidAwkward n f d dir true).2 < 50 := by
  have e0 : dir > (0.0 : 𝔻) := by rw [gt_iff_lt, l0.lt_iff hdir]; norm_num
  have v60 : val (60.0 : 𝔻) = 60 := l60.2
  simp only [avoidAwkward, (l50 (L := L)).le_iff (is_of n hn), (is_of n hn).lt_iff l60,
    (l50 (L := L)).le_iff (is_of f hf), (is_of f hf).lt_iff l60, if_pos e0, if_true]
  by_cases c1 : 50 ≤ val n ∧ val n < 60
  · rw [if_pos c1]; left; rw [v60]
  · rw [if_neg c1]
    by_cases c2 : 50 ≤ val f ∧ val f < 60
    · rw [if_pos c2]; left; rw [v60]
    · rw [if_neg c2]
      rcases hs with hs | hs
      · right; by_contra hc; exact c2 ⟨not_lt.1 hc, hs⟩
      · left; by_contra hc; exact c1 ⟨hs, not_le.1 hc⟩

theorem spread_cases64 {n f d dir : 𝔻} {σ : ℝ} (hn : ToneOk n) (hf : ToneOk f) (hd : Is d 10) (hdir : Is dir σ)
    (hσ : σ = 1 ∨ σ = -1) :
    (spreadTones n f d dir = (n, f) ∧ 9.9999 ≤ σ * (val f - val n)) ∨
    (∃ g, spreadTones n f d dir = (n, g) ∧ Is g (clampTone (rnd (val n + 10 * σ)))) ∨
    ∃ g h, spreadTones n f d dir = (h, g) ∧ Fin g ∧ Is h (clampTone (rnd (val g - 10 * σ))) := by
  obtain ⟨n1, n2, n3⟩ := hn
  obtain ⟨f1, f2, f3⟩ := hf
  have bN : |val n| ≤ 101 := by rw [abs_le]; norm_num at *; constructor <;> linarith
  have bF : |val f| ≤ 101 := by rw [abs_le]; norm_num at *; constructor <;> linarith
  have i1 := is_dist (is_of n n1) (is_of f f1) hdir hσ bN bF
  have i2 := is_clamp (is_step (is_of n n1) hd hdir hσ bN (by norm_num [abs_of_pos])).1
  simp only [spreadTones]
  split
  · next h =>
    left
    refine ⟨rfl, ?_⟩
    replace h := (hd.le_iff i1).1 h
    have ha := abs_le.1 bN
    have hb := abs_le.1 bF
    have e := abs_le.1 (rnd_close (v := val f - val n) (by rw [abs_le]; constructor <;> linarith))
    norm_num at e ⊢
    rcases hσ with rfl | rfl <;> linarith
  · right
    obtain ⟨G0, G1⟩ := clampTone_range (rnd (val n + 10 * σ))
    have bG : |clampTone (rnd (val n + 10 * σ))| ≤ 101 := by rw [abs_le]; constructor <;> linarith
    split
    · exact Or.inl ⟨_, rfl, i2⟩
    · right
      have i4 := is_clamp (is_step i2 hd hdir hσ bG (by norm_num [abs_of_pos])).2
      refine ⟨_, _, rfl, i2.1, ?_⟩
      rw [show val (clampDouble 0.0 100.0 (n + d * dir)) = _ from i2.2]
      exact i4

/-! ### Foreground tones -/

theorem ratio_congr {s t t' : 𝔻} (hs : Fin s) (ht : Fin t) (ht' : Fin t') (h : val t = val t') :
    val (ratioOfTones s t) = val (ratioOfTones s t') := by
  rw [show val (ratioOfTones s t) = _ from (is_ratioC (is_of s hs) (is_of t ht)).2,
    show val (ratioOfTones s t') = _ from (is_ratioC (is_of s hs) (is_of t' ht')).2, h]

theorem unsafe_strict (hL : L.PowOk) {bg r : 𝔻} (hb : Tone bg) (hr : RatioOk r) :
    (val bg < 100 → val bg < val (lighterUnsafe bg r)) ∧ (0 < val bg → val (darkerUnsafe bg r) < val bg) := by
  constructor <;> intro h
  · simp only [lighterUnsafe]
    by_cases hv : val (lighter bg r) = -1
    · rw [if_pos ((fin_of_neg hv).lt_iff l0 |>.2 (by norm_num)), show val (100.0 : 𝔻) = 100 from l100.2]; exact h
    · obtain ⟨a, b, c, d, e⟩ := c18_binary64_sound hL bg r hb.1 hr.1 hb.2.1 hb.2.2 hr.2.1 hr.2.2 hv
      rw [if_neg (by rw [(is_of _ a).lt_iff l0]; linarith)]
      norm_num at d; linarith
  · simp only [darkerUnsafe]
    by_cases hv : val (darker bg r) = -1
    · rw [if_pos ((fin_of_neg hv).lt_iff l0 |>.2 (by norm_num)), show val (0.0 : 𝔻) = 0 from l0.2]; exact h
    · obtain ⟨a, b, c, d, e⟩ := c19_binary64_sound hL bg r hb.1 hr.1 hb.2.1 hb.2.2 hr.2.1 hv
      rw [if_neg (by rw [(is_of _ a).lt_iff l0]; linarith)]
      norm_num at d; linarith

theorem fg_light_eq64 (hL : L.PowOk) {bg r : 𝔻} (hb : Tone bg) (h0 : 0 < val bg) (h : val bg ≤ 45) (hr : RatioOk r) :
    foregroundTone bg r = lighterUnsafe bg r := by
  rcases foreground_cases bg r with e | e
  · exact e
  · have h1 := fg_light64 hL hb h hr
    have h2 := (unsafe_strict hL hb hr).2 h0
    rw [e] at h1; linarith

theorem fg_dark_eq64 (hL : L.PowOk) {bg r : 𝔻} (hb : Tone bg) (h : 60 ≤ val bg) (h1 : val bg < 100) (hr : RatioOk r) :
    foregroundTone bg r = darkerUnsafe bg r := by
  rcases foreground_cases bg r with e | e
  · have h1' := fg_dark64 hL hb h hr
    have h2 := (unsafe_strict hL hb hr).1 h1
    rw [e] at h1'; linarith
  · exact e

/-- The tone `darker` finds. -/
theorem darker_val (hL : L.PowOk) {t r : 𝔻} (ht : Tone t) (hr : Fin r) (hr1 : 1 ≤ val r) (hne : val (darker t r) ≠ -1) :
    |val (darker t r) - (lstarFromY ((yFromLstar (val t) + 5) / val r - 5) - 0.4)| ≤ 1 / 10 ^ 4 := by
  have it := is_of t ht.1
  have ir := is_of r hr
  obtain ⟨-, h0, h1⟩ := ht
  generalize val t = T at *
  generalize val r = R at *
  have hR0 : 0 < R := by linarith
  obtain ⟨y0, y1⟩ := yR_range h0 h1
  have yn := abs_le.1 (yR_near it h0 h1)
  obtain ⟨d, i3, hd, hd5⟩ := darker_d it ir h0 h1 hr1
  have hd := abs_le.1 hd
  have hle : (yR T + 5) / R - 5 ≤ yR T := by
    have : (yR T + 5) / R ≤ yR T + 5 := div_le_self (by linarith) hr1
    linarith
  have ydiv : |(yR T + 5) / R - (yFromLstar T + 5) / R| ≤ 2 / 10 ^ 8 := by
    rw [← sub_div, abs_div, abs_of_pos hR0]
    refine (div_le_self (abs_nonneg _) hr1).trans ?_
    rw [abs_le]; norm_num at yn ⊢; constructor <;> linarith
  have ydiv := abs_le.1 ydiv
  norm_num at hd yn ydiv
  obtain ⟨W, iw, hw⟩ := darker_ans hL i3 hd5 (by norm_num; linarith)
  simp only [darker] at hne ⊢
  split at hne
  · exact absurd lm1.2 hne
  next hg =>
  rw [if_neg hg]
  split at hne
  · exact absurd lm1.2 hne
  next hb =>
  rw [if_neg hb]
  split at hne
  · exact absurd lm1.2 hne
  next hb2 =>
  rw [if_neg hb2, show val _ = W from iw.2]
  obtain ⟨D, hD⟩ : ∃ D, D = (yFromLstar T + 5) / R - 5 := ⟨_, rfl⟩
  rw [← hD]
  have hw := abs_le.1 hw
  have yT : yFromLstar T ≤ 100 := by
    have := c11_strictMono.1.monotone h1
    rwa [c11_endpoints.2.1] at this
  have hD1 : D ≤ 100 := by
    have : (yFromLstar T + 5) / R ≤ yFromLstar T + 5 := div_le_self (by
      have := c11_strictMono.1.monotone h0
      rw [c11_endpoints.1] at this; linarith) hr1
    linarith
  have close {a b : ℝ} (hab : |a - b| ≤ 3 / 10 ^ 8) (ha : a ≤ 101) (hb : b ≤ 101) : |lstarFromY a - lstarFromY b| ≤ 5 / 10 ^ 5 := by
    have hab := abs_le.1 hab
    rcases le_total a b with h | h
    · have h2 := lstar_lipschitz (a := a) (b := b) h (by norm_num; linarith)
      have := c11_strictMono.2.monotone h
      rw [abs_le]; norm_num at h2 hab ⊢; constructor <;> linarith
    · have h2 := lstar_lipschitz (a := b) (b := a) h (by norm_num; linarith)
      have := c11_strictMono.2.monotone h
      rw [abs_le]; norm_num at h2 hab ⊢; constructor <;> linarith
  have c := abs_le.1 (close (a := d) (b := D) (by rw [abs_le, hD]; norm_num; constructor <;> linarith) (by linarith) (by linarith))
  rw [abs_le]; norm_num at c hw ⊢; constructor <;> linarith

/-! ### Both tones on the same side of 50..60 -/

theorem fg_light_side64 (hL : L.PowOk) {bg r i : 𝔻} (hb : Tone bg) (h0 : 74.9 ≤ val bg) (h1 : val bg ≤ 87.1) (hi : Fin i)
    (hi0 : 80 ≤ val i) (hi1 : val i ≤ 90) (hr : RatioOk r) (hir : val r ≤ val (ratioOfTones bg i)) :
    50 ≤ val (foregroundTone bg r) := by
  norm_num at h0 h1
  have hy75 := y_ge h0 (by norm_num)
  have hy87 := y_le h1 (by norm_num)
  have hy80 := y_ge hi0 (by norm_num)
  have hy90 := y_le hi1 (by norm_num)
  have near := abs_le.1 (ratio_near (is_of bg hb.1) (is_of i hi))
  have r2 : ratioOfTones (val bg) (val i) ≤ 1.6 := by
    norm_num at hy75 hy80 hy90 hy87 ⊢
    rcases le_total (val bg) (val i) with hle | hle
    · rw [c17_symm, ratioOfTones_of_le (clampTone_mono hle), clampTone_of_mem (by linarith) (by linarith),
        clampTone_of_mem (by linarith) (by linarith), div_le_iff₀ (by linarith)]
      linarith
    · rw [ratioOfTones_of_le (clampTone_mono hle), clampTone_of_mem (by linarith) (by linarith),
        clampTone_of_mem (by linarith) (by linarith), div_le_iff₀ (by linarith)]
      linarith
  norm_num at near r2
  have hrv : val r ≤ 2 := by linarith
  rw [fg_dark_eq64 hL hb (by linarith) (by linarith) hr]
  have i51 : Is (51.0 : 𝔻) 51 := by simpa using lit (L := L) 510 1 true 51 (by norm_num) (by norm_num)
  have v51 : val (51.0 : 𝔻) = 51 := i51.2
  have hne : val (darker bg r) ≠ -1 := by
    intro he
    have hc := c19_binary64_complete hL bg r hb.1 hr.1 hb.2.1 hb.2.2 hr.2.1 he (51.0 : 𝔻) i51.1
      (by rw [v51]; norm_num) (by rw [v51]; linarith)
    have n2 := abs_le.1 (ratio_near i51 (is_of bg hb.1))
    have : 2.1 ≤ ratioOfTones 51 (val bg) := by
      rw [c17_symm]
      refine ratio_ge (by linarith) (by norm_num) (by linarith) ?_
      rw [y_cube (show (8 : ℝ) < 51 by norm_num)]
      norm_num at hy75 ⊢
      linarith
    norm_num at n2 this
    linarith
  have hs := c19_binary64_sound hL bg r hb.1 hr.1 hb.2.1 hb.2.2 hr.2.1 hne
  have e : darkerUnsafe bg r = darker bg r := by
    simp only [darkerUnsafe]
    rw [if_neg (by rw [(is_of _ hs.1).lt_iff l0]; linarith [hs.2.1])]
  rw [e]
  have hv := abs_le.1 (darker_val hL hb hr.1 hr.2.1 hne)
  have hy : yFromLstar (51 : ℝ) ≤ (yFromLstar (val bg) + 5) / val r - 5 := by
    have hr1 := hr.2.1
    rw [y_cube (by norm_num), le_sub_iff_add_le, le_div_iff₀ (by linarith)]
    norm_num at hy75 ⊢
    nlinarith
  have hl := c11_strictMono.2.monotone hy
  rw [c11_lstar_y_lstar] at hl
  norm_num at hv
  linarith

/-- A foreground tone that replaces a darker tone of too little contrast is at most a little lighter. -/
theorem fg_dark_past64 (hL : L.PowOk) {bg r i : 𝔻} (hb : Tone bg) (h0 : 74.9 ≤ val bg) (h1 : val bg ≤ 87.1) (hi : Is i 40)
    (hr : RatioOk r) (hir : val (ratioOfTones bg i) < val r) : val (foregroundTone bg r) < 60 := by
  norm_num at h0 h1
  rw [fg_dark_eq64 hL hb (by linarith) (by linarith) hr]
  obtain ⟨-, t2, h2⟩ := candidates hL hb.1 hr
  rcases h2 with h2 | ⟨h2, h3⟩
  · rw [h2, show val (0.0 : 𝔻) = 0 from l0.2]; norm_num
  · by_contra hc
    push Not at hc
    have v40 : val i = 40 := hi.2
    have := c17_binary64_monotone bg bg (darkerUnsafe bg r) i hb.1 hb.1 t2.1 hi.1 h3 le_rfl (by rw [v40]; linarith)
    rw [ratio_comm hb.1 t2.1] at this
    linarith

/-- A foreground tone that replaces a lighter tone of too little contrast is at least 50. -/
theorem fg_light_past64 (hL : L.PowOk) {bg r i : 𝔻} (hb : Tone bg) (h0 : 0 < val bg) (h1 : val bg ≤ 45) (hi : Fin i)
    (hi0 : 50 ≤ val i) (hr : RatioOk r) (hir : val (ratioOfTones bg i) < val r) : 50 ≤ val (foregroundTone bg r) := by
  rw [fg_light_eq64 hL hb h0 h1 hr]
  obtain ⟨⟨t1, h2⟩, -⟩ := candidates hL hb.1 hr
  rcases h2 with h2 | ⟨h2, h3⟩
  · rw [h2, show val (100.0 : 𝔻) = 100 from l100.2]; norm_num
  · by_contra hc
    push Not at hc
    have := c17_binary64_monotone (lighterUnsafe bg r) i bg bg t1.1 hi hb.1 hb.1 h3 (by linarith) le_rfl
    rw [ratio_comm hi hb.1] at this
    linarith

theorem adjustedF_cases (dec : Bool) {bg k i : 𝔻} (hb : Fin bg) (hi : Fin i) (hk : Fin k) :
    (adjustedF dec bg k i = i ∧ dec = false ∧ val k ≤ val (ratioOfTones bg i)) ∨
    (adjustedF dec bg k i = foregroundTone bg k ∧ (dec = true ∨ val (ratioOfTones bg i) < val k)) := by
  have ir := is_of _ (c17_binary64 bg i (fin_num hb) (fin_num hi)).1
  unfold adjustedF
  cases dec
  · simp only [Bool.false_eq_true, if_false, goodEnough, false_or]
    split
    · next h => exact Or.inl ⟨rfl, trivial, ((is_of k hk).le_iff ir).1 h⟩
    · next h => exact Or.inr ⟨rfl, not_le.1 fun c => h (((is_of k hk).le_iff ir).2 c)⟩
  · exact Or.inr ⟨rfl, Or.inl rfl⟩

theorem pairTones_eqF (dec : Bool) (bg k n f d dir : 𝔻) (t : Bool) : pairTones dec bg k k n f d dir t =
    avoidAwkward (spreadTones (adjustedF dec bg k n) (adjustedF dec bg k f) d dir).1
      (spreadTones (adjustedF dec bg k n) (adjustedF dec bg k f) d dir).2 d dir t := rfl

theorem fixed_tones {n f : 𝔻} (hn : Fin n) (hf : Fin f) (hi : FixedInitial (val n) (val f)) : ToneOk n ∧ ToneOk f := by
  refine ⟨⟨hn, ?_⟩, hf, ?_⟩ <;> rcases hi with ⟨h, h'⟩ | ⟨h, h'⟩ | ⟨h, h'⟩ <;> simp only [h, h'] <;> norm_num

theorem clamp_ge_50 {v : ℝ} (h : 50 ≤ v) : 50 ≤ clampTone v := by
  rcases clampTone_cases v with ⟨a, b⟩ | ⟨a, b, c⟩ | ⟨a, b⟩ <;> linarith

theorem clamp_lt_60 {v : ℝ} (h : v < 60) : clampTone v < 60 := by
  rcases clampTone_cases v with ⟨a, b⟩ | ⟨a, b, c⟩ | ⟨a, b⟩ <;> linarith

/-- In a light scheme the tones of a fixed role and its dimmed version are on the same side of 50..60. -/
theorem side_light64 (hL : L.PowOk) (dec : Bool) {bg k n f d dir : 𝔻} (hb : Tone bg) (h0 : 74.9 ≤ val bg) (h1 : val bg ≤ 87.1)
    (hk : RatioOk k) (hn : Fin n) (hf : Fin f) (hi : FixedInitial (val n) (val f)) (hd : Is d 10) (hdir : Is dir (-1)) :
    val (pairTones dec bg k k n f d dir true).1 < 50 ∨ 60 ≤ val (pairTones dec bg k k n f d dir true).2 := by
  rw [pairTones_eqF]
  obtain ⟨tn, tf⟩ := fixed_tones hn hf hi
  have hN := adjusted_ok hL dec hb.1 tn hk
  have hF := adjusted_ok hL dec hb.1 tf hk
  have key : val (adjustedF dec bg k f) + 9.9999 ≤ val (adjustedF dec bg k n) → 60 ≤ val (adjustedF dec bg k n) →
      50 ≤ val (adjustedF dec bg k f) := by
    intro hd hge
    rcases adjustedF_cases dec hb.1 hn hk.1 with ⟨en, -, hnk⟩ | ⟨en, hnr⟩ <;>
      rcases adjustedF_cases dec hb.1 hf hk.1 with ⟨ef, hfd, hfk⟩ | ⟨ef, hfr⟩
    · rw [en] at hge; rw [ef]
      rcases hi with ⟨e, e'⟩ | ⟨e, e'⟩ | ⟨e, e'⟩ <;> rw [e] at hge <;> rw [e'] <;> linarith
    · rw [ef]
      rw [en] at hge
      refine fg_light_side64 hL hb h0 h1 hn ?_ ?_ hk hnk <;>
        rcases hi with ⟨e, e'⟩ | ⟨e, e'⟩ | ⟨e, e'⟩ <;> rw [e] at hge ⊢ <;> linarith
    · rw [ef]
      rcases hi with ⟨e, e'⟩ | ⟨e, e'⟩ | ⟨e, e'⟩
      · rw [e']; norm_num
      · rw [e']; norm_num
      · rw [en] at hge
        rcases hnr with h | h
        · rw [h] at hfd; cases hfd
        · have := fg_dark_past64 hL hb h0 h1 ⟨hn, e⟩ hk h
          linarith
    · rw [en, ef] at hd; norm_num at hd
  generalize adjustedF dec bg k n = a at *
  generalize adjustedF dec bg k f = b at *
  have r50 : Rep 50 := by simpa using rep_int (n := 50) (by norm_num)
  rcases spread_cases64 hN hF hd hdir (Or.inr rfl) with ⟨e, h⟩ | ⟨g, e, ig⟩ | ⟨g, h, e, ig, ih⟩ <;> simp only [e]
  · refine together_light64 hN.1 hF.1 hdir hd ?_
    rcases lt_or_ge (val a) 60 with h2 | h2
    · right; right; exact h2
    · right; left; exact key (by norm_num at h ⊢; linarith) h2
  · refine together_light64 hN.1 ig.1 hdir hd ?_
    rcases lt_or_ge (val a) 60 with h2 | h2
    · right; right; exact h2
    · right; left
      rw [show val g = _ from ig.2]
      exact clamp_ge_50 (r50.le_rnd (by linarith))
  · refine together_light64 ih.1 ig hdir hd ?_
    rcases lt_or_ge (val g) 50 with h2 | h2
    · right; right
      rw [show val h = _ from ih.2, show val g - 10 * -1 = val g + 10 by ring]
      exact clamp_lt_60 (rnd_lt_60 (is_of g ig).rep h2)
    · right; left; exact h2

/-- In a dark scheme too. -/
theorem side_dark64 (hL : L.PowOk) (dec : Bool) {bg k n f d dir : 𝔻} (hb : Tone bg) (h0 : 0 < val bg) (h1 : val bg ≤ 34.1)
    (hk : RatioOk k) (hk3 : 30.1 < val bg → 2.9 ≤ val k) (hn : Fin n) (hf : Fin f) (hi : FixedInitial (val f) (val n))
    (hd : Is d 10) (hdir : Is dir 1) :
    60 ≤ val (pairTones dec bg k k n f d dir true).1 ∨ val (pairTones dec bg k k n f d dir true).2 < 50 := by
  rw [pairTones_eqF]
  norm_num at h1 hk3
  obtain ⟨tf, tn⟩ := fixed_tones hf hn hi
  have hN := adjusted_ok hL dec hb.1 tn hk
  have hF := adjusted_ok hL dec hb.1 tf hk
  have key : val (adjustedF dec bg k n) + 9.9999 ≤ val (adjustedF dec bg k f) → 60 ≤ val (adjustedF dec bg k f) →
      50 ≤ val (adjustedF dec bg k n) := by
    intro hd hge
    rcases adjustedF_cases dec hb.1 hn hk.1 with ⟨en, hnd, hnk⟩ | ⟨en, hnr⟩ <;>
      rcases adjustedF_cases dec hb.1 hf hk.1 with ⟨ef, hfd, hfk⟩ | ⟨ef, hfr⟩
    · rw [ef] at hge; rw [en]
      rcases hi with ⟨e, e'⟩ | ⟨e, e'⟩ | ⟨e, e'⟩ <;> rw [e] at hge <;> rw [e'] <;> linarith
    · rw [en]
      rcases hi with ⟨e, e'⟩ | ⟨e, e'⟩ | ⟨e, e'⟩
      · rw [e']; norm_num
      · rw [e']; norm_num
      · exfalso
        rcases hfr with h | h
        · rw [h] at hnd; cases hnd
        · have n30 := abs_le.1 (ratio_near (is_of bg hb.1) ⟨hn, e'⟩)
          have n40 := abs_le.1 (ratio_near (is_of bg hb.1) ⟨hf, e⟩)
          norm_num at n30 n40
          rcases le_or_gt (val bg) 30 with hbg | hbg
          · have := c17_binary64_monotone n f bg bg hn hf hb.1 hb.1 (by rw [e']; exact hbg) (by rw [e, e']; norm_num) le_rfl
            rw [ratio_comm hn hb.1, ratio_comm hf hb.1] at this
            linarith
          · have lt {c q : ℝ} (hc : val bg ≤ c) (hc1 : c ≤ 100) (h : yFromLstar c + 5 < q * (yFromLstar 30 + 5)) :
                ratioOfTones (val bg) 30 < q := by
              refine ratio_lt hbg.le (by norm_num) (by linarith) ?_
              linarith [c11_strictMono.1.monotone hc]
            rcases le_or_gt (val bg) 30.1 with hb1 | hb1
            · have h1 : ratioOfTones (val bg) 30 < 1.1 := lt hb1 (by norm_num) (by
                rw [y_cube (show (8 : ℝ) < 30.1 by norm_num), y_cube (show (8 : ℝ) < 30 by norm_num)]; norm_num)
              have h2 : 1.2 ≤ ratioOfTones (val bg) 40 := by
                rw [c17_symm]
                norm_num at hb1
                refine ratio_ge (by linarith) (by linarith) (by norm_num) ?_
                have hy := y_le hb1 (by norm_num)
                rw [y_cube (show (8 : ℝ) < 40 by norm_num)]
                norm_num at hy ⊢
                linarith
              norm_num at h1 h2
              linarith
            · norm_num at hb1
              have h3 := hk3 hb1
              have h1 : ratioOfTones (val bg) 30 < 2 := lt (c := 34.1) (by norm_num; linarith) (by norm_num) (by
                rw [y_cube (show (8 : ℝ) < 34.1 by norm_num), y_cube (show (8 : ℝ) < 30 by norm_num)]; norm_num)
              linarith
    · rw [en]
      rw [ef] at hge
      rcases hnr with h | h
      · rw [h] at hfd; cases hfd
      · refine fg_light_past64 hL hb h0 (by linarith) hn ?_ hk h
        rcases hi with ⟨e, e'⟩ | ⟨e, e'⟩ | ⟨e, e'⟩ <;> rw [e] at hge <;> rw [e'] <;> linarith
    · rw [en, ef] at hd; norm_num at hd
  generalize adjustedF dec bg k n = a at *
  generalize adjustedF dec bg k f = b at *
  have r50 : Rep 50 := by simpa using rep_int (n := 50) (by norm_num)
  rcases spread_cases64 hN hF hd hdir (Or.inl rfl) with ⟨e, h⟩ | ⟨g, e, ig⟩ | ⟨g, h, e, ig, ih⟩ <;> simp only [e]
  · refine together_dark64 hN.1 hF.1 hdir hd ?_
    rcases lt_or_ge (val b) 60 with h2 | h2
    · left; exact h2
    · right; exact key (by norm_num at h ⊢; linarith) h2
  · refine together_dark64 hN.1 ig.1 hdir hd ?_
    rcases lt_or_ge (val a) 50 with h2 | h2
    · left
      rw [show val g = _ from ig.2, show val a + 10 * 1 = val a + 10 by ring]
      exact clamp_lt_60 (rnd_lt_60 (is_of a hN.1).rep h2)
    · right; exact h2
  · refine together_dark64 ih.1 ig hdir hd ?_
    rcases lt_or_ge (val g) 60 with h2 | h2
    · left; exact h2
    · right
      rw [show val h = _ from ih.2]
      exact clamp_ge_50 (r50.le_rnd (by linarith))

/-! ### Text on two backgrounds -/

/-- Text on two backgrounds on the same side of 50..60. -/
theorem dual_ge64 (hL : L.PowOk) {d f a r : 𝔻} {k : ℝ} (hd : ToneOk d) (hf : ToneOk f) (ha : Fin a)
    (hdf : val d + 9.9999 ≤ val f) (hs : 60 ≤ val d ∨ val f < 50) (hk : k ≤ 4.48) (hr : RatioOk r) (hkr : k ≤ val r)
    (hr3 : 2.9 ≤ val r) :
    k ≤ val (ratioOfTones (dualTone d f a r) d) ∧ k ≤ val (ratioOfTones (dualTone d f a r) f) := by
  norm_num at hdf hk hr3
  have iu : Is (Fl.fmax d f) (val f) := by
    have := (is_of d hd.1).fmax (is_of f hf.1)
    rwa [max_eq_right (by linarith)] at this
  have il : Is (Fl.fmin d f) (val d) := by
    have := (is_of d hd.1).fmin (is_of f hf.1)
    rwa [min_eq_left (by linarith)] at this
  have ir := is_of r hr.1
  obtain ⟨d1, d2, d3⟩ := hd
  obtain ⟨f1, f2, f3⟩ := hf
  have pd := prefers_light (is_of d d1) (by rw [abs_le]; norm_num at d2 d3; constructor <;> linarith)
  have pf := prefers_light (is_of f f1) (by rw [abs_le]; norm_num at f2 f3; constructor <;> linarith)
  simp only [dualTone]
  generalize Fl.fmax d f = u at *
  generalize Fl.fmin d f = l at *
  have eu {s : 𝔻} (h : Fin s) := ratio_congr h iu.1 f1 iu.2
  have el {s : 𝔻} (h : Fin s) := ratio_congr h il.1 d1 il.2
  by_cases hc : ratioOfTones u a ≥ r ∧ ratioOfTones l a ≥ r
  · rw [if_pos hc]
    have h1 := (ir.le_iff (is_of _ (c17_binary64 u a (fin_num iu.1) (fin_num ha)).1)).1 hc.1
    have h2 := (ir.le_iff (is_of _ (c17_binary64 l a (fin_num il.1) (fin_num ha)).1)).1 hc.2
    rw [ratio_comm iu.1 ha, eu ha] at h1
    rw [ratio_comm il.1 ha, el ha] at h2
    exact ⟨hkr.trans h2, hkr.trans h1⟩
  · rw [if_neg hc]
    norm_num at d2 d3 f2 f3
    rcases hs with hs | hs
    · have hp : (tonePrefersLightForeground d || tonePrefersLightForeground f) = false := by
        rw [pd.2 (by norm_num; linarith), pf.2 (by norm_num; linarith)]; rfl
      have vu : val u = val f := iu.2
      have vl : val l = val d := il.2
      have hl : val (lighter u r) = -1 := by
        by_contra h
        by_cases hu : val u ≤ 100
        · obtain ⟨s1, s2, s3, s4, s5⟩ := c18_binary64_sound hL u r iu.1 hr.1 (by linarith) hu hr.2.1 hr.2.2 h
          have near := abs_le.1 (ratio_near (is_of _ s1) iu)
          have hm := c17_monotone (val (lighter u r)) 100 (val f) (val f) (by norm_num at s4; linarith) s3 le_rfl
          rw [ratio_white (by linarith) (by linarith)] at hm
          have hy := y_ge (show 69 ≤ val f by linarith) (by norm_num)
          have : 105 / (yFromLstar (val f) + 5) ≤ 2.8 := by
            norm_num at hy ⊢
            rw [div_le_iff₀ (by linarith)]; linarith
          norm_num at near this
          linarith
        · rcases lighter_or hL iu.1 hr with h' | h'
          · exact h h'.2
          · refine h ?_
            have hcc : u < (0.0 : 𝔻) ∨ u > (100.0 : 𝔻) := by
              right; rw [gt_iff_lt, l100.lt_iff iu]; linarith
            simp only [lighter, if_pos hcc]; exact lm1.2
      have hneq : (lighter u r != (-1.0 : 𝔻)) = false := by
        rw [bne, ((fin_of_neg hl).beq_iff lm1).2 rfl]; rfl
      simp only [hp, Bool.false_eq_true, if_false, hneq, List.nil_append]
      by_cases hdk : val (darker l r) = -1
      · have hneq2 : (darker l r != (-1.0 : 𝔻)) = false := by
          rw [bne, ((fin_of_neg hdk).beq_iff lm1).2 rfl]; rfl
        have hlt : darker l r < (0.0 : 𝔻) := ((fin_of_neg hdk).lt_iff l0).2 (by norm_num)
        simp only [hneq2, Bool.false_eq_true, if_false, if_pos hlt]
        have near := abs_le.1 (ratio_near (l0 (L := L)) (is_of d d1))
        have hm := c17_binary64_monotone d f (0.0 : 𝔻) (0.0 : 𝔻) d1 f1 l0.1 l0.1
          (by rw [show val (0.0 : 𝔻) = 0 from l0.2]; linarith) (by linarith) le_rfl
        rw [ratio_comm d1 l0.1, ratio_comm f1 l0.1] at hm
        have hy := y_ge hs (by norm_num)
        rw [ratio_black (by linarith) (by linarith)] at near
        have : 5 ≤ (yFromLstar (val d) + 5) / 5 := by
          norm_num at hy
          rw [le_div_iff₀ (by norm_num)]; linarith
        norm_num at near
        exact ⟨by linarith, by linarith⟩
      · obtain ⟨s1, s2, s3, s4, s5⟩ := c19_binary64_sound hL l r il.1 hr.1 (by linarith) (by linarith) hr.2.1 hdk
        have hneq2 : (darker l r != (-1.0 : 𝔻)) = true := by
          rw [bne, Bool.not_eq_true', Bool.eq_false_iff]
          intro h
          exact hdk (((is_of _ s1).beq_iff lm1).1 h)
        simp only [hneq2, if_true]
        rw [el s1] at s5
        have hm := c17_binary64_monotone d f (darker l r) (darker l r) d1 f1 s1 s1
          (by norm_num at s4; linarith) (by linarith) le_rfl
        rw [ratio_comm d1 s1, ratio_comm f1 s1] at hm
        exact ⟨by linarith, by linarith⟩
    · have hp : (tonePrefersLightForeground d || tonePrefersLightForeground f) = true := by
        rw [pd.1 (by norm_num; linarith)]; rfl
      have vu : val u = val f := iu.2
      simp only [hp, if_true]
      have hf0 : 9 ≤ val f := by linarith
      by_cases hl : val (lighter u r) = -1
      · rw [if_pos (((fin_of_neg hl).lt_iff l0).2 (by norm_num))]
        have near := abs_le.1 (ratio_near (l100 (L := L)) (is_of f f1))
        have white : 4.481 ≤ ratioOfTones 100 (val f) := by
          rw [ratio_white (by linarith) (by linarith)]
          have hy := y_le hs.le (by norm_num)
          have hy0 := y_range (show 0 ≤ val f by linarith) (by linarith)
          norm_num at hy ⊢
          rw [le_div_iff₀ (by linarith [hy0.1])]
          linarith
        have hm := c17_binary64_monotone (100.0 : 𝔻) (100.0 : 𝔻) f d l100.1 l100.1 f1 d1
          (by rw [show val (100.0 : 𝔻) = 100 from l100.2]; linarith) le_rfl (by linarith)
        norm_num at near white
        exact ⟨by linarith, by linarith⟩
      · obtain ⟨s1, s2, s3, s4, s5⟩ := c18_binary64_sound hL u r iu.1 hr.1 (by linarith) (by linarith) hr.2.1 hr.2.2 hl
        rw [if_neg (by rw [(is_of _ s1).lt_iff l0]; linarith)]
        rw [eu s1] at s5
        have hm := c17_binary64_monotone (lighter u r) (lighter u r) f d s1 s1 f1 d1
          (by norm_num at s4; linarith) le_rfl (by linarith)
        exact ⟨by linarith, by linarith⟩

end Mcu.Lemmas
