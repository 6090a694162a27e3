import Verif.Props.Binary64Foreground
import Verif.Props.Readable

/-! Contrast curves, tone delta pairs and the tones of roles in IEEE-754 binary64. -/

namespace Mcu.Lemmas

open Mcu.Ieee Props Props.Binary64 MathUtils Contrast ColorUtils DynamicColor Material

variable {L : Libm}

local notation "𝔻" => F64 L

/-! ### Contrast curves -/

/-- The contrast level as a real number; levels that are not finite act like ones beyond the ends of the curve. -/
noncomputable def levelOf (x : 𝔻) : ℝ :=
  match (show Dbl from x) with
  | .nan => 2
  | .inf true => -2
  | .inf false => 2
  | y => y.val

theorem levelOf_fin {x : 𝔻} {a : ℝ} (h : Is x a) : levelOf x = a := by
  obtain ⟨h1, rfl⟩ := h
  rcases x with _ | s | s | ⟨v, hv⟩
  · exact h1.elim
  · exact h1.elim
  · rfl
  · rfl

/-- Comparing a level with a number from -1 to 1. -/
theorem level_lt {x c : 𝔻} {a : ℝ} (hc : Is c a) (h0 : -1 ≤ a) (h1 : a ≤ 1) : (x < c ↔ levelOf x < a) := by
  obtain ⟨f1, rfl⟩ := hc
  rcases x with _ | s | s | ⟨v, hv⟩
  · refine iff_of_false (fun h => ?_) (show ¬ ((2 : ℝ) < _) by linarith)
    have := h.1; cases this
  · rcases c with _ | s' | s' | ⟨w, hw⟩
    · exact f1.elim
    · exact f1.elim
    · cases s
      · refine iff_of_false (fun h => ?_) (show ¬ ((2 : ℝ) < _) by linarith)
        have := h.2.2; exact absurd this not_top_lt
      · refine iff_of_true ⟨rfl, rfl, ?_⟩ (show (-2 : ℝ) < _ by linarith)
        exact EReal.bot_lt_coe _
    · cases s
      · refine iff_of_false (fun h => ?_) (show ¬ ((2 : ℝ) < _) by linarith)
        have := h.2.2; exact absurd this not_top_lt
      · refine iff_of_true ⟨rfl, rfl, ?_⟩ (show (-2 : ℝ) < _ by linarith)
        exact EReal.bot_lt_coe _
  · exact Is.lt_iff (L := L) (x := Dbl.zero s) ⟨trivial, rfl⟩ ⟨f1, rfl⟩
  · exact Is.lt_iff (L := L) (x := Dbl.num v hv) ⟨trivial, rfl⟩ ⟨f1, rfl⟩

theorem level_le {x c : 𝔻} {a : ℝ} (hc : Is c a) (h0 : -1 ≤ a) (h1 : a ≤ 1) : (x ≤ c ↔ levelOf x ≤ a) := by
  obtain ⟨f1, rfl⟩ := hc
  rcases x with _ | s | s | ⟨v, hv⟩
  · refine iff_of_false (fun h => ?_) (show ¬ ((2 : ℝ) ≤ _) by linarith)
    have := h.1; cases this
  · rcases c with _ | s' | s' | ⟨w, hw⟩
    · exact f1.elim
    · exact f1.elim
    · cases s
      · refine iff_of_false (fun h => ?_) (show ¬ ((2 : ℝ) ≤ _) by linarith)
        have := h.2.2; exact absurd this (not_le.2 (EReal.coe_lt_top _))
      · exact iff_of_true ⟨rfl, rfl, bot_le⟩ (show (-2 : ℝ) ≤ _ by linarith)
    · cases s
      · refine iff_of_false (fun h => ?_) (show ¬ ((2 : ℝ) ≤ _) by linarith)
        have := h.2.2; exact absurd this (not_le.2 (EReal.coe_lt_top _))
      · exact iff_of_true ⟨rfl, rfl, bot_le⟩ (show (-2 : ℝ) ≤ _ by linarith)
  · exact Is.le_iff (L := L) (x := Dbl.zero s) ⟨trivial, rfl⟩ ⟨f1, rfl⟩
  · exact Is.le_iff (L := L) (x := Dbl.num v hv) ⟨trivial, rfl⟩ ⟨f1, rfl⟩

theorem level_is {x : 𝔻} (h0 : -1 ≤ levelOf x) (h1 : levelOf x ≤ 1) : Is x (levelOf x) := by
  rcases x with _ | s | s | ⟨v, hv⟩
  · exact absurd h1 (show ¬ ((2 : ℝ) ≤ 1) by norm_num)
  · cases s
    · exact absurd h1 (show ¬ ((2 : ℝ) ≤ 1) by norm_num)
    · exact absurd h0 (show ¬ ((-1 : ℝ) ≤ -2) by norm_num)
  · exact ⟨trivial, rfl⟩
  · exact ⟨trivial, rfl⟩

/-- Interpolating between two numbers of moderate size. -/
theorem ap_lerp {x y a : 𝔻} {X Y v A : ℝ} (hx : Is x X) (hy : Is y Y) (ha : Is a v) (hA : |v - A| ≤ 4 * ρ)
    (hX : |X| ≤ 100) (hY : |Y| ≤ 100) (h0 : 0 ≤ A) (h1 : A ≤ 1) :
    Ap (lerp x y a) ((1 - A) * X + A * Y) (1 / 10 ^ 9) := by
  have hρ : ρ = 1 / 10 ^ 12 := rfl
  have aa : Ap a A (4 * ρ) := ⟨v, ha, hA⟩
  have s1 : Ap (1.0 - a) (1 - A) (0 + 4 * ρ + ρ) :=
    (l1 (L := L)).ap.sub aa (by rw [abs_of_nonneg (by linarith)]; norm_num [hρ]; linarith)
  have m1 := s1.mul hx.ap (A := 1) (B := 100) (by rw [abs_of_nonneg (by linarith)]; linarith) hX (by norm_num [hρ])
  have m2 := aa.mul hy.ap (A := 1) (B := 100) (by rw [abs_of_nonneg h0]; exact h1) hY (by norm_num [hρ])
  have hb1 : |(1 - A) * X| ≤ 100 := by
    rw [abs_mul, abs_of_nonneg (by linarith : 0 ≤ 1 - A)]
    nlinarith [abs_nonneg X]
  have hb2 : |A * Y| ≤ 100 := by
    rw [abs_mul, abs_of_nonneg h0]
    nlinarith [abs_nonneg Y]
  refine (m1.add m2 ?_).weaken (by norm_num [hρ])
  have := abs_add_le ((1 - A) * X) (A * Y)
  norm_num [hρ]
  linarith

/-- Rounding one minus a number, and adding the number again, gives one. -/
theorem rnd_one_sub {v : ℝ} (h0 : 0 ≤ v) (h1 : v ≤ 1) : 1 ≤ rnd (rnd (1 - v) + v) := by
  have hlow : rnd (1 - 2 ^ (-54 : ℤ)) = 1 := by
    have := rnd_eq_of_near_even (v := 1 - 2 ^ (-54 : ℤ)) (p := -53) (n := 2 ^ 53) (by norm_num) (by norm_num) (by norm_num)
      ⟨2 ^ 52, by norm_num⟩ (by norm_num [abs_le])
    rw [this]; norm_num
  rcases eq_or_lt_of_le h0 with e | h0
  · rw [← e, sub_zero, rep1.rnd_eq, add_zero, rep1.rnd_eq]
  · rcases eq_or_lt_of_le h1 with e | h1
    · rw [e, sub_self, rnd_zero, zero_add, rep1.rnd_eq]
    · refine hlow.symm.le.trans (rnd_mono ?_)
      have hn := abs_le.1 (rnd_near (1 - v))
      have hp : (2 : ℝ) ^ place (1 - v) ≤ 2 ^ (-53 : ℤ) := by
        refine zpow_le_zpow_right₀ (by norm_num) ?_
        unfold place
        refine max_le (by norm_num) ?_
        have : Int.log 2 |1 - v| < 0 := by
          rw [abs_of_pos (by linarith)]
          refine Int.lt_zpow_iff_log_lt (by norm_num) (by linarith) |>.1 ?_
          norm_num; exact h0
        omega
      have : (2 : ℝ) ^ (-54 : ℤ) = 2 ^ (-53 : ℤ) / 2 := by norm_num
      rw [this]
      have hn := hn.1
      generalize (2 : ℝ) ^ place (1 - v) = P at *
      generalize (2 : ℝ) ^ (-53 : ℤ) = Q at *
      linarith

/-- Interpolating between numbers from 1 never gives less than 1. -/
theorem lerp_ge_one {x y a : 𝔻} {X Y v : ℝ} (hx : Is x X) (hy : Is y Y) (ha : Is a v)
    (hX : 1 ≤ X ∧ X ≤ 100) (hY : 1 ≤ Y ∧ Y ≤ 100) (h0 : 0 ≤ v) (h1 : v ≤ 1) : 1 ≤ val (lerp x y a) := by
  have s0 : 0 ≤ rnd (1 - v) := rnd_nonneg (by linarith)
  have s1 : rnd (1 - v) ≤ 1 := rep1.rnd_le (by linarith)
  have i1 : Is (1.0 - a) (rnd (1 - v)) := l1.sub ha (small 1 (by norm_num) (by
    rw [abs_of_nonneg (by linarith)]; linarith))
  have b1 : |rnd (1 - v) * X| ≤ 2 ^ 7 := by
    rw [abs_of_nonneg (by nlinarith)]; nlinarith
  have b2 : |v * Y| ≤ 2 ^ 7 := by
    rw [abs_of_nonneg (by nlinarith)]; nlinarith
  have i2 := i1.mul hx (small 7 (by norm_num) b1)
  have i3 := ha.mul hy (small 7 (by norm_num) b2)
  have r7 : Rep (2 ^ 7 : ℝ) := by simpa using rep_zpow (e := 7) (by norm_num)
  have c1 : rnd (rnd (1 - v) * X) ≤ 2 ^ 7 := r7.rnd_le ((le_abs_self _).trans b1)
  have c2 : rnd (v * Y) ≤ 2 ^ 7 := r7.rnd_le ((le_abs_self _).trans b2)
  have d1 : rnd (1 - v) ≤ rnd (rnd (1 - v) * X) := (rep_rnd _).le_rnd (by nlinarith)
  have d2 : v ≤ rnd (v * Y) := ha.rep.le_rnd (by nlinarith)
  have i4 := i2.add i3 (small 8 (by norm_num) (by rw [abs_of_nonneg (by linarith)]; norm_num at *; linarith))
  have e : val (lerp x y a) = rnd (rnd (rnd (1 - v) * X) + rnd (v * Y)) := i4.2
  rw [e]
  exact (rnd_one_sub h0 h1).trans (rnd_mono (by linarith))

/-- The contrast curve with real control values. -/
noncomputable def realCurve (k : ContrastCurve 𝔻) : ContrastCurve ℝ := ⟨val k.low, val k.normal, val k.medium, val k.high⟩

/-- The control values of a curve are finite and of moderate size. -/
structure CurveFin (k : ContrastCurve 𝔻) : Prop where
  low : Fin k.low ∧ |val k.low| ≤ 100
  normal : Fin k.normal ∧ |val k.normal| ≤ 100
  medium : Fin k.medium ∧ |val k.medium| ≤ 100
  high : Fin k.high ∧ |val k.high| ≤ 100

/-- The parameter of an interpolation. -/
theorem part_is {x c d : 𝔻} {l C D : ℝ} (hx : Is x l) (hc : Is c C) (hd : Is d D) (hD : D = 1 ∨ D = 1 / 2)
    (h0 : C ≤ l) (h1 : l ≤ C + D) (hC : -1 ≤ C ∧ C ≤ 1) :
    ∃ v, Is ((x - c) / d) v ∧ |v - (l - C) / D| ≤ 4 * ρ ∧ 0 ≤ v ∧ v ≤ 1 := by
  have hρ : ρ = 1 / 10 ^ 12 := rfl
  have hD0 : 0 < D := by rcases hD with rfl | rfl <;> norm_num
  have hD1 : D ≤ 1 := by rcases hD with rfl | rfl <;> norm_num
  have i1 := hx.sub hc (small 3 (by norm_num) (by rw [abs_of_nonneg (by linarith)]; linarith))
  have e1 := (rnd_ok (v := l - C) (by rw [abs_of_nonneg (by linarith)]; linarith)).2
  have q0 : 0 ≤ rnd (l - C) := rnd_nonneg (by linarith)
  have q1 : rnd (l - C) ≤ D := hd.rep.rnd_le (by linarith)
  have p0 : 0 ≤ rnd (l - C) / D := div_nonneg q0 hD0.le
  have p1 : rnd (l - C) / D ≤ 1 := (div_le_one hD0).2 q1
  have i2 := i1.div hd hD0.ne' (small 1 (by norm_num) (by rw [abs_of_nonneg p0]; linarith))
  have e2 := (rnd_ok (v := rnd (l - C) / D) (by rw [abs_of_nonneg p0]; linarith)).2
  refine ⟨_, i2, ?_, rnd_nonneg p0, rep1.rnd_le p1⟩
  have e3 : |rnd (l - C) / D - (l - C) / D| ≤ 2 * ρ := by
    rw [← sub_div, abs_div, abs_of_pos hD0, div_le_iff₀ hD0]
    refine e1.trans ?_
    rcases hD with rfl | rfl <;> norm_num [hρ]
  have := abs_add_le (rnd (rnd (l - C) / D) - rnd (l - C) / D) (rnd (l - C) / D - (l - C) / D)
  rw [sub_add_sub_cancel] at this
  have : 0 ≤ ρ := ρ_pos.le
  linarith

/-- The four cases of a contrast curve. -/
theorem curve_get (k : ContrastCurve 𝔻) (x : 𝔻) :
    (levelOf x ≤ -1 ∧ k.get x = k.low ∧ (realCurve k).get (levelOf x) = val k.low) ∨
    (1 ≤ levelOf x ∧ k.get x = k.high ∧ (realCurve k).get (levelOf x) = val k.high) ∨
    (∃ (a b p : 𝔻) (v A : ℝ), ((a = k.low ∧ b = k.normal) ∨ (a = k.normal ∧ b = k.medium) ∨ (a = k.medium ∧ b = k.high)) ∧
      Is p v ∧ |v - A| ≤ 4 * ρ ∧ 0 ≤ v ∧ v ≤ 1 ∧ 0 ≤ A ∧ A ≤ 1 ∧ k.get x = lerp a b p ∧
      (realCurve k).get (levelOf x) = (1 - A) * val a + A * val b) := by
  have e0 : (0.0 : ℝ) = 0 := by norm_num
  have e1 : (1.0 : ℝ) = 1 := by norm_num
  have e5 : (0.5 : ℝ) = 1 / 2 := by norm_num
  simp only [ContrastCurve.get, level_le (lm1 (L := L)) le_rfl (by norm_num), level_lt (l0 (L := L)) (by norm_num) (by norm_num),
    level_lt (lhalf (L := L)) (by norm_num) (by norm_num), level_lt (l1 (L := L)) (by norm_num) (by norm_num), e0, e1, e5]
  by_cases h1 : levelOf x ≤ -1
  · left; simp only [if_pos h1]; exact ⟨h1, trivial, rfl⟩
  · right
    simp only [if_neg h1]
    have h1 := not_le.1 h1
    by_cases h2 : levelOf x < 0
    · right
      simp only [if_pos h2]
      have ix := level_is (x := x) h1.le (by linarith)
      obtain ⟨v, i, e, v0, v1⟩ := part_is ix (lm1 (L := L)) l1 (Or.inl rfl) h1.le (by linarith) (by norm_num)
      exact ⟨_, _, _, v, (levelOf x - -1) / 1, Or.inl ⟨rfl, rfl⟩, i, e, v0, v1, by linarith, by linarith, rfl, by simp only [lerp, realCurve, e1]⟩
    · simp only [if_neg h2]
      have h2 := not_lt.1 h2
      by_cases h3 : levelOf x < 1 / 2
      · right
        simp only [if_pos h3]
        have ix := level_is (x := x) h1.le (by linarith)
        obtain ⟨v, i, e, v0, v1⟩ := part_is ix (l0 (L := L)) lhalf (Or.inr rfl) h2 (by linarith) (by norm_num)
        exact ⟨_, _, _, v, (levelOf x - 0) / (1 / 2), Or.inr (Or.inl ⟨rfl, rfl⟩), i, e, v0, v1, by linarith, by linarith, rfl,
          by simp only [lerp, realCurve, e1]⟩
      · simp only [if_neg h3]
        have h3 := not_lt.1 h3
        by_cases h4 : levelOf x < 1
        · right
          simp only [if_pos h4]
          have ix := level_is (x := x) h1.le (by linarith)
          obtain ⟨v, i, e, v0, v1⟩ := part_is ix (lhalf (L := L)) lhalf (Or.inr rfl) h3 (by linarith) (by norm_num)
          exact ⟨_, _, _, v, (levelOf x - 1 / 2) / (1 / 2), Or.inr (Or.inr ⟨rfl, rfl⟩), i, e, v0, v1, by linarith, by linarith, rfl,
            by simp only [lerp, realCurve, e1]⟩
        · left; simp only [if_neg h4]; exact ⟨not_lt.1 h4, trivial, rfl⟩

theorem ap_get (k : ContrastCurve 𝔻) (hk : CurveFin k) (x : 𝔻) :
    Ap (k.get x) ((realCurve k).get (levelOf x)) (1 / 10 ^ 9) := by
  rcases curve_get k x with ⟨-, e, e'⟩ | ⟨-, e, e'⟩ | ⟨a, b, p, v, A, hab, i, hv, -, -, A0, A1, e, e'⟩
  · rw [e, e']; exact (is_of _ hk.low.1).ap.weaken (by norm_num)
  · rw [e, e']; exact (is_of _ hk.high.1).ap.weaken (by norm_num)
  · rw [e, e']
    rcases hab with ⟨rfl, rfl⟩ | ⟨rfl, rfl⟩ | ⟨rfl, rfl⟩
    · exact ap_lerp (is_of _ hk.low.1) (is_of _ hk.normal.1) i hv hk.low.2 hk.normal.2 A0 A1
    · exact ap_lerp (is_of _ hk.normal.1) (is_of _ hk.medium.1) i hv hk.normal.2 hk.medium.2 A0 A1
    · exact ap_lerp (is_of _ hk.medium.1) (is_of _ hk.high.1) i hv hk.medium.2 hk.high.2 A0 A1

/-- A curve for contrast ratios: its control values are from 1 to 99. -/
structure RatioCurve (k : ContrastCurve 𝔻) : Prop where
  low : Fin k.low ∧ 1 ≤ val k.low ∧ val k.low ≤ 99
  normal : Fin k.normal ∧ 1 ≤ val k.normal ∧ val k.normal ≤ 99
  medium : Fin k.medium ∧ 1 ≤ val k.medium ∧ val k.medium ≤ 99
  high : Fin k.high ∧ 1 ≤ val k.high ∧ val k.high ≤ 99

theorem RatioCurve.fin {k : ContrastCurve 𝔻} (h : RatioCurve k) : CurveFin k := by
  have f {x : 𝔻} (h : Fin x ∧ 1 ≤ val x ∧ val x ≤ 99) : Fin x ∧ |val x| ≤ 100 :=
    ⟨h.1, by rw [abs_of_nonneg (by linarith [h.2.1])]; linarith [h.2.2]⟩
  exact ⟨f h.low, f h.normal, f h.medium, f h.high⟩

theorem curve_ge_one {k : ContrastCurve 𝔻} (hk : RatioCurve k) (x : 𝔻) : 1 ≤ val (k.get x) := by
  have w {x : ℝ} (h : 1 ≤ x ∧ x ≤ 99) : 1 ≤ x ∧ x ≤ 100 := ⟨h.1, by linarith [h.2]⟩
  rcases curve_get k x with ⟨-, e, e'⟩ | ⟨-, e, e'⟩ | ⟨a, b, p, v, A, hab, i, hv, v0, v1, A0, A1, e, e'⟩
  · rw [e]; exact hk.low.2.1
  · rw [e]; exact hk.high.2.1
  · rw [e]
    rcases hab with ⟨rfl, rfl⟩ | ⟨rfl, rfl⟩ | ⟨rfl, rfl⟩
    · exact lerp_ge_one (is_of _ hk.low.1) (is_of _ hk.normal.1) i (w hk.low.2) (w hk.normal.2) v0 v1
    · exact lerp_ge_one (is_of _ hk.normal.1) (is_of _ hk.medium.1) i (w hk.normal.2) (w hk.medium.2) v0 v1
    · exact lerp_ge_one (is_of _ hk.medium.1) (is_of _ hk.high.1) i (w hk.medium.2) (w hk.high.2) v0 v1

/-! ### Foreground tones -/

/-- A finite double that is a tone up to the accuracy with which the tones of colours are computed. -/
def ToneOk (t : 𝔻) : Prop := Fin t ∧ -(2 / 10 ^ 5) ≤ val t ∧ val t ≤ 100 + 2 / 10 ^ 5

/-- A finite double that is a tone. -/
def Tone (t : 𝔻) : Prop := Fin t ∧ 0 ≤ val t ∧ val t ≤ 100

theorem Tone.ok {t : 𝔻} (h : Tone t) : ToneOk t := ⟨h.1, by linarith [h.2.1], by linarith [h.2.2]⟩

theorem Is.tone {t : 𝔻} {a : ℝ} (h : Is t a) (h0 : 0 ≤ a) (h1 : a ≤ 100) : Tone t := by
  obtain ⟨h, rfl⟩ := h
  exact ⟨h, h0, h1⟩

/-- A finite double that is a contrast ratio to ask for. -/
def RatioOk (r : 𝔻) : Prop := Fin r ∧ 1 ≤ val r ∧ val r ≤ 100

theorem fin_num {x : 𝔻} (hx : Fin x) : IsNum x := by
  revert hx; rcases x with _ | _ | _ | _ <;> intro h
  exacts [h.elim, rfl, rfl, rfl]

/-- The computed ratio of any two tones. -/
theorem is_ratioC {s t : 𝔻} {a b : ℝ} (hs : Is s a) (ht : Is t b) :
    Is (ratioOfTones s t) (ratioR (yR (clampTone a)) (yR (clampTone b))) := by
  obtain ⟨c, c0, c1, ic, hc⟩ := clamp_is s (fin_num hs.1)
  obtain ⟨d, d0, d1, id, hd⟩ := clamp_is t (fin_num ht.1)
  have ec : c = clampTone a := by rw [hc hs.1, show val s = a from hs.2]; rfl
  have ed : d = clampTone b := by rw [hd ht.1, show val t = b from ht.2]; rfl
  subst ec ed
  exact Binary64.is_ratio (is_y ic c0 c1) (is_y id d0 d1) (yR_range c0 c1) (yR_range d0 d1)

theorem ratio_comm {s t : 𝔻} (hs : Fin s) (ht : Fin t) : val (ratioOfTones s t) = val (ratioOfTones t s) :=
  (c17_binary64 s t (fin_num hs) (fin_num ht)).2.2.2

theorem unsafe_out {bg r : 𝔻} (hb : Fin bg) (h : val bg < 0 ∨ 100 < val bg) :
    lighterUnsafe bg r = 100.0 ∧ darkerUnsafe bg r = 0.0 := by
  have ib := is_of bg hb
  have hc : bg < (0.0 : 𝔻) ∨ bg > (100.0 : 𝔻) := by
    rcases h with h | h
    · left; rw [ib.lt_iff l0]; exact h
    · right; rw [gt_iff_lt, l100.lt_iff ib]; exact h
  constructor
  · simp only [lighterUnsafe, lighter]
    rw [if_pos hc, if_pos (by rw [lm1.lt_iff l0]; norm_num)]
  · simp only [darkerUnsafe, darker]
    rw [if_pos hc, if_pos (by rw [lm1.lt_iff l0]; norm_num)]

/-- What is known about the candidates for a foreground tone. -/
theorem candidates (hL : L.PowOk) {bg r : 𝔻} (hb : Fin bg) (hr : RatioOk r) :
    (Tone (lighterUnsafe bg r) ∧ (lighterUnsafe bg r = 100.0 ∨
      (val r ≤ val (ratioOfTones (lighterUnsafe bg r) bg) ∧ val bg ≤ val (lighterUnsafe bg r)))) ∧
    (Tone (darkerUnsafe bg r) ∧ (darkerUnsafe bg r = 0.0 ∨
      (val r ≤ val (ratioOfTones (darkerUnsafe bg r) bg) ∧ val (darkerUnsafe bg r) ≤ val bg))) := by
  have t100 : Tone (100.0 : 𝔻) := l100.tone (by norm_num) le_rfl
  have t0 : Tone (0.0 : 𝔻) := l0.tone le_rfl (by norm_num)
  by_cases ho : val bg < 0 ∨ 100 < val bg
  · obtain ⟨e1, e2⟩ := unsafe_out (r := r) hb ho
    rw [e1, e2]
    exact ⟨⟨t100, Or.inl rfl⟩, t0, Or.inl rfl⟩
  · push Not at ho
    obtain ⟨h0, h1⟩ := ho
    constructor
    · simp only [lighterUnsafe]
      by_cases hv : val (lighter bg r) = -1
      · rw [if_pos ((fin_of_neg hv).lt_iff l0 |>.2 (by norm_num))]
        exact ⟨t100, Or.inl rfl⟩
      · obtain ⟨a, b, c, d, e⟩ := c18_binary64_sound hL bg r hb hr.1 h0 h1 hr.2.1 hr.2.2 hv
        rw [if_neg (by rw [(is_of _ a).lt_iff l0]; linarith)]
        exact ⟨⟨a, b, c⟩, Or.inr ⟨e, by norm_num at d; linarith⟩⟩
    · simp only [darkerUnsafe]
      by_cases hv : val (darker bg r) = -1
      · rw [if_pos ((fin_of_neg hv).lt_iff l0 |>.2 (by norm_num))]
        exact ⟨t0, Or.inl rfl⟩
      · obtain ⟨a, b, c, d, e⟩ := c19_binary64_sound hL bg r hb hr.1 h0 h1 hr.2.1 hv
        rw [if_neg (by rw [(is_of _ a).lt_iff l0]; linarith)]
        exact ⟨⟨a, b, c⟩, Or.inr ⟨e, by norm_num at d; linarith⟩⟩

theorem fg_tone (hL : L.PowOk) {bg r : 𝔻} (hb : Fin bg) (hr : RatioOk r) : Tone (foregroundTone bg r) := by
  obtain ⟨⟨h1, -⟩, h2, -⟩ := candidates hL hb hr
  rcases foreground_cases bg r with e | e <;> rw [e] <;> assumption

/-- If neither white nor black is the answer to be beaten, the answer is the better one, up to 0.05. -/
theorem fg_extreme {bg r : 𝔻} {k : ℝ} (hb : Fin bg) (hr : Fin r) (hk : k ≤ 4.53) (hkr : k ≤ val r)
    (e1 : lighterUnsafe bg r = 100.0) (e2 : darkerUnsafe bg r = 0.0) :
    k ≤ val (ratioOfTones (foregroundTone bg r) bg) := by
  norm_num at hk
  have hρ : ρ = 1 / 10 ^ 12 := rfl
  have ir := is_of r hr
  obtain ⟨c, hc0, hc1, hc⟩ : ∃ c, 0 ≤ c ∧ c ≤ 100 ∧ c = yR (clampTone (val bg)) :=
    ⟨_, (yR_range (clampTone_range _).1 (clampTone_range _).2).1, (yR_range (clampTone_range _).1 (clampTone_range _).2).2, rfl⟩
  have ia := is_ratioC (l100 (L := L)) (is_of _ hb)
  have ib := is_ratioC (l0 (L := L)) (is_of _ hb)
  rw [clampTone_of_mem (by norm_num) le_rfl, yR_hundred, ← hc] at ia
  rw [clampTone_of_mem le_rfl (by norm_num), yR_zero, ← hc] at ib
  have hwb := white_or_black64 (R := 4.53125) (v := c) (by norm_num) ⟨145, -5, by norm_num, by norm_num, by norm_num⟩ hc0 hc1
  norm_num at hwb
  -- what the two ratios are
  have hP := abs_le.1 (rnd_close (v := c + 5) (by rw [abs_le]; constructor <;> linarith))
  obtain ⟨p0, p1⟩ := plus5 hc0 hc1
  have ha : ratioR 100 c = rnd (105 / rnd (c + 5)) := by
    unfold ratioR
    rw [max_eq_left hc1, min_eq_right hc1, show (100 : ℝ) + 5 = 105 by norm_num, rep105.rnd_eq]
  have hbb : ratioR 0 c = rnd (rnd (c + 5) / 5) := by
    unfold ratioR
    rw [max_eq_right hc0, min_eq_left hc0, zero_add, rep5.rnd_eq]
  have q0 : 0 ≤ 105 / rnd (c + 5) := by positivity
  have q1 : 105 / rnd (c + 5) ≤ 21 := by rw [div_le_iff₀ (by linarith)]; linarith
  have ea := abs_le.1 (rnd_close (v := 105 / rnd (c + 5)) (by rw [abs_of_nonneg q0]; linarith))
  have eb := abs_le.1 (rnd_close (v := rnd (c + 5) / 5) (by rw [abs_of_nonneg (by positivity)]; linarith))
  rw [← ha] at ea
  rw [← hbb] at eb
  have ea2 : 105 ≤ (ratioR 100 c + 1 / 10 ^ 11) * rnd (c + 5) := by
    rw [← div_le_iff₀ (by linarith)]; linarith [ea.1]
  generalize ratioR 100 c = a at *
  generalize ratioR 0 c = b at *
  generalize rnd (c + 5) = P at *
  have near : |a - b| ≤ 0.1001 → 4.53 ≤ a := by
    intro h
    have h := abs_le.1 h
    norm_num at h ⊢
    by_contra hn
    push Not at hn
    have : P ≤ 5 * (a + 0.1002) := by norm_num; linarith [eb.1]
    norm_num at this ea2
    nlinarith
  have va : val (ratioOfTones (100.0 : 𝔻) bg) = a := ia.2
  have vb : val (ratioOfTones (0.0 : 𝔻) bg) = b := ib.2
  simp only [foregroundTone, e1, e2, ge_iff_le, ir.le_iff ia, ir.le_iff ib, ib.le_iff ia, ia.le_iff ib, ia.lt_iff ir, ib.lt_iff ir]
  split
  · split
    · next hc =>
      rw [va]
      rcases hc with hc | hc | hc
      · linarith
      · rcases hwb with h | h <;> linarith
      · have hd := ia.ap.sub ib.ap (by
          have : |a - b| ≤ 22 := by rw [abs_le]; constructor <;> linarith [ea.1, ea.2, eb.1, eb.2]
          linarith)
        obtain ⟨d, id, hd⟩ := hd
        obtain ⟨z, iz, hz⟩ := (ap_lit (L := L) (m := 1) (s := true) (e := 1) (v := 0.1) rfl (by norm_num [abs_of_pos]))
        have hlt := (id.abs.lt_iff iz).1 hc.1
        have := abs_le.1 hz
        have hd := abs_le.1 hd
        have hd2 := abs_lt.1 hlt
        norm_num [hρ] at this hd
        have := near (by rw [abs_le]; norm_num; constructor <;> linarith)
        norm_num at this
        linarith
    · next hc =>
      rw [vb]
      push Not at hc
      rcases hwb with h | h <;> linarith
  · split
    · next hc =>
      rw [vb]
      rcases hc with hc | hc
      · linarith
      · rcases hwb with h | h <;> linarith
    · next hc =>
      rw [va]
      push Not at hc
      rcases hwb with h | h <;> linarith

/-- A foreground tone for ratio `r` has every contrast that is at most `r` and at most 4.53. -/
theorem fg_ge64 (hL : L.PowOk) {bg r : 𝔻} {k : ℝ} (hb : Fin bg) (hr : RatioOk r) (hk : k ≤ 4.53) (hkr : k ≤ val r) :
    k ≤ val (ratioOfTones (foregroundTone bg r) bg) := by
  obtain ⟨⟨t1, h1⟩, t2, h2⟩ := candidates hL hb hr
  have ia := is_ratioC (is_of _ t1.1) (is_of _ hb)
  have ib := is_ratioC (is_of _ t2.1) (is_of _ hb)
  rcases h1 with h1 | ⟨h1, -⟩
  · rcases h2 with h2 | ⟨h2, -⟩
    · exact fg_extreme hb hr.1 hk hkr h1 h2
    · exact hkr.trans (foreground_best ia ib (is_of r hr.1) (Or.inr (by rw [← show _ = _ from ib.2]; exact h2)))
  · exact hkr.trans (foreground_best ia ib (is_of r hr.1) (Or.inl (by rw [← show _ = _ from ia.2]; exact h1)))

theorem rnd_quot {X Y U V : ℝ} (hX : |U - X| ≤ 3 / 10 ^ 8) (hY : |V - Y| ≤ 3 / 10 ^ 8) (h0 : 5 ≤ Y) (h1 : Y ≤ X)
    (h2 : X ≤ 105) : |rnd (U / V) - X / Y| ≤ 1 / 10 ^ 6 := by
  have hX := abs_le.1 hX
  have hY := abs_le.1 hY
  norm_num at hX hY
  have hV : 4.9 ≤ V := by norm_num; linarith
  have hU : U ≤ 106 := by linarith
  norm_num at hV
  have q0 : 0 ≤ U / V := div_nonneg (by linarith) (by linarith)
  have q1 : U / V ≤ 30 := by rw [div_le_iff₀ (by linarith)]; linarith
  have e := abs_le.1 (rnd_close (v := U / V) (by rw [abs_of_nonneg q0]; linarith))
  have r1 : X / Y ≤ 21 := by rw [div_le_iff₀ (by linarith)]; linarith
  have r0 : 0 ≤ X / Y := div_nonneg (by linarith) (by linarith)
  have eX : X = X / Y * Y := (div_mul_cancel₀ X (by linarith)).symm
  have u1 : U / V ≤ X / Y + 5 / 10 ^ 7 := by
    rw [div_le_iff₀ (by linarith)]
    nlinarith
  have u2 : X / Y - 5 / 10 ^ 7 ≤ U / V := by
    rw [le_div_iff₀ (by linarith)]
    nlinarith
  rw [abs_le]
  norm_num at *
  constructor <;> linarith

/-- The computed ratio is close to the exact one of the tones. -/
theorem ratio_near {s t : 𝔻} {a b : ℝ} (hs : Is s a) (ht : Is t b) :
    |val (ratioOfTones s t) - ratioOfTones a b| ≤ 1 / 10 ^ 6 := by
  have main {s t : 𝔻} {a b : ℝ} (hs : Is s a) (ht : Is t b) (h : b ≤ a) :
      |val (ratioOfTones s t) - ratioOfTones a b| ≤ 1 / 10 ^ 6 := by
    have hm := clampTone_mono h
    rw [show val (ratioOfTones s t) = _ from (is_ratioC hs ht).2, ratioOfTones_of_le hm]
    obtain ⟨a0, a1⟩ := clampTone_range a
    obtain ⟨b0, b1⟩ := clampTone_range b
    obtain ⟨c, -, -, ic, hc⟩ := clamp_is s (fin_num hs.1)
    obtain ⟨d, -, -, id, hd⟩ := clamp_is t (fin_num ht.1)
    have ec : c = clampTone a := by rw [hc hs.1, show val s = a from hs.2]; rfl
    have ed : d = clampTone b := by rw [hd ht.1, show val t = b from ht.2]; rfl
    subst ec ed
    have n1 := abs_le.1 (yR_near ic a0 a1)
    have n2 := abs_le.1 (yR_near id b0 b1)
    obtain ⟨x0, x1⟩ := yR_range a0 a1
    obtain ⟨z0, z1⟩ := yR_range b0 b1
    have r1 := abs_le.1 (rnd_close (v := yR (clampTone a) + 5) (by rw [abs_le]; constructor <;> linarith))
    have r2 := abs_le.1 (rnd_close (v := yR (clampTone b) + 5) (by rw [abs_le]; constructor <;> linarith))
    have hy := yR_mono b0 hm a1
    have hyy := c11_strictMono.1.monotone hm
    obtain ⟨w0, w1⟩ := y_range b0 b1
    obtain ⟨v0, v1⟩ := y_range a0 a1
    unfold ratioR
    rw [max_eq_left hy, min_eq_right hy]
    norm_num at n1 n2 r1 r2
    refine rnd_quot ?_ ?_ (by linarith) (by linarith) (by linarith) <;> rw [abs_le] <;> norm_num <;> constructor <;> linarith
  rcases le_total b a with h | h
  · exact main hs ht h
  · rw [ratio_comm hs.1 ht.1, c17_symm]
    exact main ht hs h

theorem is_round {x : 𝔻} {a : ℝ} (hx : Is x a) (h : |a| ≤ 1000) : ∃ n : ℤ, Is (Fl.round x) n ∧ |n - a| ≤ 1 / 2 := by
  have h := abs_le.1 h
  obtain ⟨n, hn⟩ : ∃ n : ℤ, n = (fun v : ℝ => if 0 ≤ v then ⌊v + 1 / 2⌋ else ⌈v - 1 / 2⌉) (Dbl.val x) := ⟨_, rfl⟩
  have hd : |(n : ℝ) - a| ≤ 1 / 2 := by
    rw [hn, hx.2, abs_le]
    simp only
    split
    · constructor <;> linarith [Int.floor_le (a + 1 / 2), Int.lt_floor_add_one (a + 1 / 2)]
    · constructor <;> linarith [Int.le_ceil (a - 1 / 2), Int.ceil_lt_add_one (a - 1 / 2)]
  have hb : |n| ≤ 2 ^ 53 := by
    have := abs_le.1 hd
    have h1 : (n : ℝ) ≤ ((2000 : ℤ) : ℝ) := by norm_num; linarith
    have h2 : ((-2000 : ℤ) : ℝ) ≤ (n : ℝ) := by norm_num; linarith
    have h1 : n ≤ 2000 := by exact_mod_cast h1
    have h2 : -2000 ≤ n := by exact_mod_cast h2
    rw [abs_le]; constructor <;> omega
  exact ⟨n, is_toInteger (L := L) _ (by norm_num) x hx.1 n hn.symm hb, hd⟩

theorem l60 : Is (60.0 : 𝔻) 60 := by simpa using lit (L := L) 600 1 true 60 (by norm_num) (by norm_num)
theorem l50 : Is (50.0 : 𝔻) 50 := by simpa using lit (L := L) 500 1 true 50 (by norm_num) (by norm_num)
theorem l49 : Is (49.0 : 𝔻) 49 := by simpa using lit (L := L) 490 1 true 49 (by norm_num) (by norm_num)
theorem l10 : Is (10.0 : 𝔻) 10 := by simpa using lit (L := L) 100 1 true 10 (by norm_num) (by norm_num)

theorem prefers_light {x : 𝔻} {a : ℝ} (hx : Is x a) (h : |a| ≤ 1000) :
    (a < 59.4 → tonePrefersLightForeground x = true) ∧ (59.6 < a → tonePrefersLightForeground x = false) := by
  obtain ⟨n, hn, hd⟩ := is_round hx h
  have hd := abs_le.1 hd
  unfold tonePrefersLightForeground
  constructor <;> intro h <;> norm_num at h
  · rw [decide_eq_true_iff, hn.lt_iff l60]; linarith
  · rw [decide_eq_false_iff_not, hn.lt_iff l60, not_lt]
    have : ((59 : ℤ) : ℝ) < (n : ℝ) := by norm_num; linarith
    have : 59 < n := by exact_mod_cast this
    have : (60 : ℤ) ≤ n := by omega
    exact_mod_cast this

/-- On a dark tone the foreground is lighter. -/
theorem fg_light64 (hL : L.PowOk) {bg r : 𝔻} (hb : Tone bg) (h : val bg ≤ 45) (hr : RatioOk r) :
    val bg ≤ val (foregroundTone bg r) := by
  obtain ⟨⟨t1, h1⟩, t2, h2⟩ := candidates hL hb.1 hr
  have ir := is_of r hr.1
  have ia := is_ratioC (is_of _ t1.1) (is_of _ hb.1)
  have ib := is_ratioC (is_of _ t2.1) (is_of _ hb.1)
  have hp := (prefers_light (is_of bg hb.1) (by rw [abs_of_nonneg hb.2.1]; linarith)).1 (by norm_num; linarith)
  have ea : foregroundTone bg r = lighterUnsafe bg r := by
    simp only [foregroundTone, hp, if_true, ge_iff_le]
    rw [if_pos]
    rcases h1 with h1 | ⟨h1, -⟩
    · right; left
      rw [ib.le_iff ia, ← show _ = _ from ia.2, ← show _ = _ from ib.2]
      have y45 := y_le (t := val bg) (c := 45) h (by norm_num)
      have yb := y_range hb.2.1 hb.2.2
      have na := abs_le.1 (ratio_near (l100 (L := L)) (is_of _ hb.1))
      have nb := abs_le.1 (ratio_near (is_of _ t2.1) (is_of _ hb.1))
      rw [h1]
      rw [ratio_white hb.2.1 hb.2.2] at na
      have r1 : 5 ≤ 105 / (yFromLstar (val bg) + 5) := by
        rw [le_div_iff₀ (by linarith)]; norm_num at y45; linarith
      have hd : val (darkerUnsafe bg r) ≤ val bg := by
        rcases h2 with h2 | h2
        · rw [h2, show val (0.0 : 𝔻) = 0 from l0.2]; exact hb.2.1
        · exact h2.2
      have r2 : ratioOfTones (val (darkerUnsafe bg r)) (val bg) ≤ 4 := by
        rw [c17_symm]
        refine (c17_monotone _ _ _ _ hd le_rfl t2.2.1).trans ?_
        rw [c17_symm, ratio_black hb.2.1 hb.2.2, div_le_iff₀ (by norm_num)]
        norm_num at y45; linarith
      norm_num at na nb
      linarith
    · left; rw [ir.le_iff ia, ← show _ = _ from ia.2]; exact h1
  rw [ea]
  rcases h1 with h1 | h1
  · rw [h1, show val (100.0 : 𝔻) = 100 from l100.2]; exact hb.2.2
  · exact h1.2

/-- On a light tone the foreground is darker. -/
theorem fg_dark64 (hL : L.PowOk) {bg r : 𝔻} (hb : Tone bg) (h : 60 ≤ val bg) (hr : RatioOk r) :
    val (foregroundTone bg r) ≤ val bg := by
  obtain ⟨⟨t1, h1⟩, t2, h2⟩ := candidates hL hb.1 hr
  have ir := is_of r hr.1
  have ia := is_ratioC (is_of _ t1.1) (is_of _ hb.1)
  have ib := is_ratioC (is_of _ t2.1) (is_of _ hb.1)
  have hp := (prefers_light (is_of bg hb.1) (by rw [abs_of_nonneg hb.2.1]; linarith [hb.2.2])).2 (by norm_num; linarith)
  have ea : foregroundTone bg r = darkerUnsafe bg r := by
    simp only [foregroundTone, hp, Bool.false_eq_true, if_false, ge_iff_le]
    rw [if_pos]
    rcases h2 with h2 | ⟨h2, -⟩
    · right
      rw [ia.le_iff ib, ← show _ = _ from ia.2, ← show _ = _ from ib.2]
      have y60 := y_ge (t := val bg) (c := 60) h (by norm_num)
      have yb := y_range hb.2.1 hb.2.2
      have na := abs_le.1 (ratio_near (is_of _ t1.1) (is_of _ hb.1))
      have nb := abs_le.1 (ratio_near (l0 (L := L)) (is_of _ hb.1))
      rw [h2]
      rw [ratio_black hb.2.1 hb.2.2] at nb
      have r1 : 5 ≤ (yFromLstar (val bg) + 5) / 5 := by
        rw [le_div_iff₀ (by norm_num)]; norm_num at y60; linarith
      have hd : val bg ≤ val (lighterUnsafe bg r) := by
        rcases h1 with h1 | h1
        · rw [h1, show val (100.0 : 𝔻) = 100 from l100.2]; exact hb.2.2
        · exact h1.2
      have r2 : ratioOfTones (val (lighterUnsafe bg r)) (val bg) ≤ 4 := by
        refine (c17_monotone _ _ _ _ hd t1.2.2 le_rfl).trans ?_
        rw [ratio_white hb.2.1 hb.2.2, div_le_iff₀ (by linarith)]
        norm_num at y60; linarith
      norm_num at na nb
      linarith
    · left; rw [ir.le_iff ib, ← show _ = _ from ib.2]; exact h2
  rw [ea]
  rcases h2 with h2 | h2
  · rw [h2, show val (0.0 : 𝔻) = 0 from l0.2]; exact hb.2.1
  · exact h2.2

/-! ### Tone delta pairs -/

theorem is_clamp {x : 𝔻} {a : ℝ} (hx : Is x a) : Is (clampDouble 0.0 100.0 x) (clampTone a) := by
  obtain ⟨c, -, -, ic, hc⟩ := clamp_is x (fin_num hx.1)
  rw [hc hx.1, show val x = a from hx.2] at ic
  exact ic

theorem dbl_fmax (x y : Dbl) (hx : x.isNan = false) (hy : y.isNan = false) :
    Dbl.fmax x y = open Classical in if Dbl.lt x y then y else x := by
  simp only [Dbl.fmax, hx, hy, Bool.false_eq_true, if_false]

theorem dbl_fmin (x y : Dbl) (hx : x.isNan = false) (hy : y.isNan = false) :
    Dbl.fmin x y = open Classical in if Dbl.lt y x then y else x := by
  simp only [Dbl.fmin, hx, hy, Bool.false_eq_true, if_false]

theorem Is.fmax {x y : 𝔻} {a b : ℝ} (hx : Is x a) (hy : Is y b) : Is (Fl.fmax x y) (max a b) := by
  have h : Fl.fmax x y = open Classical in if (x < y) then y else x := by
    exact dbl_fmax x y (fin_num hx.1) (fin_num hy.1)
  rw [h]
  split
  · next hlt => rw [max_eq_right ((hx.lt_iff hy).1 hlt).le]; exact hy
  · next hlt => rw [max_eq_left (not_lt.1 (fun hh => hlt ((hx.lt_iff hy).2 hh)))]; exact hx

theorem Is.fmin {x y : 𝔻} {a b : ℝ} (hx : Is x a) (hy : Is y b) : Is (Fl.fmin x y) (min a b) := by
  have h : Fl.fmin x y = open Classical in if (y < x) then y else x := by
    exact dbl_fmin x y (fin_num hx.1) (fin_num hy.1)
  rw [h]
  split
  · next hlt => rw [min_eq_right ((hy.lt_iff hx).1 hlt).le]; exact hy
  · next hlt => rw [min_eq_left (not_lt.1 (fun hh => hlt ((hy.lt_iff hx).2 hh)))]; exact hx

/-- The distance of two tones in the direction `σ`, as it is computed. -/
theorem is_dist {n f dir : 𝔻} {N F σ : ℝ} (hn : Is n N) (hf : Is f F) (hd : Is dir σ) (hσ : σ = 1 ∨ σ = -1)
    (hN : |N| ≤ 101) (hF : |F| ≤ 101) : Is ((f - n) * dir) (σ * rnd (F - N)) := by
  have hN := abs_le.1 hN
  have hF := abs_le.1 hF
  have hb : |F - N| ≤ 2 ^ 8 := by rw [abs_le]; norm_num; constructor <;> linarith
  have i1 := hf.sub hn (small 8 (by norm_num) hb)
  have hr : Rep (rnd (F - N) * σ) := by
    rcases hσ with rfl | rfl
    · rw [mul_one]; exact rep_rnd _
    · rw [mul_neg, mul_one]; exact (rep_rnd _).neg
  have i2 := i1.mul hd (by
    rw [hr.rnd_eq]
    rcases hσ with rfl | rfl
    · rw [mul_one]; exact small 8 (by norm_num) hb
    · rw [mul_neg, mul_one, abs_neg]; exact small 8 (by norm_num) hb)
  rwa [hr.rnd_eq, mul_comm] at i2

theorem is_step {n d dir : 𝔻} {N D σ : ℝ} (hn : Is n N) (hd : Is d D) (hdir : Is dir σ) (hσ : σ = 1 ∨ σ = -1)
    (hN : |N| ≤ 101) (hD : |D| ≤ 101) : Is (n + d * dir) (rnd (N + D * σ)) ∧ Is (n - d * dir) (rnd (N - D * σ)) := by
  have hN := abs_le.1 hN
  have hD' := abs_le.1 hD
  have hr : Rep (D * σ) := by
    rcases hσ with rfl | rfl
    · rw [mul_one]; exact hd.rep
    · rw [mul_neg, mul_one]; exact hd.rep.neg
  have hb : |D * σ| ≤ 2 ^ 7 := by
    rw [abs_le]; norm_num
    rcases hσ with rfl | rfl <;> constructor <;> linarith
  have i1 := hd.mul hdir (small 7 (by norm_num) hb)
  rw [hr.rnd_eq] at i1
  have hb := abs_le.1 hb
  norm_num at hb
  exact ⟨hn.add i1 (small 8 (by norm_num) (by rw [abs_le]; norm_num; constructor <;> linarith)),
    hn.sub i1 (small 8 (by norm_num) (by rw [abs_le]; norm_num; constructor <;> linarith))⟩

/-- A pair of tones in the right order and at least 9.9999 apart. -/
def Spread (σ : ℝ) (p : 𝔻 × 𝔻) : Prop := ToneOk p.1 ∧ ToneOk p.2 ∧ 9.9999 ≤ σ * (val p.2 - val p.1)

theorem spread64 {n f d dir : 𝔻} {σ : ℝ} (hn : ToneOk n) (hf : ToneOk f) (hd : Is d 10) (hdir : Is dir σ)
    (hσ : σ = 1 ∨ σ = -1) : Spread σ (spreadTones n f d dir) := by
  obtain ⟨n1, n2, n3⟩ := hn
  obtain ⟨f1, f2, f3⟩ := hf
  have bN : |val n| ≤ 101 := by rw [abs_le]; norm_num at *; constructor <;> linarith
  have bF : |val f| ≤ 101 := by rw [abs_le]; norm_num at *; constructor <;> linarith
  have close {a b : ℝ} (ha : |a| ≤ 101) (hb : |b| ≤ 101) (h : 10 ≤ σ * rnd (a - b)) : 9.9999 ≤ σ * (a - b) := by
    have ha := abs_le.1 ha
    have hb := abs_le.1 hb
    have e := abs_le.1 (rnd_close (v := a - b) (by rw [abs_le]; constructor <;> linarith))
    norm_num at e ⊢
    rcases hσ with rfl | rfl <;> linarith
  have i1 := is_dist (is_of n n1) (is_of f f1) hdir hσ bN bF
  have i2 := is_clamp (is_step (is_of n n1) hd hdir hσ bN (by norm_num [abs_of_pos])).1
  simp only [spreadTones]
  split
  · next h =>
    replace h := (hd.le_iff i1).1 h
    exact ⟨⟨n1, n2, n3⟩, ⟨f1, f2, f3⟩, close bF bN h⟩
  · obtain ⟨G, hG⟩ : ∃ G, G = clampTone (rnd (val n + 10 * σ)) := ⟨_, rfl⟩
    obtain ⟨G0, G1⟩ := clampTone_range (rnd (val n + 10 * σ))
    rw [← hG] at i2 G0 G1
    have bG : |G| ≤ 101 := by rw [abs_le]; constructor <;> linarith
    generalize clampDouble 0.0 100.0 (n + d * dir) = g at *
    have i3 := is_dist (is_of n n1) i2 hdir hσ bN bG
    have hg : ToneOk g := (i2.tone G0 G1).ok
    have vg : val g = G := i2.2
    split
    · next h =>
      replace h := (hd.le_iff i3).1 h
      exact ⟨⟨n1, n2, n3⟩, hg, by simp only [vg]; exact close bG bN h⟩
    · have i4 := is_clamp (is_step i2 hd hdir hσ bG (by norm_num [abs_of_pos])).2
      obtain ⟨H0, H1⟩ := clampTone_range (rnd (G - 10 * σ))
      refine ⟨(i4.tone H0 H1).ok, hg, ?_⟩
      simp only [vg, show val (clampDouble 0.0 100.0 (g - d * dir)) = _ from i4.2]
      have e1 := abs_le.1 (rnd_close (v := val n + 10 * σ) (by
        have := abs_le.1 bN
        rw [abs_le]; rcases hσ with rfl | rfl <;> constructor <;> linarith))
      have e2 := abs_le.1 (rnd_close (v := G - 10 * σ) (by
        rw [abs_le]; rcases hσ with rfl | rfl <;> constructor <;> linarith))
      norm_num at e1 e2 n2 n3 ⊢
      obtain ⟨e11, e12⟩ := e1
      obtain ⟨e21, e22⟩ := e2
      have c1 := clampTone_cases (rnd (val n + 10 * σ))
      have c2 := clampTone_cases (rnd (G - 10 * σ))
      rw [← hG] at c1
      clear hG i4 H0 H1 close i1 i3 bG bN bF
      generalize clampTone (rnd (G - 10 * σ)) = C at *
      generalize rnd (val n + 10 * σ) = A at *
      generalize rnd (G - 10 * σ) = B at *
      rcases hσ with rfl | rfl <;>
        rcases c1 with ⟨c, c'⟩ | ⟨c, c', c''⟩ | ⟨c, c'⟩ <;>
        rcases c2 with ⟨k, k'⟩ | ⟨k, k', k''⟩ | ⟨k, k'⟩ <;>
        linarith

/-- Neither tone lies in [50, 60). -/
def Clear (t : 𝔻) : Prop := ¬ (50 ≤ val t ∧ val t < 60)

theorem awkward64 {n f d dir : 𝔻} {σ : ℝ} (h : Spread σ (n, f)) (hd : Is d 10) (hdir : Is dir σ)
    (hσ : σ = 1 ∨ σ = -1) (together : Bool) :
    Spread σ (avoidAwkward n f d dir together) ∧ Clear (avoidAwkward n f d dir together).1 ∧
      Clear (avoidAwkward n f d dir together).2 := by
  obtain ⟨⟨n1, n2, n3⟩, ⟨f1, f2, f3⟩, h3⟩ := h
  simp only at n1 n2 n3 f1 f2 f3 h3
  have i60 := (is_step (l60 (L := L)) hd hdir hσ (by norm_num [abs_of_pos]) (by norm_num [abs_of_pos])).1
  have i49 := (is_step (l49 (L := L)) hd hdir hσ (by norm_num [abs_of_pos]) (by norm_num [abs_of_pos])).1
  have r70 : rnd 70 = 70 := by simpa using (rep_int (n := 70) (by norm_num)).rnd_eq
  have r39 : rnd 39 = 39 := by simpa using (rep_int (n := 39) (by norm_num)).rnd_eq
  have j60 := (is_of f f1).fmax i60
  have j49 := (is_of f f1).fmin i49
  have hpos : (dir > (0.0 : 𝔻)) ↔ σ = 1 := by
    rw [gt_iff_lt, l0.lt_iff hdir]
    rcases hσ with rfl | rfl <;> norm_num
  simp only [avoidAwkward, (l50 (L := L)).le_iff (is_of n n1), (is_of n n1).lt_iff l60,
    (l50 (L := L)).le_iff (is_of f f1), (is_of f f1).lt_iff l60, hpos]
  have v60 : val (60.0 : 𝔻) = 60 := l60.2
  have v49 : val (49.0 : 𝔻) = 49 := l49.2
  have mk {x y : 𝔻} {X Y : ℝ} (hx : Is x X) (hy : Is y Y) (h1 : -(2 / 10 ^ 5) ≤ X ∧ X ≤ 100 + 2 / 10 ^ 5)
      (h2 : -(2 / 10 ^ 5) ≤ Y ∧ Y ≤ 100 + 2 / 10 ^ 5) (h3 : 9.9999 ≤ σ * (Y - X)) (h4 : X < 50 ∨ 60 ≤ X)
      (h5 : Y < 50 ∨ 60 ≤ Y) : Spread σ (x, y) ∧ Clear x ∧ Clear y := by
    obtain ⟨hx, rfl⟩ := hx
    obtain ⟨hy, rfl⟩ := hy
    refine ⟨⟨⟨hx, h1⟩, ⟨hy, h2⟩, h3⟩, fun h => ?_, fun h => ?_⟩
    · rcases h4 with h4 | h4 <;> linarith [h.1, h.2]
    · rcases h5 with h5 | h5 <;> linarith [h.1, h.2]
  have inn := is_of n n1
  have iff' := is_of f f1
  generalize val n = N at *
  generalize val f = F at *
  norm_num at n2 n3 f2 f3 h3 mk
  have hclear {X : ℝ} (h : ¬ (50 ≤ X ∧ X < 60)) : X < 50 ∨ 60 ≤ X := by
    by_contra hc; push Not at hc; exact h hc
  rcases hσ with rfl | rfl
  · rw [show (60 : ℝ) + 10 * 1 = 70 by norm_num, r70] at j60
    simp only [if_true]
    have hm1 := le_max_left F 70
    have hm2 := le_max_right F 70
    have hm3 : max F 70 ≤ 5000001 / 50000 := max_le (by linarith) (by norm_num)
    by_cases c1 : 50 ≤ N ∧ N < 60
    · rw [if_pos c1]
      exact mk l60 j60 (by norm_num) (by norm_num) (by linarith) hm3 (by linarith) (by norm_num) (Or.inr (by linarith))
    · rw [if_neg c1]
      by_cases c2 : 50 ≤ F ∧ F < 60
      · rw [if_pos c2]
        cases together
        · simp only [Bool.false_eq_true, if_false]
          have : N < 50 := by
            rcases hclear c1 with h | h
            · exact h
            · linarith [c2.2]
          exact mk inn l60 (by linarith) (by linarith) (by norm_num) (by norm_num) (by linarith) (Or.inl this) (by norm_num)
        · simp only [if_true]
          exact mk l60 j60 (by norm_num) (by norm_num) (by linarith) hm3 (by linarith) (by norm_num) (Or.inr (by linarith))
      · rw [if_neg c2]
        exact mk inn iff' (by linarith) (by linarith) (by linarith) (by linarith) (by linarith) (hclear c1) (hclear c2)
  · rw [show (49 : ℝ) + 10 * -1 = 39 by norm_num, r39] at j49
    have hne : ¬ ((-1 : ℝ) = 1) := by norm_num
    simp only [if_neg hne]
    have hm1 := min_le_left F 39
    have hm2 := min_le_right F 39
    have hm3 : -(1 / 50000) ≤ min F 39 := le_min (by linarith) (by norm_num)
    by_cases c1 : 50 ≤ N ∧ N < 60
    · rw [if_pos c1]
      exact mk l49 j49 (by norm_num) (by norm_num) (by linarith) (by linarith) (by linarith) (by norm_num) (Or.inl (by linarith))
    · rw [if_neg c1]
      by_cases c2 : 50 ≤ F ∧ F < 60
      · rw [if_pos c2]
        cases together
        · simp only [Bool.false_eq_true, if_false]
          have : 60 ≤ N := by
            rcases hclear c1 with h | h
            · linarith [c2.1]
            · exact h
          exact mk inn l49 (by linarith) (by linarith) (by norm_num) (by norm_num) (by linarith) (Or.inr this) (by norm_num)
        · simp only [if_true]
          exact mk l49 j49 (by norm_num) (by norm_num) (by linarith) (by linarith) (by linarith) (by norm_num) (Or.inl (by linarith))
      · rw [if_neg c2]
        exact mk inn iff' (by linarith) (by linarith) (by linarith) (by linarith) (by linarith) (hclear c1) (hclear c2)

theorem goodEnough_ok (hL : L.PowOk) {bg i k : 𝔻} (hb : Fin bg) (hi : ToneOk i) (hk : RatioOk k) :
    ToneOk (goodEnough bg i k) := by
  unfold goodEnough
  split
  · exact hi
  · exact (fg_tone hL hb hk).ok

theorem pair64 (hL : L.PowOk) {bg nc fc ni fi d dir : 𝔻} {σ : ℝ} (dec together : Bool) (hb : Fin bg) (hnc : RatioOk nc)
    (hfc : RatioOk fc) (hni : ToneOk ni) (hfi : ToneOk fi) (hd : Is d 10) (hdir : Is dir σ) (hσ : σ = 1 ∨ σ = -1) :
    let r := pairTones dec bg nc fc ni fi d dir together
    Spread σ r ∧ Clear r.1 ∧ Clear r.2 := by
  simp only [pairTones]
  refine awkward64 (spread64 ?_ ?_ hd hdir hσ) hd hdir hσ together
  · split
    · exact (fg_tone hL hb hnc).ok
    · exact goodEnough_ok hL hb hni hnc
  · split
    · exact (fg_tone hL hb hfc).ok
    · exact goodEnough_ok hL hb hfi hfc

end Mcu.Lemmas
