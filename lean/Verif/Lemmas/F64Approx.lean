import Verif.Lemmas.F64
import Verif.Lemmas.Srgb
import Mathlib.Analysis.SpecialFunctions.Exp

/-! Doubles that are close to a real number, and how the distance grows with each operation.  Only numbers up to 1000
occur, so one rounding adds at most `ρ`. -/

namespace Mcu.Lemmas

open Mcu.Ieee Mcu ColorUtils MathUtils

variable {L : Libm}

/-- A bound for the rounding error of one operation with a result of at most 1000. -/
noncomputable def ρ : ℝ := 1 / 10 ^ 12

theorem ρ_pos : 0 < ρ := by unfold ρ; norm_num

/-- A finite double within `δ` of `a`. -/
def Ap (x : F64 L) (a δ : ℝ) : Prop := ∃ v, Is x v ∧ |v - a| ≤ δ

theorem Ap.weaken {x : F64 L} {a δ ε : ℝ} (h : Ap x a δ) (hle : δ ≤ ε) : Ap x a ε := by
  obtain ⟨v, hv, hd⟩ := h; exact ⟨v, hv, hd.trans hle⟩

theorem Ap.nonneg {x : F64 L} {a δ : ℝ} (h : Ap x a δ) : 0 ≤ δ := by
  obtain ⟨v, -, hd⟩ := h; exact (abs_nonneg _).trans hd

theorem Ap.shift {x : F64 L} {a b δ ε : ℝ} (h : Ap x a δ) (hb : |a - b| ≤ ε) : Ap x b (δ + ε) := by
  obtain ⟨v, hv, hd⟩ := h
  refine ⟨v, hv, ?_⟩
  calc |v - b| = |(v - a) + (a - b)| := by congr 1; ring
    _ ≤ _ := abs_add_le _ _
    _ ≤ _ := add_le_add hd hb

theorem Is.ap {x : F64 L} {a : ℝ} (h : Is x a) : Ap x a 0 := ⟨a, h, by rw [sub_self, abs_zero]⟩

theorem rnd_ok {v : ℝ} (h : |v| ≤ 1000) : |rnd v| < 2 ^ 1024 ∧ |rnd v - v| ≤ ρ := by
  have h2 : Rep (2 ^ 10 : ℝ) := by
    have := rep_zpow (e := 10) (by norm_num)
    simpa using this
  have e := rnd_error v
  have h3 : (2 : ℝ) ^ (-1075 : ℤ) ≤ 2 ^ (-53 : ℤ) := zpow_le_zpow_right₀ (by norm_num) (by norm_num)
  have h4 : (2 : ℝ) ^ (-53 : ℤ) ≤ 1 / 8000000000000000 := by norm_num
  refine ⟨?_, ?_⟩
  · rw [← rnd_abs]
    exact (h2.rnd_le (h.trans (by norm_num))).trans_lt (pow_lt_pow_right₀ (by norm_num) (by norm_num))
  · refine e.trans ?_
    have : |v| * (2 : ℝ) ^ (-53 : ℤ) ≤ 1000 * (1 / 8000000000000000) :=
      mul_le_mul h h4 (two_zpow_pos _).le (by norm_num)
    refine (add_le_add this (h3.trans h4)).trans ?_
    unfold ρ; norm_num

theorem ap_rnd {x : F64 L} {w a δ : ℝ} (hx : |w| ≤ 1000 → |rnd w| < 2 ^ 1024 → Is x (rnd w)) (hw : |w - a| ≤ δ)
    (hb : |a| + δ ≤ 1000) : Ap x a (δ + ρ) := by
  have hw' : |w| ≤ 1000 := by
    have := abs_add_le (w - a) a
    rw [sub_add_cancel] at this; linarith
  obtain ⟨h1, h2⟩ := rnd_ok hw'
  refine ⟨_, hx hw' h1, ?_⟩
  calc |rnd w - a| = |(rnd w - w) + (w - a)| := by congr 1; ring
    _ ≤ _ := abs_add_le _ _
    _ ≤ _ := by linarith

theorem Ap.add {x y : F64 L} {a b δ ε : ℝ} (hx : Ap x a δ) (hy : Ap y b ε) (hb : |a + b| + (δ + ε) ≤ 1000) :
    Ap (x + y) (a + b) (δ + ε + ρ) := by
  obtain ⟨v, hv, hd⟩ := hx
  obtain ⟨w, hw, he⟩ := hy
  refine ap_rnd (fun _ h => hv.add hw h) ?_ hb
  calc |v + w - (a + b)| = |(v - a) + (w - b)| := by congr 1; ring
    _ ≤ _ := abs_add_le _ _
    _ ≤ _ := add_le_add hd he

theorem Ap.sub {x y : F64 L} {a b δ ε : ℝ} (hx : Ap x a δ) (hy : Ap y b ε) (hb : |a - b| + (δ + ε) ≤ 1000) :
    Ap (x - y) (a - b) (δ + ε + ρ) := by
  obtain ⟨v, hv, hd⟩ := hx
  obtain ⟨w, hw, he⟩ := hy
  refine ap_rnd (fun _ h => hv.sub hw h) ?_ hb
  calc |v - w - (a - b)| = |(v - a) - (w - b)| := by congr 1; ring
    _ ≤ |v - a| + |w - b| := abs_sub _ _
    _ ≤ _ := add_le_add hd he

theorem Ap.mul {x y : F64 L} {a b δ ε A B : ℝ} (hx : Ap x a δ) (hy : Ap y b ε) (ha : |a| ≤ A) (hb : |b| ≤ B)
    (hM : A * B + (A * ε + B * δ + δ * ε) ≤ 1000) : Ap (x * y) (a * b) (A * ε + B * δ + δ * ε + ρ) := by
  have hδ := hx.nonneg
  obtain ⟨v, hv, hd⟩ := hx
  obtain ⟨w, hw, he⟩ := hy
  have hA : 0 ≤ A := (abs_nonneg _).trans ha
  refine ap_rnd (fun _ h => hv.mul hw h) ?_ ?_
  · calc |v * w - a * b| = |a * (w - b) + (b * (v - a) + (v - a) * (w - b))| := by congr 1; ring
      _ ≤ |a * (w - b)| + (|b * (v - a)| + |(v - a) * (w - b)|) :=
        (abs_add_le _ _).trans (add_le_add le_rfl (abs_add_le _ _))
      _ ≤ A * ε + (B * δ + δ * ε) := by
        rw [abs_mul, abs_mul, abs_mul]
        exact add_le_add (mul_le_mul ha he (abs_nonneg _) hA)
          (add_le_add (mul_le_mul hb hd (abs_nonneg _) ((abs_nonneg _).trans hb))
            (mul_le_mul hd he (abs_nonneg _) hδ))
      _ = _ := by ring
  · rw [abs_mul]
    have : |a| * |b| ≤ A * B := mul_le_mul ha hb (abs_nonneg _) hA
    linarith

theorem Ap.div {x y : F64 L} {a b δ ε β Q : ℝ} (hx : Ap x a δ) (hy : Ap y b ε) (hb : β ≤ |b|) (hβ : ε < β)
    (hQ : |a| ≤ Q * β) (hM : Q + (δ + Q * ε) / (β - ε) ≤ 1000) :
    Ap (x / y) (a / b) ((δ + Q * ε) / (β - ε) + ρ) := by
  have hε := hy.nonneg
  have hδ := hx.nonneg
  obtain ⟨v, hv, hd⟩ := hx
  obtain ⟨w, hw, he⟩ := hy
  have hb0 : 0 < |b| := by linarith
  have hβ0 : 0 < β := by linarith
  have hbne : b ≠ 0 := abs_pos.1 hb0
  have hw1 : β - ε ≤ |w| := by
    have := abs_sub_abs_le_abs_sub b w
    rw [abs_sub_comm b w] at this
    linarith
  have hw0 : 0 < |w| := by linarith
  have hwne : w ≠ 0 := abs_pos.1 hw0
  have hq0 : 0 ≤ Q := by
    by_contra hc
    push Not at hc
    have := mul_neg_of_neg_of_pos hc hβ0
    linarith [abs_nonneg a]
  have hq : |a / b| ≤ Q := by
    rw [abs_div, div_le_iff₀ hb0]
    exact hQ.trans (mul_le_mul_of_nonneg_left hb hq0)
  refine ap_rnd (fun _ h => hv.div hw hwne h) ?_ (by linarith)
  have e : v / w - a / b = ((v - a) - a / b * (w - b)) / w := by
    field_simp; ring
  rw [e, abs_div, div_le_div_iff₀ hw0 (by linarith)]
  have h1 : |(v - a) - a / b * (w - b)| ≤ δ + Q * ε := by
    refine (abs_sub _ _).trans (add_le_add hd ?_)
    rw [abs_mul]
    exact mul_le_mul hq he (abs_nonneg _) hq0
  exact mul_le_mul h1 hw1 (by linarith) (by positivity)

theorem ap_lit {m e : ℕ} {s : Bool} {v : ℝ} (hv : (OfScientific.ofScientific m s e : ℝ) = v) (h : |v| ≤ 1000) :
    Ap (OfScientific.ofScientific m s e : F64 L) v ρ := by
  refine ⟨rnd v, is_lit hv (h.trans ?_), (rnd_ok h).2⟩
  calc (1000 : ℝ) ≤ 2 ^ 10 := by norm_num
    _ ≤ 2 ^ 1000 := pow_le_pow_right₀ (by norm_num) (by norm_num)

theorem Ap.neg {x : F64 L} {a δ : ℝ} (h : Ap x a δ) : Ap (-x) (-a) δ := by
  obtain ⟨v, hv, hd⟩ := h
  refine ⟨-v, hv.neg, ?_⟩
  rw [show -v - -a = -(v - a) by ring, abs_neg]; exact hd

/-- A comparison that is not too close comes out as for the real numbers. -/
theorem Ap.lt_of {x y : F64 L} {a b δ ε : ℝ} (hx : Ap x a δ) (hy : Ap y b ε) (h : a + δ + ε < b) : x < y := by
  obtain ⟨v, hv, hd⟩ := hx
  obtain ⟨w, hw, he⟩ := hy
  rw [hv.lt_iff hw]
  have := abs_le.1 hd
  have := abs_le.1 he
  linarith

theorem Ap.le_of {x y : F64 L} {a b δ ε : ℝ} (hx : Ap x a δ) (hy : Ap y b ε) (h : a + δ + ε ≤ b) : x ≤ y := by
  obtain ⟨v, hv, hd⟩ := hx
  obtain ⟨w, hw, he⟩ := hy
  rw [hv.le_iff hw]
  have := abs_le.1 hd
  have := abs_le.1 he
  linarith

theorem Ap.not_lt_of {x y : F64 L} {a b δ ε : ℝ} (hx : Ap x a δ) (hy : Ap y b ε) (h : b + ε + δ ≤ a) : ¬ x < y := by
  obtain ⟨v, hv, hd⟩ := hx
  obtain ⟨w, hw, he⟩ := hy
  rw [hv.lt_iff hw]
  have := abs_le.1 hd
  have := abs_le.1 he
  linarith

theorem Ap.not_le_of {x y : F64 L} {a b δ ε : ℝ} (hx : Ap x a δ) (hy : Ap y b ε) (h : b + ε + δ < a) : ¬ x ≤ y := by
  obtain ⟨v, hv, hd⟩ := hx
  obtain ⟨w, hw, he⟩ := hy
  rw [hv.le_iff hw]
  have := abs_le.1 hd
  have := abs_le.1 he
  linarith

theorem is_toInteger (f : ℝ → ℤ) (hf0 : f 0 = 0) (d : Dbl) (hd : Dbl.Fin d) (n : ℤ) (hn : f d.val = n)
    (hb : |n| ≤ 2 ^ 53) : Is (L := L) (Dbl.toInteger f d) (n : ℝ) := by
  subst hn
  rcases d with _ | s | s | ⟨u, hu⟩
  · exact hd.elim
  · exact hd.elim
  · refine ⟨trivial, ?_⟩
    show (0 : ℝ) = ((f 0 : ℤ) : ℝ)
    rw [hf0, Int.cast_zero]
  · have hr : rnd ((f u : ℤ) : ℝ) = (f u : ℤ) := (rep_int hb).rnd_eq
    have := is_ofReal (L := L) (Dbl.neg? (Dbl.num u hu)) (v := ((f u : ℤ) : ℝ)) (by
      rw [hr, ← Int.cast_abs]
      have : ((|f u| : ℤ) : ℝ) ≤ ((2 ^ 53 : ℤ) : ℝ) := by exact_mod_cast hb
      refine this.trans_lt ?_
      rw [show ((2 ^ 53 : ℤ) : ℝ) = (2 : ℝ) ^ 53 by norm_num]
      exact pow_lt_pow_right₀ (by norm_num) (by norm_num))
    rw [hr] at this
    exact this

theorem Is.toI64 {x : F64 L} {a : ℝ} (h : Is x a) : Fl.toI64 x = satI64 (realTrunc a) := by
  obtain ⟨f1, f2⟩ := h
  subst f2
  rcases x with _ | s | s | ⟨u, hu⟩
  · exact f1.elim
  · exact f1.elim
  · rfl
  · rfl

/-- `round` then `as i64`. -/
theorem Ap.toI64_round {x : F64 L} {a δ : ℝ} {n : ℤ} (hx : Ap x a δ) (h : |a - n| + δ < 1 / 2) (hn : |n| ≤ 1000) :
    Fl.toI64 (Fl.round x) = n := by
  obtain ⟨v, hv, hd⟩ := hx
  have hvn : |v - n| < 1 / 2 := by
    calc |v - n| = |(v - a) + (a - n)| := by congr 1; ring
      _ ≤ _ := abs_add_le _ _
      _ < _ := by linarith
  have key : (fun v : ℝ => if 0 ≤ v then ⌊v + 1 / 2⌋ else ⌈v - 1 / 2⌉) (Dbl.val x) = n := by
    have h' := abs_lt.1 hvn
    rw [hv.2]
    simp only
    split
    · rw [Int.floor_eq_iff]; constructor <;> linarith
    · rw [Int.ceil_eq_iff]; constructor <;> linarith
  have hi := is_toInteger (L := L) (fun v : ℝ => if 0 ≤ v then ⌊v + 1 / 2⌋ else ⌈v - 1 / 2⌉)
    (by norm_num) x hv.1 n key (by omega)
  have hi : Is (Fl.round x) ((n : ℤ) : ℝ) := hi
  rw [hi.toI64, realTrunc_intCast]
  unfold satI64
  have := abs_le.1 hn
  omega

end Mcu.Lemmas
