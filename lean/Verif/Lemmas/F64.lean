import Verif.F64

/-! What the operations of binary64 compute on finite doubles. -/

namespace Mcu.Lemmas

open Mcu.Ieee Mcu

variable {L : Libm}

/-- The double is finite and has the given value. -/
def Is (x : F64 L) (a : ℝ) : Prop := Dbl.Fin x ∧ Dbl.val x = a

theorem Is.rep {x : F64 L} {a : ℝ} (h : Is x a) : Rep a := by
  obtain ⟨h1, rfl⟩ := h
  rcases x with _ | s | s | ⟨v, hv⟩
  · exact h1.elim
  · exact h1.elim
  · exact ⟨0, 0, by norm_num, by norm_num, by simp [Dbl.val]⟩
  · exact hv.1

theorem Is.lt_max {x : F64 L} {a : ℝ} (h : Is x a) : |a| < 2 ^ 1024 := by
  obtain ⟨h1, rfl⟩ := h
  rcases x with _ | s | s | ⟨v, hv⟩
  · exact h1.elim
  · exact h1.elim
  · simp [Dbl.val]
  · exact hv.2.2

theorem Is.unique {x : F64 L} {a b : ℝ} (h : Is x a) (h' : Is x b) : a = b := h.2.symm.trans h'.2

theorem is_ofReal (s : Bool) {v : ℝ} (h : |rnd v| < 2 ^ 1024) : Is (L := L) (Dbl.ofReal s v) (rnd v) := by
  unfold Dbl.ofReal
  by_cases h0 : rnd v = 0
  · rw [dif_pos h0, h0]; exact ⟨trivial, rfl⟩
  · rw [dif_neg h0, dif_pos h]; exact ⟨trivial, rfl⟩

theorem Is.neg {x : F64 L} {a : ℝ} (h : Is x a) : Is (-x) (-a) := by
  obtain ⟨h1, rfl⟩ := h
  rcases x with _ | s | s | ⟨v, hv⟩
  · exact h1.elim
  · exact h1.elim
  · exact ⟨trivial, by show (0 : ℝ) = -0; norm_num⟩
  · exact ⟨trivial, rfl⟩

theorem Is.abs {x : F64 L} {a : ℝ} (h : Is x a) : Is (Fl.abs x) |a| := by
  obtain ⟨h1, rfl⟩ := h
  rcases x with _ | s | s | ⟨v, hv⟩
  · exact h1.elim
  · exact h1.elim
  · exact ⟨trivial, by show (0 : ℝ) = |0|; norm_num⟩
  · exact ⟨trivial, rfl⟩

theorem is_sum (s : Bool) {c : ℝ} (h : |rnd c| < 2 ^ 1024) {d : Dbl}
    (hd : d = open Classical in if c = 0 then Dbl.zero s else Dbl.ofReal false c) : Is (L := L) d (rnd c) := by
  by_cases h0 : c = 0
  · rw [if_pos h0] at hd; subst hd; rw [h0, rnd_zero]; exact ⟨trivial, rfl⟩
  · rw [if_neg h0] at hd; subst hd; exact is_ofReal _ h

theorem Is.add {x y : F64 L} {a b : ℝ} (hx : Is x a) (hy : Is y b) (h : |rnd (a + b)| < 2 ^ 1024) :
    Is (x + y) (rnd (a + b)) := by
  obtain ⟨h1, rfl⟩ := hx
  obtain ⟨h2, rfl⟩ := hy
  rcases x with _ | s | s | ⟨v, hv⟩
  · exact h1.elim
  · exact h1.elim
  all_goals
    rcases y with _ | t | t | ⟨w, hw⟩
    · exact h2.elim
    · exact h2.elim
    · exact is_sum _ h rfl
    · exact is_sum _ h rfl

theorem Is.sub {x y : F64 L} {a b : ℝ} (hx : Is x a) (hy : Is y b) (h : |rnd (a - b)| < 2 ^ 1024) :
    Is (x - y) (rnd (a - b)) := by
  rw [sub_eq_add_neg] at h ⊢
  exact hx.add hy.neg h

theorem Is.mul {x y : F64 L} {a b : ℝ} (hx : Is x a) (hy : Is y b) (h : |rnd (a * b)| < 2 ^ 1024) :
    Is (x * y) (rnd (a * b)) := by
  obtain ⟨h1, rfl⟩ := hx
  obtain ⟨h2, rfl⟩ := hy
  rcases x with _ | s | s | ⟨v, hv⟩
  · exact h1.elim
  · exact h1.elim
  all_goals
    rcases y with _ | t | t | ⟨w, hw⟩
    · exact h2.elim
    · exact h2.elim
    · exact is_ofReal _ h
    · exact is_ofReal _ h

theorem Is.div {x y : F64 L} {a b : ℝ} (hx : Is x a) (hy : Is y b) (hb : b ≠ 0) (h : |rnd (a / b)| < 2 ^ 1024) :
    Is (x / y) (rnd (a / b)) := by
  obtain ⟨h1, rfl⟩ := hx
  obtain ⟨h2, rfl⟩ := hy
  rcases y with _ | t | t | ⟨w, hw⟩
  · exact h2.elim
  · exact h2.elim
  · exact absurd rfl hb
  rcases x with _ | s | s | ⟨v, hv⟩
  · exact h1.elim
  · exact h1.elim
  · exact is_ofReal _ h
  · exact is_ofReal _ h

/-- The remainder of truncated division of two representable numbers is representable. -/
theorem rep_fmod {a b : ℝ} (ha : Rep a) (hb : Rep b) (h0 : b ≠ 0) : Rep (a - b * (realTrunc (a / b) : ℤ)) ∧
    |a - b * (realTrunc (a / b) : ℤ)| < |b| ∧ |a - b * (realTrunc (a / b) : ℤ)| ≤ |a| := by
  set k := realTrunc (a / b) with hk
  have hab : a / b * b = a := div_mul_cancel₀ a h0
  -- the remainder is smaller than the divisor and not larger than the dividend
  have hq : 0 ≤ (a / b - k) * (a / b) ∧ |a / b - k| < 1 ∧ |a / b - k| ≤ |a / b| := by
    rw [hk]
    unfold realTrunc
    split_ifs with h
    · have h1 := Int.floor_le (a / b)
      have h2 := Int.lt_floor_add_one (a / b)
      have h3 : (0 : ℝ) ≤ ⌊a / b⌋ := by exact_mod_cast Int.floor_nonneg.2 h
      refine ⟨mul_nonneg (by linarith) h, ?_, ?_⟩
      · rw [abs_lt]; constructor <;> linarith
      · rw [abs_of_nonneg (by linarith), abs_of_nonneg h]; linarith
    · push Not at h
      have h1 := Int.le_ceil (a / b)
      have h2 := Int.ceil_lt_add_one (a / b)
      have h3 : (⌈a / b⌉ : ℝ) ≤ 0 := by exact_mod_cast Int.ceil_nonpos.2 h.le
      refine ⟨mul_nonneg_of_nonpos_of_nonpos (by linarith) h.le, ?_, ?_⟩
      · rw [abs_lt]; constructor <;> linarith
      · rw [abs_of_nonpos (by linarith), abs_of_nonpos h.le]; linarith
  have er : a - b * k = (a / b - k) * b := by rw [sub_mul, hab]; ring
  have hb0 : 0 < |b| := abs_pos.2 h0
  have r1 : |a - b * k| < |b| := by
    rw [er, abs_mul]; nlinarith [hq.2.1]
  have r2 : |a - b * k| ≤ |a| := by
    rw [er, abs_mul]
    calc _ ≤ |a / b| * |b| := mul_le_mul_of_nonneg_right hq.2.2 hb0.le
      _ = |a| := by rw [← abs_mul, hab]
  refine ⟨?_, r1, r2⟩
  obtain ⟨m, e, hm, he, ea⟩ := ha
  obtain ⟨n, f, hn, hf, eb⟩ := hb
  rcases le_total e f with hef | hef
  · obtain ⟨d, hd⟩ := Int.eq_ofNat_of_zero_le (sub_nonneg.2 hef)
    have ee : a - b * k = ((m - n * 2 ^ d * k : ℤ) : ℝ) * 2 ^ e := by
      rw [ea, eb, show f = e + d by omega, zpow_add₀ (by norm_num)]
      push_cast; rw [zpow_natCast]; ring
    refine ⟨_, e, ?_, he, ee⟩
    rw [ee, ea, abs_mul, abs_mul, abs_of_pos (two_zpow_pos e)] at r2
    have := le_of_mul_le_mul_right r2 (two_zpow_pos e)
    have : |(m - n * 2 ^ d * k : ℤ)| ≤ |m| := by exact_mod_cast this
    omega
  · obtain ⟨d, hd⟩ := Int.eq_ofNat_of_zero_le (sub_nonneg.2 hef)
    have ee : a - b * k = ((m * 2 ^ d - n * k : ℤ) : ℝ) * 2 ^ f := by
      rw [ea, eb, show e = f + d by omega, zpow_add₀ (by norm_num)]
      push_cast; rw [zpow_natCast]; ring
    refine ⟨_, f, ?_, hf, ee⟩
    rw [ee, eb, abs_mul, abs_mul, abs_of_pos (two_zpow_pos f)] at r1
    have := lt_of_mul_lt_mul_right r1 (two_zpow_pos f).le
    have : |(m * 2 ^ d - n * k : ℤ)| < |n| := by exact_mod_cast this
    omega

/-- `%` is exact. -/
theorem Is.fmod {x y : F64 L} {a b : ℝ} (hx : Is x a) (hy : Is y b) (h0 : b ≠ 0) :
    Is (Fl.fmod x y) (a - b * (realTrunc (a / b) : ℤ)) := by
  obtain ⟨r, -, hle⟩ := rep_fmod hx.rep hy.rep h0
  have hlt := hx.lt_max
  have e := r.rnd_eq
  have h : |rnd (a - b * (realTrunc (a / b) : ℤ))| < 2 ^ 1024 := by rw [e]; exact hle.trans_lt hlt
  rw [← e]
  obtain ⟨h1, rfl⟩ := hx
  obtain ⟨h2, rfl⟩ := hy
  rcases y with _ | t | t | ⟨w, hw⟩
  · exact h2.elim
  · exact h2.elim
  · exact absurd rfl h0
  rcases x with _ | s | s | ⟨v, hv⟩
  · exact h1.elim
  · exact h1.elim
  · exact is_ofReal _ h
  · exact is_ofReal _ h

theorem Is.lt_iff {x y : F64 L} {a b : ℝ} (hx : Is x a) (hy : Is y b) : x < y ↔ a < b := by
  obtain ⟨h1, rfl⟩ := hx
  obtain ⟨h2, rfl⟩ := hy
  show Dbl.lt x y ↔ _
  rcases x with _ | s | s | ⟨v, hv⟩
  · exact h1.elim
  · exact h1.elim
  all_goals
    rcases y with _ | t | t | ⟨w, hw⟩
    · exact h2.elim
    · exact h2.elim
    all_goals
      simp only [Dbl.lt, Dbl.isNan, Dbl.ext, true_and, EReal.coe_lt_coe_iff]

theorem Is.le_iff {x y : F64 L} {a b : ℝ} (hx : Is x a) (hy : Is y b) : x ≤ y ↔ a ≤ b := by
  obtain ⟨h1, rfl⟩ := hx
  obtain ⟨h2, rfl⟩ := hy
  show Dbl.le x y ↔ _
  rcases x with _ | s | s | ⟨v, hv⟩
  · exact h1.elim
  · exact h1.elim
  all_goals
    rcases y with _ | t | t | ⟨w, hw⟩
    · exact h2.elim
    · exact h2.elim
    all_goals
      simp only [Dbl.le, Dbl.isNan, Dbl.ext, true_and, EReal.coe_le_coe_iff]

theorem Is.beq_iff {x y : F64 L} {a b : ℝ} (hx : Is x a) (hy : Is y b) : (x == y) = true ↔ a = b := by
  obtain ⟨h1, rfl⟩ := hx
  obtain ⟨h2, rfl⟩ := hy
  show Dbl.beq x y = true ↔ _
  rcases x with _ | s | s | ⟨v, hv⟩
  · exact h1.elim
  · exact h1.elim
  all_goals
    rcases y with _ | t | t | ⟨w, hw⟩
    · exact h2.elim
    · exact h2.elim
    all_goals
      simp only [Dbl.beq, Dbl.isNan, Dbl.ext, true_and, EReal.coe_eq_coe_iff, decide_eq_true_eq]

/-- Integers up to 2^53 convert exactly. -/
theorem is_ofInt {n : ℤ} (h : |n| ≤ 2 ^ 53) : Is (Fl.ofInt n : F64 L) n := by
  have e := (rep_int h).rnd_eq
  have := is_ofReal (L := L) false (v := (n : ℝ)) (by
    rw [e, ← Int.cast_abs]
    have : ((|n| : ℤ) : ℝ) ≤ ((2 ^ 53 : ℤ) : ℝ) := by exact_mod_cast h
    refine this.trans_lt ?_
    rw [show ((2 ^ 53 : ℤ) : ℝ) = (2 : ℝ) ^ 53 by norm_num]
    exact pow_lt_pow_right₀ (by norm_num) (by norm_num))
  rw [e] at this
  exact this

/-- Decimal literals. -/
theorem is_lit {m e : ℕ} {s : Bool} {v : ℝ} (hv : (OfScientific.ofScientific m s e : ℝ) = v) (h : |v| ≤ 2 ^ 1000) :
    Is (OfScientific.ofScientific m s e : F64 L) (rnd v) := by
  have := is_ofReal (L := L) false (v := v) (by
    rw [← rnd_abs]
    have h2 : Rep (2 ^ 1000 : ℝ) := by
      have := rep_zpow (e := 1000) (by norm_num)
      rwa [show ((2 : ℝ) ^ (1000 : ℤ)) = 2 ^ 1000 by rw [← zpow_natCast]; norm_num] at this
    refine (h2.rnd_le h).trans_lt ?_
    exact pow_lt_pow_right₀ (by norm_num) (by norm_num))
  rw [← hv] at this ⊢
  exact this

/-- Literals that are integers. -/
theorem is_lit_int {m e : ℕ} {s : Bool} {n : ℤ} (hv : (OfScientific.ofScientific m s e : ℝ) = n) (h : |n| ≤ 2 ^ 53) :
    Is (OfScientific.ofScientific m s e : F64 L) n := by
  have := is_lit (L := L) hv (by
    rw [← Int.cast_abs]
    have : ((|n| : ℤ) : ℝ) ≤ ((2 ^ 53 : ℤ) : ℝ) := by exact_mod_cast h
    refine this.trans ?_
    rw [show ((2 ^ 53 : ℤ) : ℝ) = (2 : ℝ) ^ 53 by norm_num]
    exact pow_le_pow_right₀ (by norm_num) (by norm_num))
  rwa [(rep_int h).rnd_eq] at this

end Mcu.Lemmas
