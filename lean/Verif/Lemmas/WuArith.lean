import Verif.FlReal
import Verif.Lemmas.Real
import Verif.Lemmas.F64Approx

/-! What the Wu quantizer needs from its floating point numbers: comparisons of non-negative numbers form a total order, and
rounding a small integer gives that integer.  Exact reals and IEEE-754 binary64 numbers (even with NaN and infinities around)
satisfy this. -/

namespace Mcu

/-- The literal zero or a number above it. -/
def NonNeg {F : Type} [Fl F] (x : F) : Prop := x = 0.0 ∨ (0.0 : F) < x

class WuArith (F : Type) [Fl F] : Prop where
  lt_trans : ∀ x y z : F, x < y → y < z → x < z
  le_trans : ∀ x y z : F, NonNeg x → NonNeg y → NonNeg z → x ≤ y → y ≤ z → x ≤ z
  total : ∀ x y : F, NonNeg x → NonNeg y → x ≤ y ∨ y ≤ x
  zero_le : ∀ x : F, NonNeg x → (0.0 : F) ≤ x
  pos_not_le : ∀ x : F, (0.0 : F) < x → ¬ x ≤ 0.0
  mean : ∀ q : Int, 0 ≤ q → q ≤ 255 → Fl.toI64 (Fl.round (Fl.ofInt q : F)) = q

instance : WuArith ℝ where
  lt_trans _ _ _ := lt_trans
  le_trans _ _ _ _ _ _ := le_trans
  total x y _ _ := le_total x y
  zero_le x h := by
    rcases h with h | h
    · exact h.ge
    · exact h.le
  pos_not_le _ h := not_le.2 h
  mean q h0 h1 := by
    rw [fl_ofInt, fl_round, realRound_intCast, fl_toI64, realTrunc_intCast]
    unfold satI64
    omega

open Mcu.Ieee Mcu.Lemmas

theorem zero_num (L : Libm) : Dbl.isNan (0.0 : F64 L) = false := by
  have h : Is (0.0 : F64 L) ((0 : Int) : ℝ) := is_lit_int (by norm_num) (by norm_num)
  revert h
  generalize (0.0 : F64 L) = z
  rintro ⟨h, -⟩
  rcases z with _ | _ | _ | _
  · exact h.elim
  all_goals rfl

instance (L : Libm) : WuArith (F64 L) where
  lt_trans _ _ _ h h' := ⟨h.1, h'.2.1, h.2.2.trans h'.2.2⟩
  le_trans _ _ _ _ _ _ h h' := ⟨h.1, h'.2.1, h.2.2.trans h'.2.2⟩
  total x y hx hy := by
    have num {z : F64 L} (h : NonNeg z) : Dbl.isNan z = false := by
      rcases h with rfl | h
      · exact zero_num L
      · exact h.2.1
    rcases le_total (Dbl.ext x) (Dbl.ext y) with h | h
    · exact Or.inl ⟨num hx, num hy, h⟩
    · exact Or.inr ⟨num hy, num hx, h⟩
  zero_le x h := by
    rcases h with rfl | h
    · exact ⟨zero_num L, zero_num L, le_refl _⟩
    · exact ⟨h.1, h.2.1, h.2.2.le⟩
  pos_not_le x h h' := absurd h'.2.2 (not_le.2 h.2.2)
  mean q h0 h1 := by
    have h : |q| ≤ 1000 := by rw [abs_of_nonneg h0]; omega
    exact (is_ofInt (L := L) (n := q) (h.trans (by norm_num))).ap.toI64_round (by norm_num) h

end Mcu
