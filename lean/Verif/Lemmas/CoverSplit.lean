import Verif.Lemmas.Cover

/-! A box is covered when its halves are: lets a check be cut into pieces. -/

namespace Mcu.Lemmas

variable {kx kz kt : Int} {test : Cell → Bool} {n : Nat} {x z t l r : Itv}

theorem cover_z (hw : (decide (x.width * kx ≤ z.width * kz) && decide (t.width * kt ≤ z.width * kz)) = true) (e : (z.left, z.right) = (l, r))
    (hl : cover kx kz kt test n x l t = true) (hr : cover kx kz kt test n x r t = true) : cover kx kz kt test (n + 1) x z t = true := by
  obtain ⟨rfl, rfl⟩ := Prod.mk.inj e
  unfold cover
  rw [hw, cond_true, hl, hr]
  cases (Cell.of x z t).ok && test (Cell.of x z t) <;> rfl

theorem cover_x (hw : (!(decide (x.width * kx ≤ z.width * kz) && decide (t.width * kt ≤ z.width * kz)) && decide (t.width * kt ≤ x.width * kx)) = true) (e : (x.left, x.right) = (l, r))
    (hl : cover kx kz kt test n l z t = true) (hr : cover kx kz kt test n r z t = true) : cover kx kz kt test (n + 1) x z t = true := by
  obtain ⟨rfl, rfl⟩ := Prod.mk.inj e
  rw [Bool.and_eq_true, Bool.not_eq_true'] at hw
  unfold cover
  rw [hw.1, hw.2, cond_true, cond_false, hl, hr]
  cases (Cell.of x z t).ok && test (Cell.of x z t) <;> rfl

theorem cover_t (hw : (!(decide (x.width * kx ≤ z.width * kz) && decide (t.width * kt ≤ z.width * kz)) && !decide (t.width * kt ≤ x.width * kx)) = true) (e : (t.left, t.right) = (l, r))
    (hl : cover kx kz kt test n x z l = true) (hr : cover kx kz kt test n x z r = true) : cover kx kz kt test (n + 1) x z t = true := by
  obtain ⟨rfl, rfl⟩ := Prod.mk.inj e
  rw [Bool.and_eq_true, Bool.not_eq_true', Bool.not_eq_true'] at hw
  unfold cover
  rw [hw.1, hw.2, cond_false, cond_false, hl, hr]
  cases (Cell.of x z t).ok && test (Cell.of x z t) <;> rfl

end Mcu.Lemmas
