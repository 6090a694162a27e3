import Mathlib.Data.Real.Basic
import Mathlib.Tactic.Linarith
import Mathlib.Tactic.Positivity
import Mathlib.Tactic.Ring
import Mathlib.Tactic.NormNum
import Mathlib.Tactic.FieldSimp

/-! Interval arithmetic in fixed point, evaluated by the kernel. -/

namespace Mcu.Lemmas

/-- An interval: the ends are multiplied by `2 ^ 44`. -/
structure Itv where
  lo : Int
  hi : Int

namespace Itv

/-- What the number lies in the interval means. -/
def Mem (x : ℝ) (i : Itv) : Prop := (i.lo : ℝ) ≤ x * 17592186044416 ∧ x * 17592186044416 ≤ (i.hi : ℝ)

def add (x y : Itv) : Itv := ⟨Int.add x.lo y.lo, Int.add x.hi y.hi⟩
def sub (x y : Itv) : Itv := ⟨Int.sub x.lo y.hi, Int.sub x.hi y.lo⟩
def down (a : Int) : Int := Int.ediv a 17592186044416
def up (a : Int) : Int := Int.ediv a 17592186044416 + 1

def mul (x y : Itv) : Itv :=
  match x.lo, y.lo with
  | .ofNat a, .ofNat b => ⟨.ofNat (Nat.div (Nat.mul a b) 17592186044416),
      .ofNat (Nat.succ (Nat.div (Nat.mul x.hi.toNat y.hi.toNat) 17592186044416))⟩
  | _, _ => ⟨down (min (min (x.lo * y.lo) (x.lo * y.hi)) (min (x.hi * y.lo) (x.hi * y.hi))),
      up (max (max (x.lo * y.lo) (x.lo * y.hi)) (max (x.hi * y.lo) (x.hi * y.hi)))⟩

/-- The inverse of an interval of positive numbers. -/
def inv (x : Itv) : Itv := ⟨.ofNat (Nat.div 309485009821345068724781056 x.hi.toNat),
  .ofNat (Nat.succ (Nat.div 309485009821345068724781056 x.lo.toNat))⟩

def pos (x : Itv) : Bool := match x.lo with
  | .ofNat a => Nat.blt 0 a
  | _ => false

def nonneg (x : Itv) : Bool := match x.lo with
  | .ofNat _ => true
  | _ => false

def negative (x : Itv) : Bool := match x.hi with
  | .ofNat _ => false
  | _ => true

variable {x y : ℝ} {i j : Itv}

theorem mem_add (hx : Mem x i) (hy : Mem y j) : Mem (x + y) (add i j) := by
  obtain ⟨a, b⟩ := hx; obtain ⟨c, d⟩ := hy
  constructor
  · show ((i.lo + j.lo : Int) : ℝ) ≤ _; push_cast; linarith
  · show _ ≤ ((i.hi + j.hi : Int) : ℝ); push_cast; linarith

theorem mem_sub (hx : Mem x i) (hy : Mem y j) : Mem (x - y) (sub i j) := by
  obtain ⟨a, b⟩ := hx; obtain ⟨c, d⟩ := hy
  constructor
  · show ((i.lo - j.hi : Int) : ℝ) ≤ _; push_cast; linarith
  · show _ ≤ ((i.hi - j.lo : Int) : ℝ); push_cast; linarith

theorem down_le (a : Int) : ((down a : Int) : ℝ) * 17592186044416 ≤ (a : ℝ) := by
  have h : down a * 17592186044416 ≤ a := Int.ediv_mul_le a (by norm_num)
  exact_mod_cast h

theorem le_up (a : Int) : (a : ℝ) ≤ ((up a : Int) : ℝ) * 17592186044416 := by
  have h : a < (Int.ediv a 17592186044416 + 1) * 17592186044416 := Int.lt_ediv_add_one_mul_self a (by norm_num)
  have : a ≤ up a * 17592186044416 := h.le
  exact_mod_cast this

theorem mul_corner {a b c d x y : ℝ} (h1 : a ≤ x) (h2 : x ≤ b) (h3 : c ≤ y) (h4 : y ≤ d) :
    min (min (a * c) (a * d)) (min (b * c) (b * d)) ≤ x * y ∧ x * y ≤ max (max (a * c) (a * d)) (max (b * c) (b * d)) := by
  constructor
  · rcases le_total 0 y with hy | hy
    · have e : a * y ≤ x * y := mul_le_mul_of_nonneg_right h1 hy
      rcases le_total 0 a with ha | ha
      · exact ((min_le_left _ _).trans (min_le_left _ _)).trans ((mul_le_mul_of_nonneg_left h3 ha).trans e)
      · exact ((min_le_left _ _).trans (min_le_right _ _)).trans ((mul_le_mul_of_nonpos_left h4 ha).trans e)
    · have e : b * y ≤ x * y := mul_le_mul_of_nonpos_right h2 hy
      rcases le_total 0 b with ha | ha
      · exact ((min_le_right _ _).trans (min_le_left _ _)).trans ((mul_le_mul_of_nonneg_left h3 ha).trans e)
      · exact ((min_le_right _ _).trans (min_le_right _ _)).trans ((mul_le_mul_of_nonpos_left h4 ha).trans e)
  · rcases le_total 0 y with hy | hy
    · have e : x * y ≤ b * y := mul_le_mul_of_nonneg_right h2 hy
      rcases le_total 0 b with ha | ha
      · exact (e.trans (mul_le_mul_of_nonneg_left h4 ha)).trans ((le_max_right _ _).trans (le_max_right _ _))
      · exact (e.trans (mul_le_mul_of_nonpos_left h3 ha)).trans ((le_max_left _ _).trans (le_max_right _ _))
    · have e : x * y ≤ a * y := mul_le_mul_of_nonpos_right h1 hy
      rcases le_total 0 a with ha | ha
      · exact (e.trans (mul_le_mul_of_nonneg_left h4 ha)).trans ((le_max_right _ _).trans (le_max_left _ _))
      · exact (e.trans (mul_le_mul_of_nonpos_left h3 ha)).trans ((le_max_left _ _).trans (le_max_left _ _))

theorem mem_mul (hx : Mem x i) (hy : Mem y j) : Mem (x * y) (mul i j) := by
  obtain ⟨a, b⟩ := hx; obtain ⟨c, d⟩ := hy
  have key := mul_corner a b c d
  obtain ⟨il, ih⟩ := i
  obtain ⟨jl, jh⟩ := j
  simp only at a b c d key
  have gen : Mem (x * y) ⟨down (min (min (il * jl) (il * jh)) (min (ih * jl) (ih * jh))),
      up (max (max (il * jl) (il * jh)) (max (ih * jl) (ih * jh)))⟩ := by
    obtain ⟨k1, k2⟩ := key
    have l := down_le (min (min (il * jl) (il * jh)) (min (ih * jl) (ih * jh)))
    have u := le_up (max (max (il * jl) (il * jh)) (max (ih * jl) (ih * jh)))
    constructor
    · simp only
      push_cast at l ⊢
      nlinarith
    · simp only
      push_cast at u ⊢
      nlinarith
  unfold mul
  split
  next p q hp hq =>
    simp only at hp hq
    subst hp hq
    have hp0 : (0 : ℝ) ≤ p := Nat.cast_nonneg p
    have hq0 : (0 : ℝ) ≤ q := Nat.cast_nonneg q
    have a' : (p : ℝ) ≤ x * 17592186044416 := by simpa using a
    have c' : (q : ℝ) ≤ y * 17592186044416 := by simpa using c
    have hx0 : 0 ≤ x * 17592186044416 := hp0.trans a'
    have hy0 : 0 ≤ y * 17592186044416 := hq0.trans c'
    have hih : (0 : ℝ) ≤ (ih : ℝ) := hx0.trans b
    have hjh : (0 : ℝ) ≤ (jh : ℝ) := hy0.trans d
    have eih : ((ih.toNat : ℕ) : ℝ) = (ih : ℝ) := by
      have : (ih.toNat : ℤ) = ih := Int.toNat_of_nonneg (by exact_mod_cast hih)
      exact_mod_cast this
    have ejh : ((jh.toNat : ℕ) : ℝ) = (jh : ℝ) := by
      have : (jh.toNat : ℤ) = jh := Int.toNat_of_nonneg (by exact_mod_cast hjh)
      exact_mod_cast this
    constructor
    · show ((Int.ofNat ((p * q) / 17592186044416) : ℤ) : ℝ) ≤ _
      have h1 : (p * q) / 17592186044416 * 17592186044416 ≤ p * q := Nat.div_mul_le_self _ _
      have h2 : (((p * q / 17592186044416 : ℕ)) : ℝ) * 17592186044416 ≤ (p : ℝ) * q := by exact_mod_cast h1
      have h3 : (p : ℝ) * q ≤ (x * 17592186044416) * (y * 17592186044416) := mul_le_mul a' c' hq0 hx0
      have e : ((Int.ofNat ((p * q) / 17592186044416) : ℤ) : ℝ) = (((p * q / 17592186044416 : ℕ)) : ℝ) := Int.cast_natCast _
      rw [e]
      nlinarith
    · show _ ≤ ((Int.ofNat (Nat.succ ((ih.toNat * jh.toNat) / 17592186044416)) : ℤ) : ℝ)
      have h1 : ih.toNat * jh.toNat < (ih.toNat * jh.toNat / 17592186044416 + 1) * 17592186044416 := by
        have := Nat.div_add_mod (ih.toNat * jh.toNat) 17592186044416
        have := Nat.mod_lt (ih.toNat * jh.toNat) (show 0 < 17592186044416 by norm_num)
        omega
      have h2 : (ih : ℝ) * jh ≤ ((ih.toNat * jh.toNat / 17592186044416 + 1 : ℕ) : ℝ) * 17592186044416 := by
        rw [← eih, ← ejh]; exact_mod_cast h1.le
      have h3 : (x * 17592186044416) * (y * 17592186044416) ≤ (ih : ℝ) * jh := mul_le_mul b d hy0 hih
      have e : ((Int.ofNat (Nat.succ ((ih.toNat * jh.toNat) / 17592186044416)) : ℤ) : ℝ) =
        ((ih.toNat * jh.toNat / 17592186044416 + 1 : ℕ) : ℝ) := Int.cast_natCast _
      rw [e]
      nlinarith
  · exact gen

theorem pos_of (hp : pos i = true) (hx : Mem x i) : 0 < x := by
  unfold pos at hp
  split at hp
  · next a ha =>
    have h1 : 1 ≤ a := by simpa [Nat.blt] using hp
    have h2 := hx.1
    rw [ha] at h2
    have h3 : (0 : ℝ) < ((Int.ofNat a : ℤ) : ℝ) := by
      have : (0 : ℝ) < (a : ℝ) := by exact_mod_cast h1
      exact this.trans_eq (Int.cast_natCast a).symm
    linarith
  · exact absurd hp (by simp)

theorem nonneg_of (hp : nonneg i = true) (hx : Mem x i) : 0 ≤ x := by
  unfold nonneg at hp
  split at hp
  · next a ha =>
    have h2 := hx.1
    rw [ha] at h2
    have h3 : (0 : ℝ) ≤ ((Int.ofNat a : ℤ) : ℝ) := by simp
    linarith
  · exact absurd hp (by simp)

theorem negative_of (hp : negative i = true) (hx : Mem x i) : x < 0 := by
  unfold negative at hp
  split at hp
  · exact absurd hp (by simp)
  · next h =>
    have h2 := hx.2
    have h3 : i.hi < 0 := by
      rcases hh : i.hi with a | a
      · exact absurd hh (h a)
      · exact Int.negSucc_lt_zero a
    have h4 : (i.hi : ℝ) < 0 := by exact_mod_cast h3
    linarith

theorem mem_inv (hp : pos i = true) (hx : Mem x i) : Mem (1 / x) (inv i) := by
  have hx0 := pos_of hp hx
  obtain ⟨a, b⟩ := hx
  have hlo : 0 < i.lo := by
    unfold pos at hp
    split at hp
    · next n hn =>
      have h1 : 1 ≤ n := by simpa [Nat.blt] using hp
      rw [hn]; exact Int.natCast_pos.2 h1
    · exact absurd hp (by simp)
  have hlo' : (0 : ℝ) < i.lo := by exact_mod_cast hlo
  have hhi' : (0 : ℝ) < i.hi := by
    have : 0 < x * 17592186044416 := by positivity
    linarith
  have hhi : 0 < i.hi := by exact_mod_cast hhi'
  have el : ((i.lo.toNat : ℕ) : ℝ) = (i.lo : ℝ) := by
    have : (i.lo.toNat : ℤ) = i.lo := Int.toNat_of_nonneg hlo.le
    exact_mod_cast this
  have eh : ((i.hi.toNat : ℕ) : ℝ) = (i.hi : ℝ) := by
    have : (i.hi.toNat : ℤ) = i.hi := Int.toNat_of_nonneg hhi.le
    exact_mod_cast this
  constructor
  · show ((Int.ofNat (309485009821345068724781056 / i.hi.toNat) : ℤ) : ℝ) ≤ _
    have h1 := Nat.div_mul_le_self 309485009821345068724781056 i.hi.toNat
    have h2 : ((309485009821345068724781056 / i.hi.toNat : ℕ) : ℝ) * (i.hi : ℝ) ≤ 309485009821345068724781056 := by
      rw [← eh]; exact_mod_cast h1
    have e : ((Int.ofNat (309485009821345068724781056 / i.hi.toNat) : ℤ) : ℝ) = ((309485009821345068724781056 / i.hi.toNat : ℕ) : ℝ) := Int.cast_natCast _
    rw [e, one_div, inv_mul_eq_div, le_div_iff₀ hx0]
    have h3 : (0 : ℝ) ≤ ((309485009821345068724781056 / i.hi.toNat : ℕ) : ℝ) := Nat.cast_nonneg _
    generalize ((309485009821345068724781056 / i.hi.toNat : ℕ) : ℝ) = z at *
    nlinarith
  · show _ ≤ ((Int.ofNat (Nat.succ (309485009821345068724781056 / i.lo.toNat)) : ℤ) : ℝ)
    have h1 : 309485009821345068724781056 < (309485009821345068724781056 / i.lo.toNat + 1) * i.lo.toNat := by
      have h0 : 0 < i.lo.toNat := by omega
      exact Nat.lt_mul_of_div_lt (Nat.lt_succ_self _) h0
    have h2 : (309485009821345068724781056 : ℝ) ≤ ((309485009821345068724781056 / i.lo.toNat + 1 : ℕ) : ℝ) * (i.lo : ℝ) := by
      rw [← el]; exact_mod_cast h1.le
    have e : ((Int.ofNat (Nat.succ (309485009821345068724781056 / i.lo.toNat)) : ℤ) : ℝ) = ((309485009821345068724781056 / i.lo.toNat + 1 : ℕ) : ℝ) := Int.cast_natCast _
    rw [e, one_div, inv_mul_eq_div, div_le_iff₀ hx0]
    have h3 : (0 : ℝ) ≤ ((309485009821345068724781056 / i.lo.toNat + 1 : ℕ) : ℝ) := Nat.cast_nonneg _
    generalize ((309485009821345068724781056 / i.lo.toNat + 1 : ℕ) : ℝ) = z at *
    nlinarith

end Itv

end Mcu.Lemmas
