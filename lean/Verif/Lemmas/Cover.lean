import Verif.Lemmas.Cell
import Verif.Lemmas.Gamut

/-! Tests on boxes: linear inequalities between the linear RGB components and their growth rates. -/

namespace Mcu.Lemmas

open Itv Flow

/-- The matrix from stimuli to linear RGB, times 10 ^ 16 (columns). -/
def col0 (a b c : Int) : Int := a * 13732198709594231000 + b * (-2718159690779030000) + c * 19622899599665666
def col1 (a b c : Int) : Int := a * (-11004251190754821000) + b * 5596580465940733000 + c * (-571738145388440060)
def col2 (a b c : Int) : Int := a * (-72786810891012130) + b * (-324604748279119400) + c * 3087233197812385000

/-- The linear RGB components, divided by the green stimulus. -/
noncomputable def lin0 (x z : ℝ) : ℝ := x ^ 50 * 1373.2198709594231 + (-1100.4251190754821) + z ^ 50 * (-7.278681089101213)
noncomputable def lin1 (x z : ℝ) : ℝ := x ^ 50 * (-271.815969077903) + 559.6580465940733 + z ^ 50 * (-32.46047482791194)
noncomputable def lin2 (x z : ℝ) : ℝ := x ^ 50 * 1.9622899599665666 + (-57.173814538844006) + z ^ 50 * 308.7233197812385

/-- Their growth rates, times 0.42. -/
noncomputable def flow0 (q x z t : ℝ) : ℝ := x ^ 50 * (1373.2198709594231 * f0 q x z t) + (-1100.4251190754821) * f1 q x z t
  + z ^ 50 * ((-7.278681089101213) * f2 q x z t)
noncomputable def flow1 (q x z t : ℝ) : ℝ := x ^ 50 * ((-271.815969077903) * f0 q x z t) + 559.6580465940733 * f1 q x z t
  + z ^ 50 * ((-32.46047482791194) * f2 q x z t)
noncomputable def flow2 (q x z t : ℝ) : ℝ := x ^ 50 * (1.9622899599665666 * f0 q x z t) + (-57.173814538844006) * f1 q x z t
  + z ^ 50 * (308.7233197812385 * f2 q x z t)

/-- A decimal fraction with 26 digits after the point. -/
def frac (n : Int) : Itv := ⟨Int.ediv (n * 17592186044416) 100000000000000000000000000,
  Int.ediv (n * 17592186044416) 100000000000000000000000000 + 1⟩

theorem mem_frac (n : Int) : Mem ((n : ℝ) / 10 ^ 26) (frac n) := by
  have h1 : Int.ediv (n * 17592186044416) 100000000000000000000000000 * 100000000000000000000000000 ≤ n * 17592186044416 :=
    Int.ediv_mul_le _ (by norm_num)
  have h2 : n * 17592186044416 < (Int.ediv (n * 17592186044416) 100000000000000000000000000 + 1) * 100000000000000000000000000 :=
    Int.lt_ediv_add_one_mul_self _ (by norm_num)
  unfold Mem frac
  simp only
  have h1' : ((Int.ediv (n * 17592186044416) 100000000000000000000000000 : ℤ) : ℝ) * 100000000000000000000000000 ≤ n * 17592186044416 := by
    exact_mod_cast h1
  have h2' : (n : ℝ) * 17592186044416 ≤ (((Int.ediv (n * 17592186044416) 100000000000000000000000000 + 1 : ℤ)) : ℝ) * 100000000000000000000000000 := by
    exact_mod_cast h2.le
  constructor
  · rw [div_mul_eq_mul_div, le_div_iff₀ (by norm_num)]
    norm_num at *; exact h1'
  · rw [div_mul_eq_mul_div, div_le_iff₀ (by norm_num)]
    norm_num at *; exact h2'

/-- A linear combination of the components and of their growth rates; the coefficients are multiplied by 10 ^ 10. -/
structure Lin where
  a0 : Int
  a1 : Int
  a2 : Int
  b0 : Int
  b1 : Int
  b2 : Int

namespace Lin

noncomputable def val (g : Lin) (q x z t : ℝ) : ℝ :=
  ((g.a0 : ℝ) * lin0 x z + g.a1 * lin1 x z + g.a2 * lin2 x z + g.b0 * flow0 q x z t + g.b1 * flow1 q x z t + g.b2 * flow2 q x z t) / 10 ^ 10

def eval (g : Lin) (c : Cell) : Itv :=
  ((c.b0.mul ((frac (col0 g.a0 g.a1 g.a2)).add ((frac (col0 g.b0 g.b1 g.b2)).mul c.f0))).add
    ((frac (col1 g.a0 g.a1 g.a2)).add ((frac (col1 g.b0 g.b1 g.b2)).mul c.f1))).add
    (c.b2.mul ((frac (col2 g.a0 g.a1 g.a2)).add ((frac (col2 g.b0 g.b1 g.b2)).mul c.f2)))

theorem eval_mem (g : Lin) {c : Cell} {q x z t : ℝ} (h : c.Has q x z t) : Mem (g.val q x z t) (g.eval c) := by
  have := mem_add (mem_add (mem_mul h.b0 (mem_add (mem_frac (col0 g.a0 g.a1 g.a2)) (mem_mul (mem_frac (col0 g.b0 g.b1 g.b2)) h.f0)))
    (mem_add (mem_frac (col1 g.a0 g.a1 g.a2)) (mem_mul (mem_frac (col1 g.b0 g.b1 g.b2)) h.f1)))
    (mem_mul h.b2 (mem_add (mem_frac (col2 g.a0 g.a1 g.a2)) (mem_mul (mem_frac (col2 g.b0 g.b1 g.b2)) h.f2)))
  unfold eval
  refine (congrArg (fun v => Mem v _) ?_).mp this
  unfold val lin0 lin1 lin2 flow0 flow1 flow2 col0 col1 col2
  push_cast
  ring

end Lin

/-- A linear condition on the components; the coefficients are multiplied by 10 ^ 10. -/
structure Cut where
  a0 : Int
  a1 : Int
  a2 : Int
  k : Int

namespace Cut

noncomputable def val (g : Cut) (x z t : ℝ) : ℝ :=
  ((g.a0 : ℝ) * lin0 x z + g.a1 * lin1 x z + g.a2 * lin2 x z) / 10 ^ 10 * t ^ 50 + g.k / 10 ^ 10

def eval (g : Cut) (c : Cell) : Itv :=
  (((((c.b0.mul (frac (col0 g.a0 g.a1 g.a2))).add (frac (col1 g.a0 g.a1 g.a2))).add
    (c.b2.mul (frac (col2 g.a0 g.a1 g.a2))))).mul c.t50).add (frac (g.k * 10000000000000000))

theorem eval_mem (g : Cut) {c : Cell} {q x z t : ℝ} (h : c.Has q x z t) : Mem (g.val x z t) (g.eval c) := by
  have := mem_add (mem_mul (mem_add (mem_add (mem_mul h.b0 (mem_frac (col0 g.a0 g.a1 g.a2))) (mem_frac (col1 g.a0 g.a1 g.a2)))
    (mem_mul h.b2 (mem_frac (col2 g.a0 g.a1 g.a2)))) h.t50) (mem_frac (g.k * 10000000000000000))
  unfold eval
  refine (congrArg (fun v => Mem v _) ?_).mp this
  unfold val lin0 lin1 lin2 col0 col1 col2
  push_cast
  ring

end Cut

def outside (cuts : List Cut) (c : Cell) : Bool := cuts.any fun k => (k.eval c).negative

theorem not_outside {cuts : List Cut} {c : Cell} {q x z t : ℝ} (h : c.Has q x z t) (hc : ∀ k ∈ cuts, 0 ≤ k.val x z t) :
    outside cuts c = false := by
  unfold outside
  rw [List.any_eq_false]
  intro k hk hn
  exact absurd (hc k hk) (not_le.2 (negative_of hn (k.eval_mem h)))

def linTest (cuts : List Cut) (g : Lin) (c : Cell) : Bool := outside cuts c || (g.eval c).nonneg

theorem lin_sound {kx kz kt : Int} {cuts : List Cut} {g : Lin} (n : Nat) {X Z T : Itv}
    (h : cover kx kz kt (linTest cuts g) n X Z T = true) {q x z t : ℝ} (hq : 0.7591 ≤ q ∧ q ≤ 0.7592) (hx : Mem x X) (hz : Mem z Z)
    (ht : Mem t T) (hc : ∀ k ∈ cuts, 0 ≤ k.val x z t) : 0 ≤ g.val q x z t := by
  refine cover_sound (Pr := fun q x z t => (∀ k ∈ cuts, 0 ≤ k.val x z t) → 0 ≤ g.val q x z t) ?_ n h hq hx hz ht hc
  intro c q x z t hh ht hc
  unfold linTest at ht
  rw [not_outside hh hc, Bool.false_or] at ht
  exact nonneg_of ht (g.eval_mem hh)

/-! ### Comparing the achromatic response with the luminance -/

namespace Itv

variable {x : ℝ} {i : Itv}

def pow2 (x : Itv) : Itv := x.mul x
def pow4 (x : Itv) : Itv := x.pow2.pow2
def pow9 (x : Itv) : Itv := (x.pow4.pow2).mul x
def pow11 (x : Itv) : Itv := x.pow9.mul x.pow2
def pow19 (x : Itv) : Itv := (x.pow9.pow2).mul x
def pow29 (x : Itv) : Itv := x.pow25.mul x.pow4
def pow59 (x : Itv) : Itv := x.pow50.mul x.pow9

theorem mem_pow2 (h : Mem x i) : Mem (x ^ 2) i.pow2 := by rw [pow_two]; exact mem_mul h h
theorem mem_pow4 (h : Mem x i) : Mem (x ^ 4) i.pow4 := by
  have := mem_pow2 (mem_pow2 h); rwa [← pow_mul] at this
theorem mem_pow9 (h : Mem x i) : Mem (x ^ 9) i.pow9 := by
  have := mem_mul (mem_pow2 (mem_pow4 h)) h; rwa [← pow_mul, ← pow_succ] at this
theorem mem_pow11 (h : Mem x i) : Mem (x ^ 11) i.pow11 := by
  have := mem_mul (mem_pow9 h) (mem_pow2 h); rwa [← pow_add] at this
theorem mem_pow19 (h : Mem x i) : Mem (x ^ 19) i.pow19 := by
  have := mem_mul (mem_pow2 (mem_pow9 h)) h; rwa [← pow_mul, ← pow_succ] at this
theorem mem_pow29 (h : Mem x i) : Mem (x ^ 29) i.pow29 := by
  have := mem_mul (mem_pow25 h) (mem_pow4 h); rwa [← pow_add] at this
theorem mem_pow59 (h : Mem x i) : Mem (x ^ 59) i.pow59 := by
  have := mem_mul (mem_pow50 h) (mem_pow9 h); rwa [← pow_add] at this

end Itv

/-- The luminance, divided by the green stimulus. -/
noncomputable def linY (x z : ℝ) : ℝ := 0.2126 * lin0 x z + 0.7152 * lin1 x z + 0.0722 * lin2 x z

def ilinY (c : Cell) : Itv := ((c.b0.mul (frac (col0 2126000000 7152000000 722000000))).add (frac (col1 2126000000 7152000000 722000000))).add
    (c.b2.mul (frac (col2 2126000000 7152000000 722000000)))

theorem mem_linY {c : Cell} {q x z t : ℝ} (h : c.Has q x z t) : Mem (linY x z) (ilinY c) := by
  have := mem_add (mem_add (mem_mul h.b0 (mem_frac (col0 2126000000 7152000000 722000000))) (mem_frac (col1 2126000000 7152000000 722000000)))
    (mem_mul h.b2 (mem_frac (col2 2126000000 7152000000 722000000)))
  unfold ilinY
  refine (congrArg (fun v => Mem v _) ?_).mp this
  unfold linY lin0 lin1 lin2 col0 col1 col2
  push_cast
  ring

/-- The response is small compared with the luminance. -/
def loTest (cuts : List Cut) (c k : Int) (cl : Cell) : Bool :=
  outside cuts cl || ((pow19 ((frac c).mul (ilinY cl))).sub (pow50 ((pow2 cl.t).mul ((frac k).mul cl.pi)))).nonneg

/-- The response is large compared with the luminance. -/
def hiTest (cuts : List Cut) (c k : Int) (cl : Cell) : Bool :=
  outside cuts cl || (((pow59 cl.t).mul (pow29 ((frac k).mul cl.pi))).sub (pow11 ((frac c).mul (ilinY cl)))).nonneg

theorem lo_sound {kx kz kt : Int} {cuts : List Cut} {c k : Int} (n : Nat) {X Z T : Itv}
    (h : cover kx kz kt (loTest cuts c k) n X Z T = true) {q x z t : ℝ} (hq : 0.7591 ≤ q ∧ q ≤ 0.7592) (hx : Mem x X) (hz : Mem z Z)
    (ht : Mem t T) (hc : ∀ k ∈ cuts, 0 ≤ k.val x z t) :
    (t ^ 2 * ((k : ℝ) / 10 ^ 26 * ach x z t)) ^ 50 ≤ ((c : ℝ) / 10 ^ 26 * linY x z) ^ 19 := by
  refine cover_sound (Pr := fun q x z t => (∀ k ∈ cuts, 0 ≤ k.val x z t) →
      (t ^ 2 * ((k : ℝ) / 10 ^ 26 * ach x z t)) ^ 50 ≤ ((c : ℝ) / 10 ^ 26 * linY x z) ^ 19) ?_ n h hq hx hz ht hc
  intro cl q x z t hh ht hc
  unfold loTest at ht
  rw [not_outside hh hc, Bool.false_or] at ht
  have := nonneg_of ht (mem_sub (mem_pow19 (mem_mul (mem_frac c) (mem_linY hh))) (mem_pow50 (mem_mul (mem_pow2 hh.tt) (mem_mul (mem_frac k) hh.pi))))
  exact sub_nonneg.1 this

theorem hi_sound {kx kz kt : Int} {cuts : List Cut} {c k : Int} (n : Nat) {X Z T : Itv}
    (h : cover kx kz kt (hiTest cuts c k) n X Z T = true) {q x z t : ℝ} (hq : 0.7591 ≤ q ∧ q ≤ 0.7592) (hx : Mem x X) (hz : Mem z Z)
    (ht : Mem t T) (hc : ∀ k ∈ cuts, 0 ≤ k.val x z t) :
    ((c : ℝ) / 10 ^ 26 * linY x z) ^ 11 ≤ t ^ 59 * ((k : ℝ) / 10 ^ 26 * ach x z t) ^ 29 := by
  refine cover_sound (Pr := fun q x z t => (∀ k ∈ cuts, 0 ≤ k.val x z t) →
      ((c : ℝ) / 10 ^ 26 * linY x z) ^ 11 ≤ t ^ 59 * ((k : ℝ) / 10 ^ 26 * ach x z t) ^ 29) ?_ n h hq hx hz ht hc
  intro cl q x z t hh ht hc
  unfold hiTest at ht
  rw [not_outside hh hc, Bool.false_or] at ht
  have := nonneg_of ht (mem_sub (mem_mul (mem_pow59 hh.tt) (mem_pow29 (mem_mul (mem_frac k) hh.pi))) (mem_pow11 (mem_mul (mem_frac c) (mem_linY hh))))
  exact sub_nonneg.1 this

end Mcu.Lemmas
