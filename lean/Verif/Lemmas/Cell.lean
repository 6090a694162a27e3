import Verif.Lemmas.Interval

/-! The growth of the colours of one hue and chroma in coordinates in which everything is rational, and its enclosure
over boxes of coordinates.  The coordinates are the 50th roots of the ratio of the red and of the blue to the green
stimulus (`x`, `z`) and of the green stimulus (`t`). -/

namespace Mcu.Lemmas

namespace Itv

def c2713 : Itv := ⟨648440326001, 648440326002⟩
theorem mem_c2713 : Mem (1/27.13) c2713 := by unfold Mem c2713; norm_num
def c305 : Itv := ⟨5365616743546, 5365616743547⟩
theorem mem_c305 : Mem (0.305) c305 := by unfold Mem c305; norm_num
def c005 : Itv := ⟨879609302220, 879609302221⟩
theorem mem_c005 : Mem (0.05) c005 := by unfold Mem c005; norm_num
def c2 : Itv := ⟨35184372088832, 35184372088832⟩
theorem mem_c2 : Mem (2) c2 := by unfold Mem c2; norm_num
def c1 : Itv := ⟨17592186044416, 17592186044416⟩
theorem mem_c1 : Mem (1) c1 := by unfold Mem c1; norm_num
def cUn : Itv := ⟨259376130400530, 259376130400531⟩
theorem mem_cUn : Mem (400/27.13) cUn := by unfold Mem cUn; norm_num
def c18 : Itv := ⟨9773436691342, 9773436691343⟩
theorem mem_c18 : Mem (1/1.8) c18 := by unfold Mem c18; norm_num
def cI305 : Itv := ⟨5767929850628, 5767929850629⟩
theorem mem_cI305 : Mem (1/3.05) cI305 := by unfold Mem cI305; norm_num
def cD0 : Itv := ⟨6056326343159, 6056326343160⟩
theorem mem_cD0 : Mem (1 - 2/3.05) cD0 := by unfold Mem cD0; norm_num
def cD1 : Itv := ⟨11824256193787, 11824256193788⟩
theorem mem_cD1 : Mem (1 - 1/3.05) cD1 := by unfold Mem cD1; norm_num
def cD2 : Itv := ⟨17303789551884, 17303789551885⟩
theorem mem_cD2 : Mem (1 - 0.05/3.05) cD2 := by unfold Mem cD2; norm_num
def cq : Itv := ⟨13354228426316, 13355987644921⟩
theorem mem_cq {q : ℝ} (h : 0.7591 ≤ q ∧ q ≤ 0.7592) : Mem q cq := by
  obtain ⟨a, b⟩ := h
  unfold Mem cq
  norm_num at *
  constructor <;> linarith

/-- The powers 21 and 50. -/
def pow5 (x : Itv) : Itv := ((x.mul x).mul (x.mul x)).mul x
def pow20 (x : Itv) : Itv := ((pow5 x).mul (pow5 x)).mul ((pow5 x).mul (pow5 x))
def pow21 (x : Itv) : Itv := (pow20 x).mul x
def pow25 (x : Itv) : Itv := (pow20 x).mul (pow5 x)
def pow50 (x : Itv) : Itv := (pow25 x).mul (pow25 x)

variable {x : ℝ} {i : Itv}

theorem mem_pow5 (h : Mem x i) : Mem (x ^ 5) (pow5 i) := by
  have := mem_mul (mem_mul (mem_mul h h) (mem_mul h h)) h
  rwa [show x * x * (x * x) * x = x ^ 5 by ring] at this

theorem mem_pow20 (h : Mem x i) : Mem (x ^ 20) (pow20 i) := by
  have h5 := mem_pow5 h
  have := mem_mul (mem_mul h5 h5) (mem_mul h5 h5)
  rwa [show x ^ 5 * x ^ 5 * (x ^ 5 * x ^ 5) = x ^ 20 by ring] at this

theorem mem_pow21 (h : Mem x i) : Mem (x ^ 21) (pow21 i) := by
  have := mem_mul (mem_pow20 h) h
  rwa [show x ^ 20 * x = x ^ 21 by ring] at this

theorem mem_pow25 (h : Mem x i) : Mem (x ^ 25) (pow25 i) := by
  have := mem_mul (mem_pow20 h) (mem_pow5 h)
  rwa [show x ^ 20 * x ^ 5 = x ^ 25 by ring] at this

theorem mem_pow50 (h : Mem x i) : Mem (x ^ 50) (pow50 i) := by
  have := mem_mul (mem_pow25 h) (mem_pow25 h)
  rwa [show x ^ 25 * x ^ 25 = x ^ 50 by ring] at this

end Itv

open Itv

/-! ### The quantities -/

namespace Flow

/-- The gain of a response, 400 / (400 - response), of the stimulus with root `t x`. -/
noncomputable def gain (t x : ℝ) : ℝ := 1 + t ^ 21 * x ^ 21 * (1 / 27.13)

/-- The response, divided by `400 / 27.13 * t ^ 21`. -/
noncomputable def resp (t x : ℝ) : ℝ := x ^ 21 * (1 / gain t x)

/-- The inverse of the response. -/
noncomputable def inv (t x : ℝ) : ℝ := gain t x * (1 / x ^ 21)

noncomputable def ach (x z t : ℝ) : ℝ := 2 * resp t x + resp t 1 + 0.05 * resp t z

/-- The two others compared with one response, weighted as in the achromatic response. -/
noncomputable def q0 (x z t : ℝ) : ℝ := (resp t 1 + 0.05 * resp t z) * inv t x
noncomputable def q1 (x z t : ℝ) : ℝ := (2 * resp t x + 0.05 * resp t z) * inv t 1
noncomputable def q2 (x z t : ℝ) : ℝ := (2 * resp t x + resp t 1) * inv t z

/-- The difference of the blue and the red response compared with the achromatic one. -/
noncomputable def tilt (x z t : ℝ) : ℝ := 1 / (0.05 + q2 x z t) - 1 / (2 + q0 x z t)

/-- How much slower than the achromatic response the chromatic one grows. -/
noncomputable def slow (q x z t : ℝ) : ℝ := 1 / 1.8 * (1 + tilt x z t) +
  0.305 * (q - 1 / 1.8 * tilt x z t) * (1 / (0.305 + ach x z t * (400 / 27.13 * t ^ 21)))

/-- The growth rates of the stimuli, times 0.42. -/
noncomputable def f0 (q x z t : ℝ) : ℝ := gain t x * (q + slow q x z t * (1 / 3.05 * q0 x z t - (1 - 2 / 3.05)))
noncomputable def f1 (q x z t : ℝ) : ℝ := gain t 1 * (q + slow q x z t * (1 / 3.05 * q1 x z t - (1 - 1 / 3.05)))
noncomputable def f2 (q x z t : ℝ) : ℝ := gain t z * (q + slow q x z t * (1 / 3.05 * q2 x z t - (1 - 0.05 / 3.05)))

end Flow

open Flow

/-- Enclosures over a box. -/
structure Cell where
  ok : Bool
  t : Itv
  t50 : Itv
  b0 : Itv
  b2 : Itv
  pi : Itv
  f0 : Itv
  f1 : Itv
  f2 : Itv

namespace Cell

def igain (s a : Itv) : Itv := c1.add ((s.mul a).mul c2713)
def iresp (s a : Itv) : Itv := a.mul (igain s a).inv
def iinv (s a : Itv) : Itv := (igain s a).mul a.inv
def iach (s a0 a2 : Itv) : Itv := ((c2.mul (iresp s a0)).add (iresp s c1)).add (c005.mul (iresp s a2))
def iq0 (s a0 a2 : Itv) : Itv := ((iresp s c1).add (c005.mul (iresp s a2))).mul (iinv s a0)
def iq1 (s a0 a2 : Itv) : Itv := ((c2.mul (iresp s a0)).add (c005.mul (iresp s a2))).mul (iinv s c1)
def iq2 (s a0 a2 : Itv) : Itv := ((c2.mul (iresp s a0)).add (iresp s c1)).mul (iinv s a2)
def itilt (s a0 a2 : Itv) : Itv := (c005.add (iq2 s a0 a2)).inv.sub (c2.add (iq0 s a0 a2)).inv
def iden (s a0 a2 : Itv) : Itv := c305.add ((iach s a0 a2).mul (cUn.mul s))
def islow (s a0 a2 : Itv) : Itv := (c18.mul (c1.add (itilt s a0 a2))).add
  ((c305.mul (cq.sub (c18.mul (itilt s a0 a2)))).mul (iden s a0 a2).inv)
def if0 (s a0 a2 : Itv) : Itv := (igain s a0).mul (cq.add ((islow s a0 a2).mul ((cI305.mul (iq0 s a0 a2)).sub cD0)))
def if1 (s a0 a2 : Itv) : Itv := (igain s c1).mul (cq.add ((islow s a0 a2).mul ((cI305.mul (iq1 s a0 a2)).sub cD1)))
def if2 (s a0 a2 : Itv) : Itv := (igain s a2).mul (cq.add ((islow s a0 a2).mul ((cI305.mul (iq2 s a0 a2)).sub cD2)))
def iok (s a0 a2 : Itv) : Bool := a0.pos && a2.pos && (igain s a0).pos && (igain s c1).pos && (igain s a2).pos &&
  (c005.add (iq2 s a0 a2)).pos && (c2.add (iq0 s a0 a2)).pos && (iden s a0 a2).pos

def mk' (s a0 a2 t t50 b0 b2 : Itv) : Cell :=
  ⟨iok s a0 a2, t, t50, b0, b2, iach s a0 a2, if0 s a0 a2, if1 s a0 a2, if2 s a0 a2⟩

def of (x z t : Itv) : Cell := mk' (pow21 t) (pow21 x) (pow21 z) t (pow50 t) (pow50 x) (pow50 z)

/-- The values lie in the enclosures. -/
structure Has (c : Cell) (q x z t : ℝ) : Prop where
  tt : Mem t c.t
  t50 : Mem (t ^ 50) c.t50
  b0 : Mem (x ^ 50) c.b0
  b2 : Mem (z ^ 50) c.b2
  pi : Mem (ach x z t) c.pi
  f0 : Mem (Flow.f0 q x z t) c.f0
  f1 : Mem (Flow.f1 q x z t) c.f1
  f2 : Mem (Flow.f2 q x z t) c.f2

variable {q x z t : ℝ} {X Z T : Itv}

theorem mem_one : Mem ((1 : ℝ) ^ 21) c1 := by rw [one_pow]; exact mem_c1

theorem mem_gain {s a : Itv} (hs : Mem (t ^ 21) s) (ha : Mem (x ^ 21) a) : Mem (gain t x) (igain s a) :=
  mem_add mem_c1 (mem_mul (mem_mul hs ha) mem_c2713)

theorem mem_resp {s a : Itv} (hs : Mem (t ^ 21) s) (ha : Mem (x ^ 21) a) (hp : (igain s a).pos = true) :
    Mem (resp t x) (iresp s a) := mem_mul ha (mem_inv hp (mem_gain hs ha))

theorem mem_invr {s a : Itv} (hs : Mem (t ^ 21) s) (ha : Mem (x ^ 21) a) (hp : a.pos = true) :
    Mem (Flow.inv t x) (iinv s a) := mem_mul (mem_gain hs ha) (mem_inv hp ha)

theorem of_has (hq : 0.7591 ≤ q ∧ q ≤ 0.7592) (hx : Mem x X) (hz : Mem z Z) (ht : Mem t T) (hok : (of X Z T).ok = true) :
    Has (of X Z T) q x z t := by
  have hok' : iok (pow21 T) (pow21 X) (pow21 Z) = true := hok
  have s := mem_pow21 ht
  have a0 := mem_pow21 hx
  have a2 := mem_pow21 hz
  have a1 := mem_one
  have hq' := mem_cq hq
  suffices h : Mem (ach x z t) (iach (pow21 T) (pow21 X) (pow21 Z)) ∧
      Mem (Flow.f0 q x z t) (if0 (pow21 T) (pow21 X) (pow21 Z)) ∧
      Mem (Flow.f1 q x z t) (if1 (pow21 T) (pow21 X) (pow21 Z)) ∧
      Mem (Flow.f2 q x z t) (if2 (pow21 T) (pow21 X) (pow21 Z)) from
    ⟨ht, mem_pow50 ht, mem_pow50 hx, mem_pow50 hz, h.1, h.2.1, h.2.2.1, h.2.2.2⟩
  generalize pow21 T = S at hok' s ⊢
  generalize pow21 X = A0 at hok' a0 ⊢
  generalize pow21 Z = A2 at hok' a2 ⊢
  unfold iok at hok'
  simp only [Bool.and_eq_true] at hok'
  obtain ⟨⟨⟨⟨⟨⟨⟨p0, p2⟩, g0⟩, g1⟩, g2⟩, d2⟩, d0⟩, dd⟩ := hok'
  have r0 := mem_resp s a0 g0
  have r1 := mem_resp (x := 1) s a1 g1
  have r2 := mem_resp s a2 g2
  have v0 := mem_invr s a0 p0
  have v1 := mem_invr (x := 1) s a1 rfl
  have v2 := mem_invr s a2 p2
  have hach : Mem (ach x z t) (iach S A0 A2) := mem_add (mem_add (mem_mul mem_c2 r0) r1) (mem_mul mem_c005 r2)
  have h0 : Mem (q0 x z t) (iq0 S A0 A2) := mem_mul (mem_add r1 (mem_mul mem_c005 r2)) v0
  have h1 : Mem (q1 x z t) (iq1 S A0 A2) := mem_mul (mem_add (mem_mul mem_c2 r0) (mem_mul mem_c005 r2)) v1
  have h2 : Mem (q2 x z t) (iq2 S A0 A2) := mem_mul (mem_add (mem_mul mem_c2 r0) r1) v2
  have htilt : Mem (tilt x z t) (itilt S A0 A2) :=
    mem_sub (mem_inv d2 (mem_add mem_c005 h2)) (mem_inv d0 (mem_add mem_c2 h0))
  have hden : Mem (0.305 + ach x z t * (400 / 27.13 * t ^ 21)) (iden S A0 A2) :=
    mem_add mem_c305 (mem_mul hach (mem_mul mem_cUn s))
  have hslow : Mem (slow q x z t) (islow S A0 A2) :=
    mem_add (mem_mul mem_c18 (mem_add mem_c1 htilt))
      (mem_mul (mem_mul mem_c305 (mem_sub hq' (mem_mul mem_c18 htilt))) (mem_inv dd hden))
  refine ⟨hach, ?_, ?_, ?_⟩
  · exact mem_mul (mem_gain s a0) (mem_add hq' (mem_mul hslow (mem_sub (mem_mul mem_cI305 h0) mem_cD0)))
  · exact mem_mul (mem_gain s a1) (mem_add hq' (mem_mul hslow (mem_sub (mem_mul mem_cI305 h1) mem_cD1)))
  · exact mem_mul (mem_gain s a2) (mem_add hq' (mem_mul hslow (mem_sub (mem_mul mem_cI305 h2) mem_cD2)))

end Cell

/-! ### Covering a box by smaller ones -/

namespace Itv

def mid (x : Itv) : Int := Int.ediv (x.lo + x.hi) 2
def left (x : Itv) : Itv := ⟨x.lo, x.mid⟩
def right (x : Itv) : Itv := ⟨x.mid, x.hi⟩
def width (x : Itv) : Int := x.hi - x.lo

theorem mem_split {x : ℝ} {i : Itv} (h : Mem x i) : Mem x i.left ∨ Mem x i.right := by
  rcases le_total (x * 17592186044416) (i.mid : ℝ) with h1 | h1
  · exact .inl ⟨h.1, h1⟩
  · exact .inr ⟨h1, h.2⟩

end Itv

/-- Every small box of the cover satisfies the test.  The weights say which side to halve. -/
def cover (kx kz kt : Int) (test : Cell → Bool) : Nat → Itv → Itv → Itv → Bool
  | 0, _, _, _ => false
  | n + 1, x, z, t =>
    bif (Cell.of x z t).ok && test (Cell.of x z t) then true
    else bif decide (x.width * kx ≤ z.width * kz) && decide (t.width * kt ≤ z.width * kz) then
      cover kx kz kt test n x z.left t && cover kx kz kt test n x z.right t
    else bif decide (t.width * kt ≤ x.width * kx) then
      cover kx kz kt test n x.left z t && cover kx kz kt test n x.right z t
    else cover kx kz kt test n x z t.left && cover kx kz kt test n x z t.right

/-- A test that is sound on every box holds everywhere in a covered box. -/
theorem cover_sound {kx kz kt : Int} {test : Cell → Bool} {Pr : ℝ → ℝ → ℝ → ℝ → Prop}
    (hs : ∀ c q x z t, Cell.Has c q x z t → test c = true → Pr q x z t) (n : Nat) {X Z T : Itv}
    (h : cover kx kz kt test n X Z T = true) {q x z t : ℝ} (hq : 0.7591 ≤ q ∧ q ≤ 0.7592) (hx : Itv.Mem x X) (hz : Itv.Mem z Z)
    (ht : Itv.Mem t T) : Pr q x z t := by
  induction n generalizing X Z T with
  | zero => exact absurd h (by simp [cover])
  | succ n ih =>
    unfold cover at h
    cases hc : (Cell.of X Z T).ok && test (Cell.of X Z T) with
    | true =>
      rw [Bool.and_eq_true] at hc
      exact hs _ q x z t (Cell.of_has hq hx hz ht hc.1) hc.2
    | false =>
      rw [hc, cond_false] at h
      cases h1 : decide (X.width * kx ≤ Z.width * kz) && decide (T.width * kt ≤ Z.width * kz) with
      | true =>
        rw [h1, cond_true, Bool.and_eq_true] at h
        rcases Itv.mem_split hz with hz | hz
        · exact ih h.1 hx hz ht
        · exact ih h.2 hx hz ht
      | false =>
        rw [h1, cond_false] at h
        cases h2 : decide (T.width * kt ≤ X.width * kx) with
        | true =>
          rw [h2, cond_true, Bool.and_eq_true] at h
          rcases Itv.mem_split hx with hx | hx
          · exact ih h.1 hx hz ht
          · exact ih h.2 hx hz ht
        | false =>
          rw [h2, cond_false, Bool.and_eq_true] at h
          rcases Itv.mem_split ht with ht | ht
          · exact ih h.1 hx hz ht
          · exact ih h.2 hx hz ht

end Mcu.Lemmas
