import Verif.Lemmas.OutOfGamut
import Verif.Props.Solver
import Verif.Spec.Turn

/-! C85: the search along the boundary of the gamut encloses the requested hue, over exact reals. -/

namespace Mcu.Props

open Mcu.HctSolver Mcu.ColorUtils Mcu.Spec Mcu.Lemmas Real

theorem turn_range (a b : ℝ) : 0 ≤ turn a b ∧ turn a b < 2 * π := by
  have := pi_pos
  have h0 := Int.fract_nonneg ((b - a) / (2 * π))
  have h1 := Int.fract_lt_one ((b - a) / (2 * π))
  unfold turn
  constructor
  · positivity
  · nlinarith

theorem turn_eq (a b : ℝ) : ∃ k : ℤ, turn a b = b - a + k * (2 * π) := by
  refine ⟨-⌊(b - a) / (2 * π)⌋, ?_⟩
  have := pi_pos
  unfold turn
  rw [Int.fract]
  push_cast
  field_simp
  ring

theorem turn_of {a b t : ℝ} (k : ℤ) (h : t = b - a + k * (2 * π)) (h0 : 0 ≤ t) (h1 : t < 2 * π) : turn a b = t := by
  have hp := pi_pos
  obtain ⟨m, hm⟩ := turn_eq a b
  obtain ⟨r0, r1⟩ := turn_range a b
  have e : turn a b - t = ((m - k : ℤ) : ℝ) * (2 * π) := by rw [hm, h]; push_cast; ring
  have l1 : (m - k : ℤ) < 1 := by
    have : ((m - k : ℤ) : ℝ) < 1 := by nlinarith
    exact_mod_cast this
  have l2 : -1 < (m - k : ℤ) := by
    have : (-1 : ℝ) < ((m - k : ℤ) : ℝ) := by nlinarith
    exact_mod_cast this
  have : m - k = 0 := by omega
  rw [this] at e
  push_cast at e
  linarith

/-- C85: angles are brought into [0, 2π) by multiples of 2π, if they are at least -8π. -/
theorem c85_sanitize (x : ℝ) (h : -(8 * π) ≤ x) : sanitizeRadians x = turn 0 x := by
  have hp := pi_pos
  obtain ⟨b0, b1⟩ := (fmod_bounds (x + π * 8) (y := π * 2) (by positivity)).1 (by linarith)
  have e : sanitizeRadians x = Fl.fmod (x + π * 8) (π * 2) := by
    simp only [sanitizeRadians, fl_pi]; norm_num
  rw [e]
  symm
  refine turn_of (4 - realTrunc ((x + π * 8) / (π * 2))) ?_ b0 (by linarith)
  rw [fl_fmod]; push_cast; ring

theorem cyclic_iff {a b c : ℝ} (h1 : a - 8 * π ≤ b) (h2 : a - 8 * π ≤ c) : areInCyclicOrder a b c = true ↔ turn a b < turn a c := by
  have e (x : ℝ) : turn 0 (x - a) = turn a x := by unfold turn; rw [sub_zero]
  simp only [areInCyclicOrder, c85_sanitize _ (show -(8 * π) ≤ b - a by linarith), c85_sanitize _ (show -(8 * π) ≤ c - a by linarith), e, decide_eq_true_eq]

/-- Moving the lower end up to a point met no later than the target. -/
theorem arc_narrow {l m t r : ℝ} (h : turn l m ≤ turn l t) (ht : OnArc l t r) : OnArc m t r := by
  obtain ⟨i, hi⟩ := turn_eq l m
  obtain ⟨j, hj⟩ := turn_eq l t
  obtain ⟨k, hk⟩ := turn_eq l r
  have rm := turn_range l m
  have rt := turn_range l t
  have rr := turn_range l r
  have et : turn m t = turn l t - turn l m :=
    turn_of (j - i) (by rw [hi, hj]; push_cast; ring) (by linarith) (by linarith)
  rcases ht with h1 | h1
  · have er : turn m r = turn l r - turn l m :=
      turn_of (k - i) (by rw [hi, hk]; push_cast; ring) (by linarith) (by linarith)
    left
    rw [et, er]; linarith
  · rcases eq_or_lt_of_le rm.1 with h2 | h2
    · right
      exact turn_of (k - i) (by push_cast; linarith) le_rfl (by linarith)
    · left
      have er : turn m r = 2 * π - turn l m :=
        turn_of (k - i + 1) (by push_cast; linarith) (by linarith) (by linarith)
      rw [et, er]; linarith

theorem hueOf_range (v : Vec3 ℝ) : -π ≤ hueOf v ∧ hueOf v ≤ π := by
  simp only [hueOf, fl_atan2]
  exact ⟨(Complex.neg_pi_lt_arg _).le, Complex.arg_le_pi _⟩

/-- C85: the two vertices of the first step enclose the requested hue: turning upwards from the hue of the first,
it is met before the hue of the second. -/
theorem c85_segment (y hue : ℝ) (h0 : 0 ≤ hue) (h1 : hue < 2 * π) :
    OnArc (hueOf (bisectToSegment y hue).1) hue (hueOf (bisectToSegment y hue).2) := by
  have hp := pi_pos
  have inv (l : List Nat) : ∀ s : SegState ℝ, (s.initialized = true → s.leftHue = hueOf s.left ∧ s.rightHue = hueOf s.right ∧ OnArc s.leftHue hue s.rightHue) →
      (s.initialized = false → s.left = s.right) →
      OnArc (hueOf (l.foldl (segStep y hue) s).left) hue (hueOf (l.foldl (segStep y hue) s).right) := by
    induction l with
    | nil =>
      intro s hs hn
      simp only [List.foldl_nil]
      cases hi : s.initialized with
      | true => obtain ⟨a, b, c⟩ := hs hi; rw [← a, ← b]; exact c
      | false =>
        rw [hn hi]; right
        exact turn_of 0 (by simp) le_rfl (by positivity)
    | cons n l ih =>
      intro s hs hn
      simp only [List.foldl_cons]
      generalize hm : nthVertex y n = mid
      have hr := hueOf_range mid
      by_cases hneg : mid.x0 < 0.0
      · have e : segStep y hue s n = s := by simp only [segStep, hm]; rw [if_pos hneg]
        rw [e]; exact ih s hs hn
      · cases hi : s.initialized with
        | false =>
          have e : segStep y hue s n = { s with left := mid, right := mid, leftHue := hueOf mid, rightHue := hueOf mid, initialized := true } := by
            simp only [segStep, hm]; rw [if_neg hneg, hi]; rfl
          rw [e]
          refine ih _ (fun _ => ⟨rfl, rfl, Or.inr (turn_of 0 (by simp) le_rfl (by positivity))⟩) (fun h => by simp at h)
        | true =>
          obtain ⟨a, b, c⟩ := hs hi
          have hl := hueOf_range s.left
          rw [← a] at hl
          simp only [segStep, hm]
          rw [if_neg hneg, hi]
          simp only [Bool.not_true, Bool.false_eq_true, if_false]
          by_cases hin : (s.uncut || areInCyclicOrder s.leftHue (hueOf mid) s.rightHue) = true
          · rw [if_pos hin]
            by_cases hc : areInCyclicOrder s.leftHue hue (hueOf mid) = true
            · rw [if_pos hc]
              rw [cyclic_iff (by linarith) (by linarith)] at hc
              exact ih _ (fun _ => ⟨a, rfl, Or.inl hc⟩) (fun h => by simp [hi] at h)
            · rw [if_neg hc]
              rw [cyclic_iff (by linarith) (by linarith), not_lt] at hc
              exact ih _ (fun _ => ⟨rfl, b, arc_narrow hc c⟩) (fun h => by simp [hi] at h)
          · rw [if_neg hin]; exact ih s hs hn
  exact inv _ _ (fun h => by simp [segInit] at h) (fun _ => rfl)

theorem limLoop_arc (hue : ℝ) (h0 : 0 ≤ hue) (h1 : hue < 2 * π) (axis : Fin 3) (n : Nat) : ∀ s : LimState ℝ,
    s.leftHue = hueOf s.left → OnArc s.leftHue hue (hueOf s.right) →
    (limLoop hue axis n s).leftHue = hueOf (limLoop hue axis n s).left ∧
      OnArc (limLoop hue axis n s).leftHue hue (hueOf (limLoop hue axis n s).right) := by
  have hp := pi_pos
  induction n with
  | zero => intro s a b; exact ⟨a, b⟩
  | succ n ih =>
    intro s a b
    have hl := hueOf_range s.left
    rw [← a] at hl
    simp only [limLoop]
    split_ifs with hle hc
    · exact ⟨a, b⟩
    · refine ih _ a (Or.inl ?_)
      exact (cyclic_iff (by linarith) (by linarith [(hueOf_range (setCoordinate s.left ((criticalPlanes : List ℝ).getD
        (Fl.toI64 (Fl.floor (Fl.ofInt (s.lPlane + s.rPlane) / (2.0 : ℝ)))).toNat 0.0) s.right axis)).1])).1 hc
    · refine ih _ rfl (arc_narrow (not_lt.1 fun h => hc ?_) b)
      exact (cyclic_iff (by linarith) (by linarith [(hueOf_range (setCoordinate s.left ((criticalPlanes : List ℝ).getD
        (Fl.toI64 (Fl.floor (Fl.ofInt (s.lPlane + s.rPlane) / (2.0 : ℝ)))).toNat 0.0) s.right axis)).1])).2 h

theorem limAxis_arc (hue : ℝ) (h0 : 0 ≤ hue) (h1 : hue < 2 * π) (axis : Fin 3) (s : LimState ℝ)
    (a : s.leftHue = hueOf s.left) (b : OnArc s.leftHue hue (hueOf s.right)) :
    (limAxis hue s axis).leftHue = hueOf (limAxis hue s axis).left ∧
      OnArc (limAxis hue s axis).leftHue hue (hueOf (limAxis hue s axis).right) := by
  simp only [limAxis]
  split
  · exact limLoop_arc hue h0 h1 axis 8 _ a b
  · exact ⟨a, b⟩

/-- C85: at the end of the search the requested hue is still enclosed by the hues of the two ends. -/
theorem c85_enclosed (y hue : ℝ) (h0 : 0 ≤ hue) (h1 : hue < 2 * π) :
    OnArc (hueOf (bisectToLimitState y hue).left) hue (hueOf (bisectToLimitState y hue).right) := by
  simp only [bisectToLimitState, List.foldl_cons, List.foldl_nil]
  obtain ⟨a1, b1⟩ := limAxis_arc hue h0 h1 0 { left := (bisectToSegment y hue).1, leftHue := hueOf (bisectToSegment y hue).1, right := (bisectToSegment y hue).2, lPlane := -1, rPlane := 255, inBounds := true }
    rfl (c85_segment y hue h0 h1)
  obtain ⟨a2, b2⟩ := limAxis_arc hue h0 h1 1 _ a1 b1
  obtain ⟨a3, b3⟩ := limAxis_arc hue h0 h1 2 _ a2 b2
  rw [← a3]
  exact b3

/-- C85: a request that cannot be met exactly is answered by the colour of the middle of two points of the plane of
the requested luminance, inside the gamut (up to 3e-8), whose hues enclose the requested one. -/
theorem c85_answer (h c t : ℝ) (ht0 : 0.0001 ≤ t) (ht1 : t ≤ 99.9999) (hc : 0.0001 ≤ c)
    (hx : findResultByJ (MathUtils.sanitizeDegreesDouble h / 180 * π) c (yFromLstar t) = 0) :
    ∃ A B : Vec3 ℝ, solveToInt h c t = argbFromLinrgb (⟨(A.x0 + B.x0) / 2, (A.x1 + B.x1) / 2, (A.x2 + B.x2) / 2⟩ : Vec3 ℝ) ∧
      (InCube 3e-8 A ∧ luminance A = yFromLstar t) ∧ (InCube 3e-8 B ∧ luminance B = yFromLstar t) ∧
      OnArc (hueOf A) (MathUtils.sanitizeDegreesDouble h / 180 * π) (hueOf B) := by
  have hp := pi_pos
  obtain ⟨s0, s1, -⟩ := c06_sanitize_real h
  have y := (c11_range t).1.1 ⟨by norm_num at ht0; linarith, by norm_num at ht1; linarith⟩
  obtain ⟨-, hl, hr⟩ := c25_bisection (yFromLstar t) (MathUtils.sanitizeDegreesDouble h / 180 * π) y.1 y.2
  refine ⟨_, _, ?_, hl, hr, c85_enclosed _ _ (by positivity) ?_⟩
  · have e180 : (180.0 : ℝ) = 180 := by norm_num
    have e2 : (2.0 : ℝ) = 2 := by norm_num
    simp only [solveToInt, fl_pi, e180]
    rw [if_neg (by push Not; exact ⟨hc, ht0, ht1⟩), if_neg (not_not.2 hx)]
    simp only [bisectToLimit, HctSolver.midpoint, e2]
  · rw [div_mul_eq_mul_div, div_lt_iff₀ (by norm_num)]
    nlinarith

/-- The hypotheses (also those of `c26_out_of_gamut`) are met: a chroma of a million is out of reach at hue 90, tone 50. -/
example : ∃ h c t : ℝ, 0.0001 ≤ t ∧ t ≤ 99.9999 ∧ 0.0001 ≤ c ∧
    findResultByJ (MathUtils.sanitizeDegreesDouble h / 180 * π) c (yFromLstar t) = 0 := by
  refine ⟨90, 1000000, 50, by norm_num, by norm_num, by norm_num, ?_⟩
  rw [c06_fixed 90 (by norm_num) (by norm_num), show (90 : ℝ) / 180 * π = π / 2 by ring]
  exact not_found

end Mcu.Props
