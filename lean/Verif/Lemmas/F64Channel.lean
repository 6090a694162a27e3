import Verif.Lemmas.F64Accuracy
import Verif.Lemmas.F64Roles
import Verif.Props.Solver

/-! The channel computed for a linear value in IEEE-754 binary64 is the exact channel of a nearby linear value. -/

namespace Mcu.Lemmas

open Mcu.Ieee Props Props.Binary64 MathUtils ColorUtils HctSolver

variable {L : Libm}

local notation "𝔻" => F64 L

/-- The exact encoded value against the planes. -/
theorem td_above {m : ℕ} (hm : m < 255) {a : ℝ} (hp : plane m * (1 + 4 / 10 ^ 13) ≤ a) :
    (m : ℝ) + 1 / 2 < encode (a / 100) * 255 := by
  have hl := plane_low hm
  unfold encode
  by_cases hb : a / 100 ≤ 0.0031308
  · rw [if_pos hb]
    rcases Nat.lt_or_ge m 10 with h10 | h10
    · have hq := (plane_linear_fine h10).2
      norm_num at hl hq hp ⊢
      linarith
    · have := plane10 h10 hm
      norm_num at this hp hb; linarith
  · rw [if_neg hb, e124]
    push Not at hb
    rcases Nat.lt_or_ge m 10 with h10 | h10
    · have : (m : ℝ) ≤ 9 := by exact_mod_cast Nat.le_of_lt_succ h10
      have hw : 0.0904 ≤ (a / 100) ^ (((5 : ℕ) : ℝ) / ((12 : ℕ) : ℝ)) := by
        apply le_rpow_of_pow_le (by norm_num) (by norm_num) (by norm_num at hb; linarith)
        calc (0.0904 : ℝ) ^ 12 ≤ 0.0031308 ^ 5 := by norm_num
          _ ≤ _ := pow_le_pow_left₀ (by norm_num) hb.le 5
      norm_num at hw ⊢; linarith
    · have hq := power_ge h10 hm hp
      have : (10 : ℝ) ≤ m := by exact_mod_cast h10
      norm_num at hq ⊢
      linarith

theorem td_below {m : ℕ} (hm : m < 255) {a : ℝ} (hp : a ≤ plane m * (1 - 4 / 10 ^ 13)) :
    encode (a / 100) * 255 < (m : ℝ) + 1 / 2 := by
  have hl := plane_low hm
  unfold encode
  by_cases hb : a / 100 ≤ 0.0031308
  · rw [if_pos hb]
    rcases Nat.lt_or_ge m 10 with h10 | h10
    · have hq := (plane_linear_fine h10).1
      have hm0 : (0 : ℝ) ≤ m := by positivity
      norm_num at hl hq hp ⊢
      linarith
    · have : (10 : ℝ) ≤ m := by exact_mod_cast h10
      norm_num at hb ⊢; linarith
  · rw [if_neg hb, e124]
    push Not at hb
    rcases Nat.lt_or_ge m 10 with h10 | h10
    · have := plane_small h10
      norm_num at this hp hb
      linarith
    · have hq := power_le h10 hm (by norm_num at hb; linarith) hp
      have : (10 : ℝ) ≤ m := by exact_mod_cast h10
      norm_num at hq ⊢
      linarith

theorem encode_nonneg {q : ℝ} (h : 0 ≤ q) : 0 ≤ encode q * 255 := by
  by_cases hb : q ≤ 0.0031308
  · unfold encode; rw [if_pos hb]; positivity
  · have := encode_break hb; norm_num at this; linarith

theorem encode_high {a : ℝ} (h0 : 0 ≤ a) (h : a ≤ 100.02) : encode (a / 100) * 255 < 255.5 := by
  norm_num at h
  unfold encode
  by_cases hb : a / 100 ≤ 0.0031308
  · rw [if_pos hb]; norm_num at hb ⊢; linarith
  · rw [if_neg hb, e124]
    have hw : (a / 100) ^ (((5 : ℕ) : ℝ) / ((12 : ℕ) : ℝ)) ≤ 1.0002 := by
      apply rpow_le_of_le_pow (by norm_num) (by norm_num) (by linarith)
      calc (a / 100) ^ 5 ≤ 1.0002 ^ 5 := pow_le_pow_left₀ (by linarith) (by norm_num; linarith) 5
        _ ≤ 1.0002 ^ 12 := by norm_num
    norm_num at hw ⊢; linarith

/-- The channel computed for `x` is the exact channel of a value very near to it. -/
theorem channel64 (hL : L.PowOk) {x : 𝔻} {a : ℝ} (hx : Is x a) (h0 : -0.01 ≤ a) (h1 : a ≤ 100.02) :
    ∃ v : ℝ, 0 ≤ v ∧ v ≤ 100.02 ∧ |v - max a 0| ≤ 1 / 10 ^ 9 ∧ delinearized v = delinearized x := by
  obtain ⟨d, id, d0, d1, du, dl⟩ := td64 hL hx h0 h1
  norm_num at d0 d1 h0 h1
  obtain ⟨n, hn, hd⟩ := is_round id (by rw [abs_le]; constructor <;> linarith)
  have hd := abs_le.1 hd
  have n0 : 0 ≤ n := by
    have : ((-1 : ℤ) : ℝ) < n := by push_cast; linarith
    have : -1 < n := by exact_mod_cast this
    omega
  have n1 : n ≤ 255 := by
    have : (n : ℝ) < ((256 : ℤ) : ℝ) := by push_cast; linarith
    have : n < 256 := by exact_mod_cast this
    omega
  have en : delinearized x = n := by
    have e : delinearized x = clampInt 0 255 (Fl.toI64 (Fl.round (trueDelinearized x))) := rfl
    rw [e, hn.toI64, realTrunc_intCast, clamp_sat_of_mem n0 n1]
  rw [en]
  obtain ⟨k, rfl⟩ := Int.eq_ofNat_of_zero_le n0
  have kc : (((k : ℕ) : ℤ) : ℝ) = (k : ℝ) := by norm_num
  rw [kc] at hd
  have hk : k ≤ 255 := by omega
  -- the interval of values with this channel
  have low : ∀ m, k = m + 1 → plane m * (1 - 4 / 10 ^ 13) < a := by
    intro m hm
    by_contra hc
    have := dl m (by omega) (not_lt.1 hc)
    rw [hm] at hd
    push_cast at hd
    norm_num at this; linarith
  have high : k < 255 → a < plane k * (1 + 4 / 10 ^ 13) := by
    intro hk
    by_contra hc
    have := du k hk (not_lt.1 hc)
    norm_num at this; linarith
  have near : ∀ v : ℝ, (k : ℝ) - 1 / 2 < encode (v / 100) * 255 → encode (v / 100) * 255 < k + 1 / 2 → delinearized v = k := by
    intro v h1 h2
    refine delinearized_of_near n0 n1 ?_
    rw [kc, abs_lt]; constructor <;> linarith
  rcases Nat.eq_zero_or_pos k with rfl | hpos
  · have hh := high (by norm_num)
    have p1 := plane_high (m := 0) (by norm_num)
    have p0 := plane_low (m := 0) (by norm_num)
    refine ⟨min (max a 0) (plane 0 * (1 - 4 / 10 ^ 13)), ?_, ?_, ?_, ?_⟩
    · refine le_min (le_max_right _ _) ?_
      norm_num at p0 ⊢; linarith
    · exact (min_le_right _ _).trans (by norm_num at p1 ⊢; linarith)
    · have hmx : max a 0 ≤ plane 0 * (1 + 4 / 10 ^ 13) := max_le hh.le (by norm_num at p0 ⊢; linarith)
      generalize max a 0 = A at *
      rcases min_choice A (plane 0 * (1 - 4 / 10 ^ 13)) with e | e <;> rw [e]
      · rw [sub_self, abs_zero]; norm_num
      · have : plane 0 * (1 - 4 / 10 ^ 13) ≤ A := by rw [← e]; exact min_le_left _ _
        rw [abs_le]; norm_num at *; constructor <;> linarith
    · refine near _ ?_ ?_
      · have := encode_nonneg (q := min (max a 0) (plane 0 * (1 - 4 / 10 ^ 13)) / 100) (by
          refine div_nonneg (le_min (le_max_right _ _) ?_) (by norm_num)
          norm_num at p0 ⊢; linarith)
        push_cast; linarith
      · exact td_below (by norm_num) (min_le_right _ _)
  · obtain ⟨m, rfl⟩ : ∃ m, k = m + 1 := ⟨k - 1, by omega⟩
    have hl := low m rfl
    have p0 := plane_low (m := m) (by omega)
    have p1 := plane_high (m := m) (by omega)
    have a0 : 0 ≤ a := by norm_num at p0 hl; linarith
    rw [max_eq_left a0]
    have e1 : ((m + 1 : ℕ) : ℝ) - 1 / 2 = m + 1 / 2 := by push_cast; ring
    rcases Nat.lt_or_ge (m + 1) 255 with hlt | hge
    · have hh := high hlt
      have g := plane_mono (m := m) (n := m + 1) (by omega) hlt
      have q1 := plane_high hlt
      have q0 := plane_low hlt
      set lo := plane m * (1 + 4 / 10 ^ 13) with hlo
      set hi := plane (m + 1) * (1 - 4 / 10 ^ 13) with hhi
      have hlh : lo ≤ hi := by rw [hlo, hhi]; norm_num at *; linarith
      refine ⟨max lo (min a hi), ?_, ?_, ?_, ?_⟩
      · exact le_max_of_le_left (by rw [hlo]; positivity)
      · exact max_le (by rw [hlo]; norm_num at *; linarith) ((min_le_right _ _).trans (by rw [hhi]; norm_num at *; linarith))
      · have b1 : lo - a ≤ 1 / 10 ^ 9 := by rw [hlo]; norm_num at *; linarith
        have b2 : a - hi ≤ 1 / 10 ^ 9 := by rw [hhi]; norm_num at *; linarith
        rcases le_total a hi with h | h
        · rw [min_eq_left h]
          rcases le_total lo a with h' | h'
          · rw [max_eq_right h', sub_self, abs_zero]; norm_num
          · rw [max_eq_left h', abs_of_nonneg (by linarith)]; exact b1
        · rw [min_eq_right h, max_eq_right hlh, abs_of_nonpos (by linarith)]; linarith
      · refine near _ ?_ ?_
        · rw [e1]; exact td_above (by omega) (le_max_left _ _)
        · exact td_below hlt (max_le hlh (min_le_right _ _))
    · have hm : m = 254 := by omega
      subst hm
      set lo := plane 254 * (1 + 4 / 10 ^ 13) with hlo
      have hlo1 : lo ≤ 100 := by rw [hlo]; norm_num at *; linarith
      refine ⟨max lo a, le_max_of_le_right a0, ?_, ?_, ?_⟩
      · exact max_le (hlo1.trans (by norm_num)) (by norm_num; linarith)
      · have b1 : lo - a ≤ 1 / 10 ^ 9 := by rw [hlo]; norm_num at *; linarith
        rcases le_total lo a with h' | h'
        · rw [max_eq_right h', sub_self, abs_zero]; norm_num
        · rw [max_eq_left h', abs_of_nonneg (by linarith)]; exact b1
      · refine near _ ?_ ?_
        · rw [e1]; exact td_above (by norm_num) (le_max_left _ _)
        · have := encode_high (a := max lo a) (le_max_of_le_right a0) (max_le (hlo1.trans (by norm_num)) (by norm_num; linarith))
          norm_num at this ⊢; linarith

/-- The colour computed for a point near the cube has the tone of the point, up to rounding to eight bits and the part of the
point outside of the cube. -/
theorem color64 (hL : L.PowOk) {p : Vec3 𝔻} {X : Fin 3 → ℝ} (hp : IsV p X) (h0 : ∀ i, -0.01 ≤ X i) (h1 : ∀ i, X i ≤ 100.02) :
    ∃ v : Vec3 ℝ, argbFromLinrgb p = argbFromLinrgb v ∧ (∀ i, |v.get i - max (X i) 0| ≤ 1 / 10 ^ 9) ∧
      |(lstarFromArgb (argbFromLinrgb p) : ℝ) - lstarFromY (lum v)| ≤ 0.41 := by
  obtain ⟨v0, a0, b0, c0, e0⟩ := channel64 hL (hp 0) (h0 0) (h1 0)
  obtain ⟨v1, a1, b1, c1, e1⟩ := channel64 hL (hp 1) (h0 1) (h1 1)
  obtain ⟨v2, a2, b2, c2, e2⟩ := channel64 hL (hp 2) (h0 2) (h1 2)
  have e : argbFromLinrgb p = argbFromLinrgb (⟨v0, v1, v2⟩ : Vec3 ℝ) := by
    simp only [argbFromLinrgb]
    rw [e0, e1, e2]; rfl
  refine ⟨⟨v0, v1, v2⟩, e, ?_, ?_⟩
  · intro i
    fin_cases i
    · exact c0
    · exact c1
    · exact c2
  · rw [e]
    refine rounding_error (v := ⟨v0, v1, v2⟩) (fun i => ?_)
    fin_cases i <;> simp only [Vec3.get] <;> norm_num at * <;> constructor <;> linarith


/-! ### The end of the search -/

/-- The sum of the coordinates weighted by luminance. -/
noncomputable def wlum (X : Fin 3 → ℝ) : ℝ := 0.2126 * X 0 + 0.7152 * X 1 + 0.0722 * X 2

/-- The point the search returns is near the segment it started from. -/
theorem limit64 (hL : L.PowOk) (y hue : 𝔻) {v : ℝ} (iv : Is y v) (h0 : 0 ≤ v) (h1 : v ≤ 999999 / 10000) :
    ∃ X, IsV (bisectToLimit y hue) X ∧ (∀ i, -6 / 1000 ≤ X i ∧ X i ≤ 100 + 6 / 1000) ∧ |wlum X - v| ≤ 21 / 10 ^ 6 := by
  rcases segment64 y hue with ⟨he, hm⟩ | ⟨v', n, m, A, B, hn, hm, iv', iA, iB, hA, hB, hnm⟩
  · exact absurd hm (segment_some hue iv h0 h1)
  obtain rfl := iv.unique iv'
  set D : Fin 3 → ℝ := fun i => B i - A i with hD
  have hBi : ∀ i, A i + D i = B i := fun i => by simp [hD]
  have hC : InCube A D := fun i => by rw [hBi]; exact ⟨hA.range i, hB.range i⟩
  have hF : Far A D := by
    intro i
    by_cases h : n = m
    · left; rw [hD, hnm h]; simp
    · right
      rw [hBi]
      exact vertex_far hA hB hn hm h i
  have q : ∀ i, 0 ≤ scale A D i := fun i => le_trans (by norm_num) (hC.scale i).1
  have st : EndsR A D 0 0 (⟨(bisectToSegment y hue).1, hueOf (bisectToSegment y hue).1, (bisectToSegment y hue).2, -1, 255, true⟩ : LimState 𝔻) A B := by
    refine ⟨iA, iB, ⟨0, by norm_num, by norm_num, fun i => ?_⟩, ⟨1, by norm_num, by norm_num, fun i => ?_⟩⟩
    · simp
    · rw [one_mul, hBi]; simp
      intro h; have := hBi i; rw [h] at this; linarith
  obtain ⟨P1, Q1, s1⟩ := axis_fine hL hC hF hue _ 0 st le_rfl (by norm_num) le_rfl (by norm_num)
  obtain ⟨P2, Q2, s2⟩ := axis_fine hL hC hF hue _ 1 s1 (by norm_num) (by norm_num) (by norm_num) (by norm_num)
  obtain ⟨P3, Q3, s3⟩ := axis_fine hL hC hF hue _ 2 s2 (by norm_num) (by norm_num) (by norm_num) (by norm_num)
  have e : bisectToLimit y hue = midpoint (bisectToLimitState y hue).left (bisectToLimitState y hue).right := rfl
  rw [e]
  simp only [bisectToLimitState, List.foldl_cons, List.foldl_nil]
  obtain ⟨iP, iQ, oP, oQ⟩ := s3
  generalize limAxis hue _ 2 = s at iP iQ
  have i2 : Is (2.0 : 𝔻) 2 := by simpa using lit (L := L) 20 1 true 2 (by norm_num) (by norm_num)
  have pt : ∀ R, OnRay A D (8100 * (8100 * (8100 * 0 + 3 / 10 ^ 15) + 3 / 10 ^ 15) + 3 / 10 ^ 15)
      (0 + 5 / 10 ^ 7 + 22 * 10 ^ 5 * 0 + 5 / 10 ^ 7 + 22 * 10 ^ 5 * (8100 * 0 + 3 / 10 ^ 15) + 5 / 10 ^ 7 +
        22 * 10 ^ 5 * (8100 * (8100 * 0 + 3 / 10 ^ 15) + 3 / 10 ^ 15)) R →
      (∀ i, -5.8 / 1000 ≤ R i ∧ R i ≤ 100 + 5.8 / 1000) ∧ |wlum R - v| ≤ 20.5 / 10 ^ 6 := by
    intro R hR
    constructor
    · intro i
      have := hR.size hC (by norm_num) i
      have s1 := (hC.scale i).2.1
      have hA' := hA.range i
      have hB' := hB.range i
      have hs : scale A D i ≤ 100 + 1 / 10 ^ 40 := by
        unfold scale; rw [hBi]
        have := max_le hA'.2 hB'.2
        linarith
      generalize scale A D i = z at *
      norm_num at this hs ⊢
      constructor <;> linarith
    · obtain ⟨t, t0, t1, hi⟩ := hR
      have b : ∀ i, |R i - (A i + t * D i)| ≤ 199 / 10 ^ 7 := fun i => by
        refine (hi i).1.trans ?_
        have s1 := (hC.scale i).2.1
        generalize scale A D i = z at *
        norm_num; linarith
      have a0 := abs_le.1 (b 0)
      have a1 := abs_le.1 (b 1)
      have a2 := abs_le.1 (b 2)
      have lA := abs_le.1 hA.lum
      have lB := abs_le.1 hB.lum
      have key : wlum R - v = 0.2126 * (R 0 - (A 0 + t * D 0)) + 0.7152 * (R 1 - (A 1 + t * D 1)) + 0.0722 * (R 2 - (A 2 + t * D 2)) +
          (1 - t) * (0.2126 * A 0 + 0.7152 * A 1 + 0.0722 * A 2 - v) + t * (0.2126 * B 0 + 0.7152 * B 1 + 0.0722 * B 2 - v) := by
        unfold wlum
        rw [← hBi 0, ← hBi 1, ← hBi 2]; ring
      have m1 : |(1 - t) * (0.2126 * A 0 + 0.7152 * A 1 + 0.0722 * A 2 - v)| ≤ 2 * (1 / 10 ^ 11) := by
        rw [abs_mul]
        refine mul_le_mul ?_ hA.lum (abs_nonneg _) (by norm_num)
        rw [abs_le]; norm_num at t0 t1; constructor <;> linarith
      have m2 : |t * (0.2126 * B 0 + 0.7152 * B 1 + 0.0722 * B 2 - v)| ≤ 2 * (1 / 10 ^ 11) := by
        rw [abs_mul]
        refine mul_le_mul ?_ hB.lum (abs_nonneg _) (by norm_num)
        rw [abs_le]; norm_num at t0 t1; constructor <;> linarith
      rw [key]
      have m1 := abs_le.1 m1
      have m2 := abs_le.1 m2
      generalize (1 - t) * (0.2126 * A 0 + 0.7152 * A 1 + 0.0722 * A 2 - v) = u1 at *
      generalize t * (0.2126 * B 0 + 0.7152 * B 1 + 0.0722 * B 2 - v) = u2 at *
      generalize R 0 - (A 0 + t * D 0) = w0 at *
      generalize R 1 - (A 1 + t * D 1) = w1 at *
      generalize R 2 - (A 2 + t * D 2) = w2 at *
      rw [abs_le]
      norm_num at *
      constructor <;> linarith
  obtain ⟨rP, lP⟩ := pt P3 oP
  obtain ⟨rQ, lQ⟩ := pt Q3 oQ
  have mid : ∀ i, ∃ x, Is ((s.left.get i + s.right.get i) / 2.0) x ∧ |x - (P3 i + Q3 i) / 2| ≤ 2 / 10 ^ 12 := by
    intro i
    have p := rP i
    have q := rQ i
    norm_num at p q
    have k1 := rnd_ok (v := P3 i + Q3 i) (by rw [abs_le]; constructor <;> linarith)
    unfold ρ at k1
    have c1 := abs_le.1 k1.2
    have s1 := (iP i).add (iQ i) k1.1
    generalize rnd (P3 i + Q3 i) = z at *
    have k2 := rnd_ok (v := z / 2) (by rw [abs_le]; norm_num at c1 ⊢; constructor <;> linarith)
    unfold ρ at k2
    have c2 := abs_le.1 k2.2
    refine ⟨_, s1.div i2 (by norm_num) k2.1, ?_⟩
    generalize rnd (z / 2) = z' at *
    rw [abs_le]
    norm_num at *
    constructor <;> linarith
  choose X hX eX using mid
  have x0 := abs_le.1 (eX 0)
  have x1 := abs_le.1 (eX 1)
  have x2 := abs_le.1 (eX 2)
  have lP := abs_le.1 lP
  have lQ := abs_le.1 lQ
  refine ⟨X, ?_, ?_, ?_⟩
  · intro i
    fin_cases i
    · exact hX 0
    · exact hX 1
    · exact hX 2
  · intro i
    have := abs_le.1 (eX i)
    have p := rP i
    have q := rQ i
    norm_num at *
    constructor <;> linarith
  · unfold wlum at *
    rw [abs_le]
    norm_num at *
    constructor <;> linarith

/-- The colour of the point the search returns. -/
theorem limit64_color (hL : L.PowOk) (y hue : 𝔻) {v : ℝ} (iv : Is y v) (h0 : 0 ≤ v) (h1 : v ≤ 999999 / 10000) :
    |(lstarFromArgb (argbFromLinrgb (bisectToLimit y hue)) : ℝ) - lstarFromY v| ≤ 0.47 := by
  obtain ⟨X, iX, rX, lX⟩ := limit64 hL y hue iv h0 h1
  obtain ⟨w, -, ew, hw⟩ := color64 hL iX (fun i => by have := rX i; norm_num at *; linarith) (fun i => by have := rX i; norm_num at *; linarith)
  have hl := lstarFromY_lipschitz (lum w) v
  have c : ∀ i, |w.get i - X i| ≤ 6 / 1000 + 1 / 10 ^ 9 := fun i => by
    have a := abs_le.1 (ew i)
    have b := (rX i).1
    rcases le_total (X i) 0 with h | h
    · rw [max_eq_right h] at a
      rw [abs_le]; norm_num at *; constructor <;> linarith
    · rw [max_eq_left h] at a
      rw [abs_le]; norm_num at *; constructor <;> linarith
  have c0 := abs_le.1 (c 0)
  have c1 := abs_le.1 (c 1)
  have c2 := abs_le.1 (c 2)
  have hd : |lum w - v| ≤ 61 / 10000 := by
    have := abs_le.1 lX
    unfold wlum at this
    unfold lum
    simp only [Vec3.get] at c0 c1 c2
    rw [abs_le]; norm_num at *; constructor <;> linarith
  have h2 := abs_le.1 hw
  have h3 := abs_le.1 (hl.trans (mul_le_mul_of_nonneg_left hd (by norm_num)))
  rw [abs_le]
  norm_num at *
  constructor <;> linarith

end Mcu.Lemmas
