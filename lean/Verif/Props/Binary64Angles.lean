import Verif.Props.Binary64Drawn
import Verif.Props.Schemes

/-! Properties C08, C31, C61, C66 and C77 in IEEE-754 binary64: turning hues, arcs, and tones for light foregrounds. -/

namespace Mcu.Props.Binary64

open Mcu.Ieee MathUtils ColorUtils Lemmas Spec Contrast DynamicColor DynamicScheme TemperatureCache

variable {L : Libm}

local notation "𝔻" => F64 L

/-- A finite double from 0 to 360. -/
def HueIn (x : 𝔻) : Prop := Fin x ∧ 0 ≤ val x ∧ val x ≤ 360

/-- Two angles that differ by `e` degrees up to whole turns and an error have about the circular distance `|e|`. -/
theorem circular_near {a b e ε : ℝ} (ha : 0 ≤ a ∧ a ≤ 360) (hb : 0 ≤ b ∧ b ≤ 360) (he : |e| ≤ 180) (hε : ε ≤ 1) (k : ℤ)
    (h : |b - (a + e + 360 * k)| ≤ ε) : |circular a b - (|e|)| ≤ ε := by
  obtain ⟨h1, h2⟩ := abs_le.1 h
  obtain ⟨e1, e2⟩ := abs_le.1 he
  have k1 : (k : ℝ) < ((2 : ℤ) : ℝ) := by push_cast; linarith [ha.1, ha.2, hb.1, hb.2]
  have k2 : ((-2 : ℤ) : ℝ) < (k : ℝ) := by push_cast; linarith [ha.1, ha.2, hb.1, hb.2]
  have k1 : k < 2 := by exact_mod_cast k1
  have k2 : -2 < k := by exact_mod_cast k2
  have hk : k = -1 ∨ k = 0 ∨ k = 1 := by omega
  unfold circular
  rw [abs_le]
  rcases hk with rfl | rfl | rfl <;> push_cast at h1 h2 <;>
    rcases abs_cases (a - b) with ⟨q1, q2⟩ | ⟨q1, q2⟩ <;> rcases abs_cases e with ⟨q3, q4⟩ | ⟨q3, q4⟩ <;>
    rcases min_cases |a - b| (360 - |a - b|) with ⟨q5, q6⟩ | ⟨q5, q6⟩ <;> rw [q5, q3] <;> constructor <;>
    linarith [ha.1, ha.2, hb.1, hb.2]

/-! ## C08 -/

/-- Adding a bounded angle and sanitising: the result is an angle, off by rounding only. -/
theorem turn64 {x y : 𝔻} {a b : ℝ} (hx : Is x a) (hy : Is y b) (h : |a + b| ≤ 1000) :
    HueIn (sanitizeDegreesDouble (x + y)) ∧
      ∃ k : ℤ, |val (sanitizeDegreesDouble (x + y)) - (a + b + 360 * k)| ≤ 2 / 10 ^ 12 := by
  obtain ⟨o1, o2⟩ := rnd_ok h
  have hi := hx.add hy o1
  obtain ⟨f, h0, h1, ⟨k, hk⟩, -⟩ := c06_binary64_partial (x + y) hi.1
  refine ⟨⟨f, h0, h1⟩, k, ?_⟩
  rw [show val (x + y) = _ from hi.2] at hk
  rw [show ρ = 1 / 10 ^ 12 from rfl] at o2
  generalize rnd (a + b) = r at *
  have := abs_le.1 hk
  have := abs_le.1 o2
  rw [abs_le]
  norm_num at *
  constructor <;> linarith

/-- The same for a difference. -/
theorem turn64_sub {x y : 𝔻} {a b : ℝ} (hx : Is x a) (hy : Is y b) (h : |a - b| ≤ 1000) :
    HueIn (sanitizeDegreesDouble (x - y)) ∧
      ∃ k : ℤ, |val (sanitizeDegreesDouble (x - y)) - (a - b + 360 * k)| ≤ 2 / 10 ^ 12 := by
  have := turn64 hx hy.neg (by rwa [← sub_eq_add_neg])
  rwa [← sub_eq_add_neg a] at this

/-- The direction of the turn and the signed angle of the turn it belongs to. -/
theorem direction64 {x y : 𝔻} (hx : HueIn x) (hy : HueIn y) :
    ∃ s e : ℝ, (s = 1 ∨ s = -1) ∧ Is (rotationDirection x y) s ∧ |e| ≤ 180 ∧ e = s * |e| ∧
      ∃ k : ℤ, |val y - (val x + e + 360 * k)| ≤ 2 / 10 ^ 12 := by
  obtain ⟨⟨f, h0, h1⟩, k, hk⟩ := turn64_sub (is_of y hy.1) (is_of x hx.1) (by
    rw [abs_le]; constructor <;> linarith [hx.2.1, hx.2.2, hy.2.1, hy.2.2])
  simp only [rotationDirection]
  generalize sanitizeDegreesDouble (y - x) = d at *
  have hk := abs_le.1 hk
  by_cases h : d ≤ (180.0 : 𝔻)
  · rw [if_pos h]
    rw [(is_of d f).le_iff l180] at h
    refine ⟨1, val d, .inl rfl, l1, by rw [abs_le]; constructor <;> linarith, by rw [abs_of_nonneg h0, one_mul], -k, ?_⟩
    rw [abs_le]; push_cast; constructor <;> linarith
  · rw [if_neg h]
    rw [(is_of d f).le_iff l180, not_le] at h
    refine ⟨-1, val d - 360, .inr rfl, l1.neg, by rw [abs_le]; constructor <;> linarith,
      by rw [abs_of_nonpos (by linarith)]; ring, 1 - k, ?_⟩
    rw [abs_le]; push_cast; constructor <;> linarith

/-- C08 (binary64): the direction between two hues is +1 or -1, and turning from the first by their degree difference in
that direction arrives at the second, up to whole turns and an error of 10⁻¹¹ degrees. -/
theorem c08_binary64 (x y : 𝔻) (hx : HueIn x) (hy : HueIn y) :
    Fin (rotationDirection x y) ∧ (val (rotationDirection x y) = 1 ∨ val (rotationDirection x y) = -1) ∧
    ∃ k : ℤ, |val y - (val x + val (rotationDirection x y) * val (differenceDegrees x y) + 360 * k)| ≤ 1 / 10 ^ 11 := by
  obtain ⟨s, e, hs, is, he, hes, k, hk⟩ := direction64 hx hy
  obtain ⟨-, -, -, hd, -⟩ := c07_binary64 x y hx.1 hy.1 hx.2 hy.2
  have hc := circular_near hx.2 hy.2 he (by norm_num) k hk
  have ev : val (rotationDirection x y) = s := is.2
  refine ⟨is.1, by rwa [ev], k, ?_⟩
  rw [ev]
  generalize circular (val x) (val y) = c at *
  generalize val (differenceDegrees x y) = d at *
  have hc := abs_le.1 hc
  have hd := abs_le.1 hd
  have hk := abs_le.1 hk
  generalize |e| = m at *
  rw [abs_le]
  norm_num at *
  rcases hs with rfl | rfl <;> norm_num at * <;> constructor <;> linarith

/-- C08 (binary64): the direction is +1 only if the increasing difference is at most 180 degrees, and -1 only if it is at least 180,
up to 2·10⁻¹² degrees. -/
theorem c08_binary64_shorter (x y : 𝔻) (hx : HueIn x) (hy : HueIn y) :
    (val (rotationDirection x y) = 1 →
      ∃ k : ℤ, -(2 / 10 ^ 12) ≤ val y - val x + 360 * k ∧ val y - val x + 360 * k ≤ 180 + 2 / 10 ^ 12) ∧
    (val (rotationDirection x y) = -1 →
      ∃ k : ℤ, -(2 / 10 ^ 12) ≤ val x - val y + 360 * k ∧ val x - val y + 360 * k ≤ 180 + 2 / 10 ^ 12) := by
  obtain ⟨s, e, hs, is, he, hes, k, hk⟩ := direction64 hx hy
  have ev : val (rotationDirection x y) = s := is.2
  have h0 := abs_nonneg e
  have hk := abs_le.1 hk
  rw [ev]
  refine ⟨fun h => ⟨-k, ?_⟩, fun h => ⟨k, ?_⟩⟩ <;> subst h <;> push_cast <;> constructor <;> linarith

/-- The hues 350 and 10. -/
example : HueIn (OfScientific.ofScientific 3500 true 1 : 𝔻) ∧ HueIn (OfScientific.ofScientific 100 true 1 : 𝔻) := by
  have h1 := lit (L := L) 3500 1 true 350 (by norm_num) (by norm_num)
  have h2 := lit (L := L) 100 1 true 10 (by norm_num) (by norm_num)
  constructor
  · refine ⟨h1.1, ?_⟩
    rw [show val _ = _ from h1.2]; norm_num
  · refine ⟨h2.1, ?_⟩
    rw [show val _ = _ from h2.2]; norm_num

/-! ## C31 -/

/-- The hue of every colour is between 0 and 360. -/
theorem hue64 (hS : L.Sound) (argb : Int) : HueIn (Hct.fromInt argb : Hct 𝔻).getHue := by
  obtain ⟨h, h360, -⟩ := c27_binary64_partial hS argb
  obtain ⟨f, h0⟩ := h _ (List.mem_cons_self ..)
  exact ⟨f, h0, h360⟩

/-- C31 (binary64): the hue harmonising asks for is an angle, its distance from the design hue is half the distance of the two hues
but at most 15 degrees, and it lies on the short way to the source hue: the remaining distance is what is left, each up to 2·10⁻¹¹ degrees. -/
theorem c31_binary64_hue (f t : 𝔻) (hf : HueIn f) (ht : HueIn t) :
    let D := circular (val f) (val t)
    let out := Blend.harmonizedHue f t
    HueIn out ∧ |circular (val f) (val out) - min (D / 2) 15| ≤ 1 / 10 ^ 11 ∧
    |circular (val out) (val t) - (D - min (D / 2) 15)| ≤ 2 / 10 ^ 11 := by
  intro D out
  obtain ⟨s, e, hs, is, he, hes, k, hk⟩ := direction64 hf ht
  obtain ⟨d1, d2, d3, d4, -⟩ := c07_binary64 f t hf.1 ht.1 hf.2 ht.2
  have hc := circular_near hf.2 ht.2 he (by norm_num) k hk
  have id := is_of _ d1
  have lhalf : Is (0.5 : 𝔻) (1 / 2) := by
    have := half_lit (L := L) (m := 5) (e := 1) (by norm_num) (by norm_num)
    rwa [show (OfScientific.ofScientific 5 true 1 : ℝ) = 1 / 2 by norm_num] at this
  have l15 : Is (15.0 : 𝔻) 15 := by simpa using lit (L := L) 150 1 true 15 (by norm_num) (by norm_num)
  set d := differenceDegrees f t with hd
  obtain ⟨o1, o2⟩ := rnd_ok (v := val d * (1 / 2)) (by rw [abs_of_nonneg (by linarith)]; linarith)
  have i1 := id.mul lhalf o1
  have i2 := i1.fmin l15
  have r0 : 0 ≤ rnd (val d * (1 / 2)) := rnd_nonneg (by linarith)
  set r := min (rnd (val d * (1 / 2))) 15 with hr
  have hr0 : 0 ≤ r := le_min r0 (by norm_num)
  have hr15 : r ≤ 15 := min_le_right _ _
  have hrs : rnd (r * s) = r * s := by
    rcases hs with rfl | rfl
    · rw [mul_one]; exact i2.rep.rnd_eq
    · rw [mul_neg_one]; exact i2.rep.neg.rnd_eq
  have i3 := i2.mul is (by
    refine (rnd_ok ?_).1
    rcases hs with rfl | rfl <;> rw [abs_le] <;> constructor <;> linarith)
  rw [hrs] at i3
  have hsum : |val f + r * s| ≤ 1000 := by
    rcases hs with rfl | rfl <;> rw [abs_le] <;> constructor <;> linarith [hf.2.1, hf.2.2]
  obtain ⟨ho, k', hk'⟩ := turn64 (is_of f hf.1) i3 hsum
  change HueIn out at ho
  change |val out - _| ≤ _ at hk'
  have hD : |D - (|e|)| ≤ 2 / 10 ^ 12 := hc
  have hdD : |val d - D| ≤ 1 / 10 ^ 12 := d4.trans (by norm_num)
  rw [show ρ = 1 / 10 ^ 12 from rfl] at o2
  have hrD : |r - min (D / 2) 15| ≤ 2 / 10 ^ 12 := by
    generalize rnd (val d * (1 / 2)) = u at *
    have o2 := abs_le.1 o2
    have hdD := abs_le.1 hdD
    rw [hr, abs_le]
    rcases min_cases u 15 with ⟨q1, q2⟩ | ⟨q1, q2⟩ <;> rcases min_cases (D / 2) 15 with ⟨q3, q4⟩ | ⟨q3, q4⟩ <;>
      rw [q1, q3] <;> norm_num at * <;> constructor <;> linarith
  have hrs' : |r * s| = r := by
    rcases hs with rfl | rfl <;> simp [abs_of_nonneg hr0]
  have c1 := circular_near hf.2 ho.2 (e := r * s) (by rw [hrs']; linarith) (by norm_num) k' hk'
  rw [hrs'] at c1
  have hm0 := abs_nonneg e
  have hre : r ≤ |e| + 3 / 10 ^ 12 := by
    have : r ≤ rnd (val d * (1 / 2)) := min_le_left _ _
    have o2 := abs_le.1 o2
    have hdD := abs_le.1 hdD
    have hD := abs_le.1 hD
    generalize rnd (val d * (1 / 2)) = u at *
    norm_num at *
    linarith [abs_nonneg e]
  refine ⟨ho, ?_, ?_⟩
  · have c1 := abs_le.1 c1
    have hrD := abs_le.1 hrD
    generalize circular (val f) (val out) = c at *
    generalize min (D / 2) 15 = m at *
    rw [abs_le]; norm_num at *; constructor <;> linarith
  · -- what is left of the turn
    have hg : |s * (|e| - r)| = |(|e| - r)| := by rcases hs with rfl | rfl <;> simp [abs_sub_comm]
    have c2 := circular_near ho.2 ht.2 (e := s * (|e| - r)) (ε := 4 / 10 ^ 12) (by
      rw [hg, abs_le]; constructor <;> linarith) (by norm_num) (k - k') (by
      have hk := abs_le.1 hk
      have hk' := abs_le.1 hk'
      rw [abs_le]
      push_cast
      rw [mul_sub, ← hes]
      norm_num at *
      constructor <;> linarith)
    rw [hg] at c2
    have c2 := abs_le.1 c2
    have hrD := abs_le.1 hrD
    have hD := abs_le.1 hD
    generalize circular (val out) (val t) = c at *
    generalize min (D / 2) 15 = m at *
    rw [abs_le]
    norm_num at *
    rcases abs_cases (|e| - r) with ⟨q1, q2⟩ | ⟨q1, q2⟩ <;> rw [q1] at c2 <;> constructor <;> linarith

/-- C31 (binary64): harmonising keeps chroma and tone and asks for such a hue. -/
theorem c31_binary64_harmonize (hS : L.Sound) (design source : Int) : ∃ out : 𝔻,
    let d : Hct 𝔻 := Hct.fromInt design
    let s : Hct 𝔻 := Hct.fromInt source
    let D := circular (val d.getHue) (val s.getHue)
    Blend.harmonize 𝔻 design source = (Hct.fromHct out d.getChroma d.getTone).toInt ∧
    HueIn out ∧ |circular (val d.getHue) (val out) - min (D / 2) 15| ≤ 1 / 10 ^ 11 ∧
    |circular (val out) (val s.getHue) - (D - min (D / 2) 15)| ≤ 2 / 10 ^ 11 :=
  ⟨_, rfl, c31_binary64_hue _ _ (hue64 hS design) (hue64 hS source)⟩

/-! ## C66 -/

/-- C66 (binary64): for hues being between is exactly lying on the arc that goes up from the first to the second (every hue, if they are
equal); `turn` is the exact number of degrees from `a` up to `y`. -/
theorem c66_binary64 (x a b : 𝔻) (hx : HueIn x) (ha : HueIn a) (hb : HueIn b)
    (h360 : val x < 360 ∧ val a < 360 ∧ val b < 360) :
    let turn (y : 𝔻) : ℝ := if val a ≤ val y then val y - val a else val y - val a + 360
    isBetween x a b = true ↔ val a = val b ∨ turn x ≤ turn b := by
  intro turn
  have ia := is_of a ha.1
  have ib := is_of b hb.1
  have ix := is_of x hx.1
  have e : isBetween x a b = isBetween (val x) (val a) (val b) := by
    simp only [isBetween, ia.lt_iff ib, ia.le_iff ix, ix.le_iff ib]
  have key (y : 𝔻) (hy : HueIn y) (h : val y < 360) : sanitizeDegreesDouble (val y - val a) = turn y := by
    simp only [turn]
    split
    · next h' => exact (c06_unique (val y - val a) _ (by linarith) (by linarith [ha.2.1]) ⟨0, by simp⟩).symm
    · next h' =>
      exact (c06_unique (val y - val a) _ (by linarith [hy.2.1, ha.2.2, h360.2.1]) (by linarith) ⟨1, by simp⟩).symm
  rw [e, c66_between _ _ _ ⟨hx.2.1, h360.1⟩ ⟨ha.2.1, h360.2.1⟩ ⟨hb.2.1, h360.2.2⟩, key x hx h360.1, key b hb h360.2.2]

/-! ## C77 -/

/-- Rounding a double to an integer is exact. -/
theorem round64 {x : 𝔻} {a : ℝ} (hx : Is x a) (h : |a| ≤ 1000) : Is (Fl.round x) (realRound a) := by
  obtain ⟨n, hn⟩ : ∃ n : ℤ, n = (fun v : ℝ => if 0 ≤ v then ⌊v + 1 / 2⌋ else ⌈v - 1 / 2⌉) (Dbl.val x) := ⟨_, rfl⟩
  have e : realRound a = n := by
    rw [hn, hx.2]; unfold realRound
    simp only
    split <;> rfl
  have hd := abs_le.1 (abs_realRound_sub a)
  have h := abs_le.1 h
  rw [e] at hd
  have h1 : (n : ℝ) ≤ ((2000 : ℤ) : ℝ) := by norm_num; linarith
  have h2 : ((-2000 : ℤ) : ℝ) ≤ (n : ℝ) := by norm_num; linarith
  have h1 : n ≤ 2000 := by exact_mod_cast h1
  have h2 : -2000 ≤ n := by exact_mod_cast h2
  rw [e]
  exact is_toInteger (L := L) _ (by norm_num) x hx.1 n hn.symm (by rw [abs_le]; constructor <;> omega)

/-- What a tone prefers and allows is decided exactly. -/
theorem prefers64 {x : 𝔻} {a : ℝ} (hx : Is x a) (h : |a| ≤ 1000) :
    tonePrefersLightForeground x = tonePrefersLightForeground a ∧ toneAllowsLightForeground x = toneAllowsLightForeground a := by
  have hr := round64 hx h
  have e60 : (60.0 : ℝ) = 60 := by norm_num
  have e49 : (49.0 : ℝ) = 49 := by norm_num
  constructor
  · simp only [tonePrefersLightForeground, hr.lt_iff l60, fl_round, e60]
  · simp only [toneAllowsLightForeground, hr.le_iff l49, fl_round, e49]

/-- C77 (binary64): the tone that `enable_light_foreground` gives for a tone from 0 to 100 is the same number as in exact arithmetic; the
contrast with white or black is at least 4.5 or 6.5, up to 10⁻⁶. -/
theorem c77_binary64 (t : 𝔻) (ht : Fin t) (h0 : 0 ≤ val t) (h1 : val t ≤ 100) :
    val (enableLightForeground t) = (if 49.5 ≤ val t ∧ val t < 59.5 then 49 else val t) ∧
    (if tonePrefersLightForeground (enableLightForeground t)
      then 4.5 - 1 / 10 ^ 6 ≤ val (ratioOfTones 100.0 (enableLightForeground t))
      else 6.5 - 1 / 10 ^ 6 ≤ val (ratioOfTones 0.0 (enableLightForeground t))) ∧
    tonePrefersLightForeground (enableLightForeground t) = tonePrefersLightForeground t ∧
    enableLightForeground (enableLightForeground t) = enableLightForeground t := by
  have small {u : ℝ} (h0 : 0 ≤ u) (h1 : u ≤ 100) : |u| ≤ 1000 := by rw [abs_of_nonneg h0]; linarith
  have it := is_of t ht
  obtain ⟨p, a⟩ := prefers64 it (small h0 h1)
  obtain ⟨p49, a49⟩ := prefers64 (l49 (L := L)) (by norm_num)
  have e49 : (49.0 : ℝ) = 49 := by norm_num
  have is : Is (enableLightForeground t) (enableLightForeground (val t)) := by
    simp only [enableLightForeground, p, a]
    split
    · rw [e49]; exact l49
    · exact it
  obtain ⟨r1, r2, r3, -⟩ := c77_light_foreground (val t) h0 h1
  have hb : |enableLightForeground (val t)| ≤ 1000 := by
    rw [r1]; split
    · norm_num
    · exact small h0 h1
  obtain ⟨p', -⟩ := prefers64 is hb
  refine ⟨(show val _ = _ from is.2).trans r1, ?_, by rw [p', p, r3], ?_⟩
  · rw [p']
    have n1 := abs_le.1 (ratio_near (l100 (L := L)) is)
    have n2 := abs_le.1 (ratio_near (l0 (L := L)) is)
    split
    · next h => rw [if_pos h] at r2; linarith
    · next h => rw [if_neg h] at r2; linarith
  · have hid : enableLightForeground (49.0 : 𝔻) = 49.0 := by
      simp only [enableLightForeground]; split <;> rfl
    by_cases hc : (tonePrefersLightForeground t && !toneAllowsLightForeground t) = true
    · have : enableLightForeground t = 49.0 := by simp only [enableLightForeground, if_pos hc]
      rw [this, hid]
    · have : enableLightForeground t = t := by simp only [enableLightForeground, if_neg hc]
      rw [this, this]

/-- The tone 55, which becomes 49. -/
example : Fin (55.0 : 𝔻) ∧ 49.5 ≤ val (55.0 : 𝔻) ∧ val (55.0 : 𝔻) < 59.5 := by
  have h := lit (L := L) 550 1 true 55 (by norm_num) (by norm_num)
  refine ⟨h.1, ?_⟩
  rw [show val (55.0 : 𝔻) = _ from h.2]; norm_num

/-! ## C61 -/

/-- C61 (binary64): a hue strictly inside the first interval of the table that contains it is turned by the rotation of that interval, up to
whole turns and an error of 2·10⁻¹² degrees. -/
theorem c61_binary64_interval (src : Hct 𝔻) (hues rotations : List 𝔻) (hl : hues.length = rotations.length)
    (i : Nat) (a b r : 𝔻) (ha : hues[i]? = some a) (hb : hues[i + 1]? = some b) (hr : rotations[i]? = some r)
    (hs : HueIn src.getHue) (fr : Fin r) (hr' : |val r| ≤ 360) (fa : Fin a) (fb : Fin b)
    (h1 : val a < val src.getHue) (h2 : val src.getHue < val b)
    (hfirst : ∀ j, j < i → ∀ a' b', hues[j]? = some a' → hues[j + 1]? = some b' →
      ¬ (a' < src.getHue ∧ src.getHue < b')) :
    ∃ x, getRotatedHue src hues rotations = some x ∧ HueIn x ∧
      ∃ k : ℤ, |val x - (val src.getHue + val r + 360 * k)| ≤ 2 / 10 ^ 12 := by
  have hlen : i + 1 < hues.length := (List.getElem?_eq_some_iff.1 hb).1
  rw [getRotatedHue_long src hues rotations hl (by omega)]
  refine ⟨_, rfl, ?_⟩
  rw [rotateLoop_first src.getHue i hues rotations a b r ha hb hr (((is_of a fa).lt_iff (is_of _ hs.1)).2 h1)
    (((is_of _ hs.1).lt_iff (is_of b fb)).2 h2) hfirst]
  have hr' := abs_le.1 hr'
  exact turn64 (is_of _ hs.1) (is_of r fr) (by
    rw [abs_le]; constructor <;> linarith [hs.2.1, hs.2.2])

/-- C61: for any number type, a hue that is strictly inside no interval is not turned at all. -/
theorem c61_outside_any {F : Type} [Fl F] (src : Hct F) (hues rotations : List F) (hl : hues.length = rotations.length)
    (hlen : hues.length ≠ 1)
    (hno : ∀ j a b, hues[j]? = some a → hues[j + 1]? = some b → ¬ (a < src.getHue ∧ src.getHue < b)) :
    getRotatedHue src hues rotations = some src.getHue := by
  rw [getRotatedHue_long src hues rotations hl hlen, rotateLoop_none _ _ _ hno]

/-- C61 (binary64): for every colour and all tables of equal length with finite rotations of at most a turn, the answer is an angle. -/
theorem c61_binary64_angle (hS : L.Sound) (argb : Int) (hues rotations : List 𝔻) (hl : hues.length = rotations.length)
    (hr : ∀ r ∈ rotations, Fin r ∧ |val r| ≤ 360) :
    ∃ x, getRotatedHue (Hct.fromInt argb) hues rotations = some x ∧ HueIn x := by
  have hh := hue64 hS argb
  generalize (Hct.fromInt argb : Hct 𝔻) = src at hh
  have turn (r : 𝔻) (h : Fin r ∧ |val r| ≤ 360) : HueIn (sanitizeDegreesDouble (src.getHue + r)) := by
    have h' := abs_le.1 h.2
    exact (turn64 (is_of _ hh.1) (is_of r h.1) (by rw [abs_le]; constructor <;> linarith [hh.2.1, hh.2.2])).1
  have loop : ∀ (hues rotations : List 𝔻), (∀ r ∈ rotations, Fin r ∧ |val r| ≤ 360) →
      HueIn (rotateLoop src.getHue hues rotations) := by
    intro hues
    induction hues with
    | nil => intro _ _; exact hh
    | cons a hs ih =>
      intro rotations hr
      match hs, rotations with
      | [], [] => exact hh
      | [], _ :: _ => exact hh
      | b :: hs, [] => exact hh
      | b :: hs, r :: rs =>
        simp only [rotateLoop]
        split
        · exact turn r (hr r (List.mem_cons_self ..))
        · exact ih rs fun r h => hr r (List.mem_cons_of_mem _ h)
  by_cases h1 : hues.length = 1
  · obtain ⟨r, rfl⟩ := List.length_eq_one_iff.1 (hl ▸ h1)
    refine ⟨sanitizeDegreesDouble (src.getHue + r), ?_, turn r (hr r (List.mem_cons_self ..))⟩
    simp only [getRotatedHue, if_pos hl]
  · exact ⟨_, getRotatedHue_long src hues rotations hl h1, loop hues rotations hr⟩

/-- A table with one rotation of 35 degrees. -/
example : ∀ r ∈ [(35.0 : 𝔻)], Fin r ∧ |val r| ≤ 360 := by
  have h := lit (L := L) 350 1 true 35 (by norm_num) (by norm_num)
  intro r hr
  rw [List.mem_singleton] at hr
  subst hr
  refine ⟨h.1, ?_⟩
  rw [show val (35.0 : 𝔻) = _ from h.2]; norm_num

end Mcu.Props.Binary64
