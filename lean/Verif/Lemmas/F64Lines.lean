import Verif.Lemmas.F64Planes

/-! Points computed on a segment of the RGB cube in IEEE-754 binary64: how far a computed point is from the line, and how far
it can overshoot the segment. -/

namespace Mcu.Lemmas

open Mcu.Ieee Props Props.Binary64 MathUtils ColorUtils HctSolver

variable {L : Libm}

local notation "𝔻" => F64 L

/-- Two different doubles are not arbitrarily close. -/
theorem rep_gap {a b : ℝ} (ha : Rep a) (hb : Rep b) (h0 : 0 < a) (h : a < b) : a / 2 ^ 53 ≤ b - a := by
  obtain ⟨m, e, h1, -, rfl⟩ := ha
  obtain ⟨n, f, h2, -, rfl⟩ := hb
  have two : ∀ k : ℤ, (0 : ℝ) < 2 ^ k := two_zpow_pos
  have h1' : ((m : ℤ) : ℝ) ≤ 2 ^ 53 := by
    have : (m : ℝ) ≤ ((2 ^ 53 : ℤ) : ℝ) := by exact_mod_cast (abs_lt.1 h1).2.le
    exact this.trans (by norm_num)
  have h2' : ((n : ℤ) : ℝ) ≤ 2 ^ 53 := by
    have : (n : ℝ) ≤ ((2 ^ 53 : ℤ) : ℝ) := by exact_mod_cast (abs_lt.1 h2).2.le
    exact this.trans (by norm_num)
  -- the difference is a multiple of the smaller place
  have key : ∀ g : ℤ, g ≤ e → g ≤ f → (2 : ℝ) ^ g ≤ (n : ℝ) * 2 ^ f - m * 2 ^ e := by
    intro g he hf
    obtain ⟨i, hi⟩ := Int.eq_ofNat_of_zero_le (sub_nonneg.2 he)
    obtain ⟨j, hj⟩ := Int.eq_ofNat_of_zero_le (sub_nonneg.2 hf)
    have e1 : (2 : ℝ) ^ e = 2 ^ g * 2 ^ i := by
      rw [← zpow_natCast, ← zpow_add₀ (by norm_num)]; congr 1; omega
    have e2 : (2 : ℝ) ^ f = 2 ^ g * 2 ^ j := by
      rw [← zpow_natCast, ← zpow_add₀ (by norm_num)]; congr 1; omega
    have e3 : (n : ℝ) * 2 ^ f - m * 2 ^ e = 2 ^ g * ((n * 2 ^ j - m * 2 ^ i : ℤ) : ℝ) := by
      rw [e1, e2]; push_cast; ring
    have hpos : 0 < (n : ℝ) * 2 ^ f - m * 2 ^ e := sub_pos.2 h
    rw [e3] at hpos ⊢
    have hz : (0 : ℝ) < ((n * 2 ^ j - m * 2 ^ i : ℤ) : ℝ) := (mul_pos_iff_of_pos_left (two g)).1 hpos
    have hz' : (1 : ℤ) ≤ n * 2 ^ j - m * 2 ^ i := by exact_mod_cast hz
    have : (1 : ℝ) ≤ ((n * 2 ^ j - m * 2 ^ i : ℤ) : ℝ) := by exact_mod_cast hz'
    nlinarith [two g]
  rcases le_total e f with hef | hef
  · refine le_trans ?_ (key e le_rfl hef)
    rw [div_le_iff₀ (by positivity), mul_comm]
    exact mul_le_mul_of_nonneg_left h1' (two e).le
  · refine le_trans ?_ (key f hef le_rfl)
    rw [div_le_iff₀ (by positivity)]
    refine h.le.trans ?_
    rw [mul_comm]
    exact mul_le_mul_of_nonneg_left h2' (two f).le

/-- One rounding of a number that may be large. -/
theorem rnd_large {v : ℝ} (h : |v| ≤ 2 ^ 50) :
    |rnd v| < 2 ^ 1024 ∧ |rnd v - v| ≤ |v| * (2 / 10 ^ 16) + 1 / 10 ^ 60 := by
  refine ⟨small 50 (by norm_num) h, (rnd_error v).trans ?_⟩
  have h1 : (2 : ℝ) ^ (-1075 : ℤ) ≤ 2 ^ (-200 : ℤ) := zpow_le_zpow_right₀ (by norm_num) (by norm_num)
  have h2 : (2 : ℝ) ^ (-200 : ℤ) ≤ 1 / 10 ^ 60 := by norm_num
  have h3 : (2 : ℝ) ^ (-53 : ℤ) ≤ 2 / 10 ^ 16 := by norm_num
  exact add_le_add (mul_le_mul_of_nonneg_left h3 (abs_nonneg _)) (h1.trans h2)

/-- The parameter of the plane on the segment: `g` is the length of the segment along the axis and `h` how far the plane may
lie outside. -/
theorem intercept64 {x c z : 𝔻} {a q b g h : ℝ} (hx : Is x a) (hc : Is c q) (hz : Is z b) (hab : |b - a| = g)
    (hg0 : 1 / 10 ^ 20 ≤ g) (hg1 : g ≤ 200) (h0 : 0 ≤ h) (hh : h ≤ 10 ^ 6 * g) (h1 : h ≤ 1)
    (hr0 : -(h / g) ≤ (q - a) / (b - a)) (hr1 : (q - a) / (b - a) ≤ 1 + h / g) :
    ∃ u, Is (intercept x c z) u ∧ |u - (q - a) / (b - a)| ≤ (1 + h / g) / 10 ^ 15 ∧ |u| ≤ 2 * 10 ^ 6 := by
  have hg : 0 < g := lt_of_lt_of_le (by norm_num) hg0
  have hD : b - a ≠ 0 := by rw [← abs_pos, hab]; exact hg
  set R := (q - a) / (b - a) with hR
  have hN : q - a = R * (b - a) := by rw [hR]; field_simp
  have hgh : h / g ≤ 10 ^ 6 := by rw [div_le_iff₀ hg]; exact hh
  have hgh0 : 0 ≤ h / g := by positivity
  have hRabs : |R| ≤ 1 + h / g := by rw [abs_le]; constructor <;> linarith
  have hNabs : |q - a| = |R| * g := by rw [hN, abs_mul, hab]
  have hNle : |q - a| ≤ 201 := by
    rw [hNabs]
    calc |R| * g ≤ (1 + h / g) * g := by gcongr
      _ = g + h := by field_simp
      _ ≤ 201 := by linarith
  obtain ⟨b1, c1⟩ := rnd_fine (v := q - a) (hNle.trans (by norm_num))
  obtain ⟨b2, c2⟩ := rnd_fine (v := b - a) (by rw [hab]; linarith)
  have i1 := hc.sub hx b1
  have i2 := hz.sub hx b2
  rw [hab] at c2
  rw [hNabs] at c1
  generalize rnd (q - a) = n at *
  generalize rnd (b - a) = d at *
  generalize hDD : b - a = D at *
  have tiny : (1 : ℝ) / 10 ^ 60 ≤ g / 10 ^ 40 := by
    rw [le_div_iff₀ (by norm_num)]; refine le_trans ?_ hg0; norm_num
  have c2' : |d - D| ≤ g * (3 / 10 ^ 16) := c2.trans (by linarith)
  have dabs : g * (1 - 3 / 10 ^ 16) ≤ |d| := by
    have := abs_sub_abs_le_abs_sub D d
    rw [abs_sub_comm, hab] at this
    linarith
  have d0 : 0 < |d| := lt_of_lt_of_le (by positivity) dabs
  have hd : d ≠ 0 := abs_pos.1 d0
  -- the quotient
  have c3 : |n / d - R| ≤ |R| * (6 / 10 ^ 16) + 2 / 10 ^ 40 := by
    have e : n / d - R = ((n - (q - a)) + R * (D - d)) / d := by
      rw [hN]; field_simp; ring
    rw [e, abs_div, div_le_iff₀ d0]
    refine (abs_add_le _ _).trans ?_
    rw [abs_mul, abs_sub_comm D d]
    have m1 : |R| * |d - D| ≤ |R| * (g * (3 / 10 ^ 16)) := by gcongr
    have m2 : (|R| * (6 / 10 ^ 16) + 2 / 10 ^ 40) * (g * (1 - 3 / 10 ^ 16)) ≤ (|R| * (6 / 10 ^ 16) + 2 / 10 ^ 40) * |d| := by
      gcongr
    refine le_trans ?_ m2
    have hRg : 0 ≤ |R| * g := by positivity
    have e3 : (|R| * (6 / 10 ^ 16) + 2 / 10 ^ 40) * (g * (1 - 3 / 10 ^ 16)) =
      (|R| * g) * (6 / 10 ^ 16 * (1 - 3 / 10 ^ 16)) + g / 10 ^ 40 * (2 * (1 - 3 / 10 ^ 16)) := by ring
    rw [e3]
    have e4 : |R| * (g * (3 / 10 ^ 16)) = (|R| * g) * (3 / 10 ^ 16) := by ring
    rw [e4] at m1
    have hg40 : 0 ≤ g / 10 ^ 40 := by positivity
    generalize |R| * g = X at *
    generalize g / 10 ^ 40 = Y at *
    norm_num at tiny c1 m1 ⊢
    linarith
  have hq : |n / d| ≤ 1.5 * 10 ^ 6 := by
    have := abs_sub_abs_le_abs_sub (n / d) R
    have hR6 : |R| ≤ 1 + 10 ^ 6 := hRabs.trans (by linarith)
    norm_num at c3 hR6 ⊢
    linarith
  obtain ⟨b3, c4⟩ := rnd_large (v := n / d) (hq.trans (by norm_num))
  have i3 := i1.div i2 hd b3
  refine ⟨_, i3, ?_, ?_⟩
  · have e : rnd (n / d) - R = (rnd (n / d) - n / d) + (n / d - R) := by ring
    rw [e]
    refine (abs_add_le _ _).trans ?_
    have := abs_sub_abs_le_abs_sub (n / d) R
    have hR0 := abs_nonneg R
    generalize rnd (n / d) = u at *
    generalize n / d = w at *
    norm_num at c3 c4 ⊢
    linarith
  · have := abs_sub_abs_le_abs_sub (rnd (n / d)) (n / d)
    norm_num at c4 hq ⊢
    linarith

/-- One coordinate of the interpolated point. -/
theorem lerp64 {x z t : 𝔻} {a b u : ℝ} (hx : Is x a) (hz : Is z b) (ht : Is t u) (ha : |a| ≤ 101) (hb : |b| ≤ 101)
    (hu : |u| ≤ 2 * 10 ^ 6) (hp : |(b - a) * u| ≤ 102) :
    ∃ v, Is (x + (z - x) * t) v ∧ |v - (a + (b - a) * u)| ≤ 1 / 10 ^ 13 ∧ (a = b → v = a) := by
  have hba : |b - a| ≤ 202 := (abs_sub _ _).trans (by linarith)
  obtain ⟨b1, c1⟩ := rnd_fine (v := b - a) (hba.trans (by norm_num))
  have i1 := hz.sub hx b1
  have c2 : |rnd (b - a) * u - (b - a) * u| ≤ 3 / 10 ^ 14 := by
    rw [← sub_mul, abs_mul]
    have : |rnd (b - a) - (b - a)| * |u| ≤ (|b - a| * (2 / 10 ^ 16) + 1 / 10 ^ 60) * |u| := by gcongr
    refine this.trans ?_
    rw [abs_mul] at hp
    have e : (|b - a| * (2 / 10 ^ 16) + 1 / 10 ^ 60) * |u| = (|b - a| * |u|) * (2 / 10 ^ 16) + |u| / 10 ^ 60 := by ring
    rw [e]
    norm_num at hp hu ⊢
    linarith
  have h0 : a = b → rnd (b - a) = 0 := by rintro rfl; rw [sub_self, rnd_zero]
  generalize rnd (b - a) = d at *
  have hp2 : |d * u| ≤ 103 := by
    have := abs_sub_abs_le_abs_sub (d * u) ((b - a) * u)
    norm_num at c2; linarith
  obtain ⟨b3, c3⟩ := rnd_fine (v := d * u) (hp2.trans (by norm_num))
  have i2 := i1.mul ht b3
  have h0' : a = b → rnd (d * u) = 0 := by intro h; rw [h0 h, zero_mul, rnd_zero]
  generalize (b - a) * u = w at *
  generalize hdu : d * u = du at *
  generalize rnd du = p at *
  have hp3 : |a + p| ≤ 205 := by
    have h1 := abs_add_le a p
    have h2 := abs_sub_abs_le_abs_sub p du
    norm_num at c3; linarith
  obtain ⟨b4, c4⟩ := rnd_fine (v := a + p) (hp3.trans (by norm_num))
  have i3 := hx.add i2 b4
  refine ⟨_, i3, ?_, ?_⟩
  · have e : rnd (a + p) - (a + w) = (rnd (a + p) - (a + p)) + ((p - du) + (du - w)) := by ring
    rw [e]
    refine (abs_add_le _ _).trans ((add_le_add c4 ((abs_add_le (p - du) (du - w)).trans (add_le_add c3 c2))).trans ?_)
    norm_num
    linarith
  · intro h
    rw [h0' h, add_zero, hx.rep.rnd_eq]

/-! ### Points near a segment -/

/-- A point within `ε` of the line `A + s D`, with `s` in the unit interval extended by `δ`. -/
def OnLine (A D : Fin 3 → ℝ) (ε δ : ℝ) (P : Fin 3 → ℝ) : Prop :=
  ∃ s, -δ ≤ s ∧ s ≤ 1 + δ ∧ ∀ i, |P i - (A i + s * D i)| ≤ ε ∧ (D i = 0 → P i = A i)

theorem OnLine.mono {A D P : Fin 3 → ℝ} {ε δ ε' δ' : ℝ} (h : OnLine A D ε δ P) (he : ε ≤ ε') (hd : δ ≤ δ') :
    OnLine A D ε' δ' P := by
  obtain ⟨s, h0, h1, h2⟩ := h
  exact ⟨s, by linarith, by linarith, fun i => ⟨(h2 i).1.trans he, (h2 i).2⟩⟩

theorem OnLine.range {A D P : Fin 3 → ℝ} {ε δ : ℝ} (h : OnLine A D ε δ P) (hδ : 0 ≤ δ) (i : Fin 3) (hA : 0 ≤ A i ∧ A i ≤ 100)
    (hB : 0 ≤ A i + D i ∧ A i + D i ≤ 100) : -(100 * δ + ε) ≤ P i ∧ P i ≤ 100 + 100 * δ + ε := by
  obtain ⟨s, h0, h1, h2⟩ := h
  have h3 := abs_le.1 (h2 i).1
  have e : A i + s * D i = (1 - s) * A i + s * (A i + D i) := by ring
  rw [e] at h3
  generalize A i + D i = B at *
  generalize A i = a at *
  obtain ⟨ha0, ha1⟩ := hA
  obtain ⟨hb0, hb1⟩ := hB
  have k1 : -(100 * δ) ≤ (1 - s) * a + s * B := by
    rcases le_total 0 s with hs | hs
    · rcases le_total s 1 with hs1 | hs1
      · nlinarith [mul_nonneg (sub_nonneg.2 hs1) ha0, mul_nonneg hs hb0]
      · nlinarith [mul_nonneg hs hb0]
    · nlinarith [mul_nonneg (show 0 ≤ 1 - s by linarith) ha0]
  have k2 : (1 - s) * a + s * B ≤ 100 + 100 * δ := by
    rcases le_total 0 s with hs | hs
    · rcases le_total s 1 with hs1 | hs1
      · nlinarith [mul_le_mul_of_nonneg_left ha1 (sub_nonneg.2 hs1), mul_le_mul_of_nonneg_left hb1 hs]
      · nlinarith [mul_le_mul_of_nonneg_left hb1 hs]
    · nlinarith [mul_le_mul_of_nonneg_left ha1 (show 0 ≤ 1 - s by linarith)]
  constructor <;> linarith

/-- Interpolation between two such points. -/
theorem OnLine.step {A D P Q M : Fin 3 → ℝ} {ε δ κ r u : ℝ} (hP : OnLine A D ε δ P) (hQ : OnLine A D ε δ Q) (hε : 0 ≤ ε)
    (hδ : 0 ≤ δ) (hκ : 0 ≤ κ) (hu0 : -κ ≤ u) (hu1 : u ≤ 1 + κ) (hM : ∀ i, |M i - (P i + (Q i - P i) * u)| ≤ r)
    (hE : ∀ i, P i = Q i → M i = P i) : OnLine A D (ε * (1 + 2 * κ) + r) (δ + κ * (1 + 2 * δ)) M := by
  obtain ⟨s, s0, s1, s2⟩ := hP
  obtain ⟨t, t0, t1, t2⟩ := hQ
  have hst : |t - s| ≤ 1 + 2 * δ := by rw [abs_le]; constructor <;> linarith
  have hst' := abs_le.1 hst
  refine ⟨s + (t - s) * u, ?_, ?_, fun i => ⟨?_, ?_⟩⟩
  · rcases le_total 0 u with h | h
    · rcases le_total u 1 with h' | h'
      · nlinarith
      · have : s + (t - s) * u = t + (t - s) * (u - 1) := by ring
        rw [this]
        nlinarith [mul_nonneg hκ (show 0 ≤ 1 + 2 * δ by linarith)]
    · nlinarith [mul_nonneg hκ (show 0 ≤ 1 + 2 * δ by linarith)]
  · rcases le_total 0 u with h | h
    · rcases le_total u 1 with h' | h'
      · nlinarith [mul_nonneg hκ (show 0 ≤ 1 + 2 * δ by linarith)]
      · have : s + (t - s) * u = t + (t - s) * (u - 1) := by ring
        rw [this]
        nlinarith [mul_nonneg hκ (show 0 ≤ 1 + 2 * δ by linarith)]
    · nlinarith [mul_nonneg hκ (show 0 ≤ 1 + 2 * δ by linarith)]
  · have e : M i - (A i + (s + (t - s) * u) * D i) = (M i - (P i + (Q i - P i) * u)) +
      ((P i - (A i + s * D i)) * (1 - u) + (Q i - (A i + t * D i)) * u) := by ring
    rw [e]
    refine (abs_add_le _ _).trans ?_
    have h1 := abs_add_le ((P i - (A i + s * D i)) * (1 - u)) ((Q i - (A i + t * D i)) * u)
    rw [abs_mul, abs_mul] at h1
    have h2 : |P i - (A i + s * D i)| * |1 - u| ≤ ε * |1 - u| := by gcongr; exact (s2 i).1
    have h3 : |Q i - (A i + t * D i)| * |u| ≤ ε * |u| := by gcongr; exact (t2 i).1
    have h4 : |1 - u| + |u| ≤ 1 + 2 * κ := by
      rcases le_total 0 u with h | h
      · rw [abs_of_nonneg h]
        rcases le_total u 1 with h' | h'
        · rw [abs_of_nonneg (by linarith)]; linarith
        · rw [abs_of_nonpos (by linarith)]; linarith
      · rw [abs_of_nonpos h, abs_of_nonneg (by linarith)]; linarith
    have h5 : ε * |1 - u| + ε * |u| ≤ ε * (1 + 2 * κ) := by rw [← mul_add]; gcongr
    have := hM i
    linarith
  · intro hD
    rw [hE i ((s2 i).2 hD ▸ ((t2 i).2 hD).symm), (s2 i).2 hD]

/-- The real coordinates of a point with finite coordinates. -/
def IsV (v : Vec3 𝔻) (V : Fin 3 → ℝ) : Prop := ∀ i, Is (v.get i) (V i)

theorem lerp_get64 (S T : Vec3 𝔻) (t : 𝔻) (i : Fin 3) :
    (lerpPoint S t T).get i = S.get i + (T.get i - S.get i) * t := by
  fin_cases i <;> rfl

theorem plane64 {m : ℕ} (h : m < 255) :
    ∃ c, Is ((criticalPlanes : List 𝔻).getD m 0.0) c ∧ |c - plane m| ≤ 3 / 10 ^ 14 := by
  have hl : m < criticalPlanesTable.length := by
    have := planes_length
    rw [criticalPlanes, List.length_map] at this
    omega
  have h0 := plane_low h
  have h1 := plane_high h
  norm_num at h0 h1
  have hb : |plane m| ≤ 100 := by rw [abs_le]; constructor <;> linarith
  unfold plane criticalPlanes at *
  simp only [List.getD_eq_getElem?_getD, List.getElem?_map, List.getElem?_eq_getElem hl, Option.map_some,
    Option.getD_some] at *
  obtain ⟨c, i, hc⟩ := is_dec (L := L) (m := criticalPlanesTable[m].1) (s := true) (e := criticalPlanesTable[m].2) rfl 100
    (by norm_num) hb
  exact ⟨c, i, hc.trans (by norm_num)⟩

/-- A number within `h` of the interval between two others. -/
theorem quot_range {a b c h : ℝ} (hne : a ≠ b) (hlo : min a b - h ≤ c) (hhi : c ≤ max a b + h) :
    -(h / |b - a|) ≤ (c - a) / (b - a) ∧ (c - a) / (b - a) ≤ 1 + h / |b - a| := by
  rcases lt_or_gt_of_ne hne with hlt | hlt
  · have hp : 0 < b - a := by linarith
    rw [min_eq_left hlt.le] at hlo
    rw [max_eq_right hlt.le] at hhi
    rw [abs_of_pos hp, ← neg_div, div_le_div_iff_of_pos_right hp]
    refine ⟨by linarith, ?_⟩
    rw [div_le_iff₀ hp, add_mul, div_mul_cancel₀ _ hp.ne']; linarith
  · have hp : 0 < a - b := by linarith
    rw [min_eq_right hlt.le] at hlo
    rw [max_eq_left hlt.le] at hhi
    rw [abs_of_neg (by linarith), neg_sub, show (c - a) / (b - a) = (a - c) / (a - b) by
      rw [← neg_sub a c, ← neg_sub a b, neg_div_neg_eq], ← neg_div, div_le_div_iff_of_pos_right hp]
    refine ⟨by linarith, ?_⟩
    rw [div_le_iff₀ hp, add_mul, div_mul_cancel₀ _ hp.ne']; linarith

/-- Two ends whose planes bracket plane `m` are on either side of it up to a small relative error. -/
def Straddle (m : ℕ) (a b : ℝ) : Prop :=
  min a b ≤ plane m * (1 + 4 / 10 ^ 13) ∧ plane m * (1 - 4 / 10 ^ 13) ≤ max a b

/-- The parameter for plane `m`. -/
theorem param64 {x z : 𝔻} {a b : ℝ} {m : ℕ} (hm : m < 255) (hx : Is x a) (hz : Is z b) (ha : -0.1 ≤ a ∧ a ≤ 100.1) (hb : -0.1 ≤ b ∧ b ≤ 100.1)
    (hg : plane m / 10 ^ 16 ≤ |b - a|) (h : Straddle m a b) :
    ∃ u, Is (intercept x ((criticalPlanes : List 𝔻).getD m 0.0) z) u ∧ |u| ≤ 2 * 10 ^ 6 ∧
      -(plane m * (26 / 10 ^ 12) / |b - a| + 2 / 10 ^ 15) ≤ u ∧ u ≤ 1 + (plane m * (26 / 10 ^ 12) / |b - a| + 2 / 10 ^ 15) ∧
      |(b - a) * u - (plane m - a)| ≤ 5 / 10 ^ 13 := by
  obtain ⟨c, ic, hc⟩ := plane64 (L := L) hm
  have hc' := abs_le.1 hc
  have p0 := plane_low hm
  have p1 := plane_high hm
  obtain ⟨hlo, hhi⟩ := h
  norm_num at p0 p1
  set g := |b - a| with hgd
  have g0 : 0 < g := lt_of_lt_of_le (by positivity) hg
  have g1 : g ≤ 100.2 := by rw [hgd, abs_le]; norm_num at *; constructor <;> linarith
  have hne : a ≠ b := by
    intro h; rw [hgd, h, sub_self, abs_zero] at g0; exact lt_irrefl _ g0
  set h := plane m * (25 / 10 ^ 12) with hh
  have h0 : 0 ≤ h := by rw [hh]; positivity
  obtain ⟨q0, q1⟩ := quot_range (a := a) (b := b) (c := c) (h := h) hne
    (by generalize min a b = mn at *; norm_num at hc' hlo hh ⊢; linarith)
    (by generalize max a b = mx at *; norm_num at hc' hhi hh ⊢; linarith)
  rw [← hgd] at q0 q1
  norm_num at g1
  obtain ⟨u, iu, eu, bu⟩ := intercept64 (g := g) (h := h) hx ic hz rfl
    (le_trans (by rw [div_le_div_iff₀ (by norm_num) (by norm_num)]; norm_num; linarith) hg) (by linarith) h0
    (by rw [hh]
        have : plane m ≤ 10 ^ 16 * g := by rw [div_le_iff₀ (by norm_num)] at hg; linarith
        norm_num at this ⊢; linarith)
    (by rw [hh]; norm_num; linarith) q0 q1
  have hhg : 0 ≤ h / g := by positivity
  have e26 : plane m * (26 / 10 ^ 12) / g = 26 / 25 * (h / g) := by rw [hh]; ring
  refine ⟨u, iu, bu, ?_, ?_, ?_⟩
  · rw [e26]
    have := (abs_le.1 eu).1
    norm_num at this ⊢; linarith
  · rw [e26]
    have := (abs_le.1 eu).2
    norm_num at this ⊢; linarith
  · have hD : b - a ≠ 0 := sub_ne_zero.2 hne.symm
    have e : (b - a) * u - (plane m - a) = (b - a) * (u - (c - a) / (b - a)) + (c - plane m) := by
      field_simp; ring
    rw [e]
    refine (abs_add_le _ _).trans ?_
    rw [abs_mul, ← hgd]
    have m1 : g * |u - (c - a) / (b - a)| ≤ g * ((1 + h / g) / 10 ^ 15) := by gcongr
    have m2 : g * ((1 + h / g) / 10 ^ 15) = (g + h) / 10 ^ 15 := by field_simp
    rw [m2] at m1
    have hhb : h ≤ 1 := by rw [hh]; norm_num; linarith
    norm_num at m1 hc ⊢; linarith

/-- One round of the bisection over a segment of moderate length along the axis. -/
theorem round64 {A D P Q : Fin 3 → ℝ} {ε δ : ℝ} {S T : Vec3 𝔻} {axis : Fin 3} {m : ℕ} (hm : m < 255)
    (hAB : ∀ i, (0 ≤ A i ∧ A i ≤ 100) ∧ 0 ≤ A i + D i ∧ A i + D i ≤ 100)
    (hS : IsV S P) (hT : IsV T Q) (hP : OnLine A D ε δ P) (hQ : OnLine A D ε δ Q)
    (he0 : 0 ≤ ε) (he1 : ε ≤ 1 / 10 ^ 11) (hd0 : 0 ≤ δ) (hd1 : δ ≤ 1 / 10 ^ 4)
    (hsep : 1 / 1000 ≤ |Q axis - P axis|) (h : Straddle m (P axis) (Q axis)) :
    ∃ M, IsV (setCoordinate S ((criticalPlanes : List 𝔻).getD m 0.0) T axis) M ∧
      OnLine A D (ε + 11 / 10 ^ 14) (δ + 27 / 10 ^ 7) M ∧ |M axis - plane m| ≤ 1 / 10 ^ 12 := by
  have p0 := plane_low hm
  have p1 := plane_high hm
  have rP : ∀ i, -0.1 ≤ P i ∧ P i ≤ 100.1 := fun i => by
    obtain ⟨h1, h2⟩ := hP.range hd0 i (hAB i).1 (hAB i).2
    norm_num at *; constructor <;> linarith
  have rQ : ∀ i, -0.1 ≤ Q i ∧ Q i ≤ 100.1 := fun i => by
    obtain ⟨h1, h2⟩ := hQ.range hd0 i (hAB i).1 (hAB i).2
    norm_num at *; constructor <;> linarith
  norm_num at p0 p1
  obtain ⟨u, iu, bu, u0, u1, hu⟩ := param64 hm (hS axis) (hT axis) (rP axis) (rQ axis)
    (le_trans (by rw [div_le_iff₀ (by norm_num)]; norm_num; linarith) hsep) h
  have gpos : 0 < |Q axis - P axis| := lt_of_lt_of_le (by norm_num) hsep
  have hκ : plane m * (26 / 10 ^ 12) / |Q axis - P axis| + 2 / 10 ^ 15 ≤ 26 / 10 ^ 7 := by
    have : plane m * (26 / 10 ^ 12) / |Q axis - P axis| ≤ 99.6 * (26 / 10 ^ 12) / (1 / 1000) := by
      have : plane m ≤ 99.6 := by norm_num; linarith
      gcongr
    refine (add_le_add_left this _).trans ?_
    norm_num
  have u0' : -(26 / 10 ^ 7) ≤ u := by linarith
  have u1' : u ≤ 1 + 26 / 10 ^ 7 := by linarith
  have key : ∀ i, ∃ v, Is ((setCoordinate S ((criticalPlanes : List 𝔻).getD m 0.0) T axis).get i) v ∧
      |v - (P i + (Q i - P i) * u)| ≤ 1 / 10 ^ 13 ∧ (P i = Q i → v = P i) := by
    intro i
    have a1 := rP i
    have a2 := rQ i
    norm_num at a1 a2
    simp only [setCoordinate, lerp_get64]
    refine lerp64 (hS i) (hT i) iu (by rw [abs_le]; constructor <;> linarith) (by rw [abs_le]; constructor <;> linarith) bu ?_
    rw [abs_mul]
    have b1 : |Q i - P i| ≤ 100.2 := by rw [abs_le]; norm_num; constructor <;> linarith
    have b2 : |u| ≤ 1.00001 := by rw [abs_le]; norm_num at u0' u1' ⊢; constructor <;> linarith
    calc |Q i - P i| * |u| ≤ 100.2 * 1.00001 := by gcongr
      _ ≤ 102 := by norm_num
  choose M hM1 hM2 hM3 using key
  refine ⟨M, hM1, ?_, ?_⟩
  · refine (hP.step hQ he0 hd0 (by norm_num) u0' u1' hM2 hM3).mono ?_ ?_
    · norm_num at he1 ⊢; linarith
    · norm_num at hd1 ⊢; linarith
  · have e : M axis - plane m = (M axis - (P axis + (Q axis - P axis) * u)) +
      ((Q axis - P axis) * u - (plane m - P axis)) := by ring
    rw [e]
    refine (abs_add_le _ _).trans ((add_le_add (hM2 axis) hu).trans (by norm_num))

/-- A point of the line through `p` and `q`, a little outside of the segment. -/
theorem hull_over {p q u κ lo hi w : ℝ} (hκ : 0 ≤ κ) (u0 : -κ ≤ u) (u1 : u ≤ 1 + κ)
    (hov : κ * |q - p| ≤ w) (hp : lo ≤ p ∧ p ≤ hi) (hq : lo ≤ q ∧ q ≤ hi) :
    lo - w ≤ p + (q - p) * u ∧ p + (q - p) * u ≤ hi + w := by
  have h0 := abs_nonneg (q - p)
  have w0 : 0 ≤ w := le_trans (by positivity) hov
  obtain ⟨p0, p1⟩ := hp
  obtain ⟨q0, q1⟩ := hq
  rcases le_total 0 u with h | h
  · rcases le_total u 1 with h' | h'
    · have e : p + (q - p) * u = p * (1 - u) + q * u := by ring
      rw [e]
      have a1 := mul_le_mul_of_nonneg_right p0 (sub_nonneg.2 h')
      have a2 := mul_le_mul_of_nonneg_right q0 h
      have a3 := mul_le_mul_of_nonneg_right p1 (sub_nonneg.2 h')
      have a4 := mul_le_mul_of_nonneg_right q1 h
      constructor <;> linarith
    · have e : p + (q - p) * u = q + (q - p) * (u - 1) := by ring
      have h3 : |(q - p) * (u - 1)| ≤ w := by
        rw [abs_mul, abs_of_nonneg (show 0 ≤ u - 1 by linarith), mul_comm]
        refine le_trans ?_ hov
        gcongr; linarith
      have h3 := abs_le.1 h3
      rw [e]
      constructor <;> linarith
  · have h3 : |(q - p) * u| ≤ w := by
      rw [abs_mul, abs_of_nonpos h, mul_comm]
      refine le_trans ?_ hov
      gcongr; linarith
    have h3 := abs_le.1 h3
    constructor <;> linarith

/-- One round over a segment that may be very short along the axis: another coordinate stays near the two ends. -/
theorem short64 {A D P Q : Fin 3 → ℝ} {ε δ : ℝ} {S T : Vec3 𝔻} {axis i : Fin 3} {m : ℕ} (hm : m < 255)
    (hAB : ∀ i, (0 ≤ A i ∧ A i ≤ 100) ∧ 0 ≤ A i + D i ∧ A i + D i ≤ 100) (hD : 1 / 100 ≤ |D axis|)
    (hS : IsV S P) (hT : IsV T Q) (hP : OnLine A D ε δ P) (hQ : OnLine A D ε δ Q)
    (he0 : 0 ≤ ε) (he1 : ε ≤ 1 / 10 ^ 12) (hd0 : 0 ≤ δ) (hd1 : δ ≤ 25 / 10 ^ 6)
    (hne : P axis ≠ Q axis) (hsep : |Q axis - P axis| ≤ 1 / 1000) (h : Straddle m (P axis) (Q axis)) :
    ∃ v, Is ((setCoordinate S ((criticalPlanes : List 𝔻).getD m 0.0) T axis).get i) v ∧ -0.01 ≤ v ∧ v ≤ 100.01 := by
  have p0 := plane_low hm
  have p1 := plane_high hm
  have rP : ∀ i, -(26 / 10 ^ 4) ≤ P i ∧ P i ≤ 100 + 26 / 10 ^ 4 := fun i => by
    obtain ⟨h1, h2⟩ := hP.range hd0 i (hAB i).1 (hAB i).2
    norm_num at *; constructor <;> linarith
  have rQ : ∀ i, -(26 / 10 ^ 4) ≤ Q i ∧ Q i ≤ 100 + 26 / 10 ^ 4 := fun i => by
    obtain ⟨h1, h2⟩ := hQ.range hd0 i (hAB i).1 (hAB i).2
    norm_num at *; constructor <;> linarith
  norm_num at p0 p1
  set g := |Q axis - P axis| with hg
  have g0 : 0 < g := by rw [hg, abs_pos, sub_ne_zero]; exact hne.symm
  -- the two ends are different doubles near the plane
  have hclose : plane m * (92 / 100) ≤ min (P axis) (Q axis) := by
    obtain ⟨-, h2⟩ := h
    have := max_sub_min_eq_abs (P axis) (Q axis)
    rw [← hg] at this
    generalize max (P axis) (Q axis) = mx at *
    generalize min (P axis) (Q axis) = mn at *
    norm_num at h2 ⊢
    linarith
  have hgap : plane m / 10 ^ 16 ≤ g := by
    have key : ∀ a b : ℝ, Rep a → Rep b → a < b → plane m * (92 / 100) ≤ a → plane m / 10 ^ 16 ≤ b - a := by
      intro a b ha hb hab hp
      refine le_trans ?_ (rep_gap ha hb (by linarith) hab)
      rw [div_le_div_iff₀ (by norm_num) (by norm_num)]
      norm_num; linarith
    rcases lt_or_gt_of_ne hne with hlt | hlt
    · rw [min_eq_left hlt.le] at hclose
      rw [hg, abs_of_pos (by linarith)]
      exact key _ _ (hS axis).rep (hT axis).rep hlt hclose
    · rw [min_eq_right hlt.le] at hclose
      rw [hg, abs_of_neg (by linarith), neg_sub]
      exact key _ _ (hT axis).rep (hS axis).rep hlt hclose
  obtain ⟨u, iu, bu, u0, u1, -⟩ := param64 hm (hS axis) (hT axis)
    (by have := rP axis; norm_num at this ⊢; constructor <;> linarith)
    (by have := rQ axis; norm_num at this ⊢; constructor <;> linarith) hgap h
  rw [← hg] at u0 u1
  set κ := plane m * (26 / 10 ^ 12) / g + 2 / 10 ^ 15 with hκd
  have κ0 : 0 ≤ κ := by rw [hκd]; positivity
  have κg : κ * g ≤ 27 / 10 ^ 10 := by
    rw [hκd, add_mul, div_mul_cancel₀ _ g0.ne']
    norm_num; linarith
  have κ1 : κ ≤ 261 * 10 ^ 3 := by
    rw [hκd]
    have : plane m * (26 / 10 ^ 12) / g ≤ 26 * 10 ^ 4 := by
      rw [div_le_iff₀ g0]
      rw [div_le_iff₀ (by norm_num)] at hgap
      norm_num at hgap ⊢; linarith
    refine (add_le_add_left this _).trans ?_
    norm_num
  -- the other coordinate
  obtain ⟨s, s0, s1, s2⟩ := hP
  obtain ⟨t, t0, t1, t2⟩ := hQ
  have hts : |t - s| ≤ 100 * (g + 2 * ε) := by
    have e : (t - s) * D axis = (Q axis - P axis) - ((Q axis - (A axis + t * D axis)) - (P axis - (A axis + s * D axis))) := by
      ring
    have h1 : |(t - s) * D axis| ≤ g + 2 * ε := by
      rw [e]
      have h2 := (t2 axis).1
      have h3 := (s2 axis).1
      have h4 := abs_sub (Q axis - (A axis + t * D axis)) (P axis - (A axis + s * D axis))
      refine (abs_sub _ _).trans ?_
      linarith
    rw [abs_mul] at h1
    have h5 : |t - s| * (1 / 100) ≤ |t - s| * |D axis| := by gcongr
    linarith
  have hDi : |D i| ≤ 100 := by
    obtain ⟨⟨h1, h2⟩, h3, h4⟩ := hAB i
    rw [abs_le]; constructor <;> linarith
  have hW : |Q i - P i| ≤ 10 ^ 4 * (g + 2 * ε) + 2 * ε := by
    have e : Q i - P i = (t - s) * D i + ((Q i - (A i + t * D i)) - (P i - (A i + s * D i))) := by ring
    rw [e]
    refine (abs_add_le _ _).trans ?_
    rw [abs_mul]
    have h2 := (t2 i).1
    have h3 := (s2 i).1
    have h4 := abs_sub (Q i - (A i + t * D i)) (P i - (A i + s * D i))
    have h5 : |t - s| * |D i| ≤ 100 * (g + 2 * ε) * 100 := by gcongr
    linarith
  have hov : κ * |Q i - P i| ≤ 6 / 10 ^ 3 := by
    have h1 : κ * |Q i - P i| ≤ κ * (10 ^ 4 * (g + 2 * ε) + 2 * ε) := by gcongr
    have h2 : κ * ε ≤ 261 * 10 ^ 3 * (1 / 10 ^ 12) := by gcongr
    have e : κ * (10 ^ 4 * (g + 2 * ε) + 2 * ε) = 10 ^ 4 * (κ * g) + 20002 * (κ * ε) := by ring
    rw [e] at h1
    norm_num at h1 h2 κg ⊢
    linarith
  have a1 := rP i
  have a2 := rQ i
  have hin : -(87 / 10 ^ 4) ≤ P i + (Q i - P i) * u ∧ P i + (Q i - P i) * u ≤ 100 + 87 / 10 ^ 4 := by
    have := hull_over κ0 u0 u1 hov a1 a2
    norm_num at this ⊢
    constructor <;> linarith
  have hv : ∃ v, Is ((setCoordinate S ((criticalPlanes : List 𝔻).getD m 0.0) T axis).get i) v ∧
      |v - (P i + (Q i - P i) * u)| ≤ 1 / 10 ^ 13 ∧ (P i = Q i → v = P i) := by
    simp only [setCoordinate, lerp_get64]
    norm_num at a1 a2 hin
    refine lerp64 (hS i) (hT i) iu (by rw [abs_le]; constructor <;> linarith) (by rw [abs_le]; constructor <;> linarith) bu ?_
    rw [abs_le]; constructor <;> linarith
  obtain ⟨v, iv, hv, -⟩ := hv
  have hv := abs_le.1 hv
  refine ⟨v, iv, ?_, ?_⟩
  · norm_num at hv hin ⊢; linarith
  · norm_num at hv hin ⊢; linarith

end Mcu.Lemmas
