import Verif.Lemmas.F64Limit

/-! The accuracy of the search for the gamut limit in IEEE-754 binary64: the ends stay on the segment between the two vertices up
to an error that is small relative to the size of each coordinate, even when a step divides two nearly equal numbers. -/

namespace Mcu.Lemmas

open Mcu.Ieee Props Props.Binary64 MathUtils ColorUtils HctSolver

variable {L : Libm}

local notation "𝔻" => F64 L

/-- One rounding with the exact unit. -/
theorem rnd_unit {v : ℝ} (h : |v| ≤ 2 ^ 50) :
    |rnd v| < 2 ^ 1024 ∧ |rnd v - v| ≤ |v| * (1111 / 10 ^ 19) + 1 / 10 ^ 72 := by
  refine ⟨small 50 (by norm_num) h, (rnd_error v).trans ?_⟩
  have h1 : (2 : ℝ) ^ (-1075 : ℤ) ≤ 2 ^ (-240 : ℤ) := zpow_le_zpow_right₀ (by norm_num) (by norm_num)
  have h2 : (2 : ℝ) ^ (-240 : ℤ) ≤ 1 / 10 ^ 72 := by norm_num
  have h3 : (2 : ℝ) ^ (-53 : ℤ) ≤ 1111 / 10 ^ 19 := by norm_num
  exact add_le_add (mul_le_mul_of_nonneg_left h3 (abs_nonneg _)) (h1.trans h2)

/-- One coordinate of the interpolated point, with an error relative to the size of the coordinates. -/
theorem lerp_fine {x z t : 𝔻} {a b u B : ℝ} (hx : Is x a) (hz : Is z b) (ht : Is t u) (hB0 : 1 / 10 ^ 40 ≤ B) (hB1 : B ≤ 200)
    (ha : |a| ≤ B) (hb : |b| ≤ B) (hu : |u| ≤ 2 * 10 ^ 6) (hp : |(b - a) * u| ≤ 1.01 * B) (hq : |a + (b - a) * u| ≤ 1.01 * B) :
    ∃ v, Is (x + (z - x) * t) v ∧ |v - (a + (b - a) * u)| ≤ B * (34 / 10 ^ 17) ∧ (a = b → v = a) := by
  have tiny : (1 : ℝ) / 10 ^ 72 ≤ B / 10 ^ 32 := by
    rw [le_div_iff₀ (by norm_num)]; refine le_trans ?_ hB0; norm_num
  have p50 : (1000 : ℝ) ≤ 2 ^ 50 := by norm_num
  have hba : |b - a| ≤ 2 * B := (abs_sub _ _).trans (by linarith)
  obtain ⟨b1, c1⟩ := rnd_unit (v := b - a) (hba.trans (by linarith))
  have i1 := hz.sub hx b1
  have c2 : |rnd (b - a) * u - (b - a) * u| ≤ B * (1123 / 10 ^ 19) := by
    rw [← sub_mul, abs_mul]
    have : |rnd (b - a) - (b - a)| * |u| ≤ (|b - a| * (1111 / 10 ^ 19) + 1 / 10 ^ 72) * |u| := by gcongr
    refine this.trans ?_
    rw [abs_mul] at hp
    have e : (|b - a| * (1111 / 10 ^ 19) + 1 / 10 ^ 72) * |u| = (|b - a| * |u|) * (1111 / 10 ^ 19) + 1 / 10 ^ 72 * |u| := by ring
    rw [e]
    have m : 1 / 10 ^ 72 * |u| ≤ B / 10 ^ 32 * (2 * 10 ^ 6) := by gcongr
    norm_num at hp hu m ⊢
    linarith
  have h0 : a = b → rnd (b - a) = 0 := by rintro rfl; rw [sub_self, rnd_zero]
  generalize rnd (b - a) = d at *
  have hp2 : |d * u| ≤ 1.0101 * B := by
    have := abs_sub_abs_le_abs_sub (d * u) ((b - a) * u)
    generalize |d * u| = X at *
    generalize |(b - a) * u| = Y at *
    norm_num at c2 hp ⊢; linarith
  obtain ⟨b3, c3⟩ := rnd_unit (v := d * u) (hp2.trans (by norm_num; linarith))
  have i2 := i1.mul ht b3
  have h0' : a = b → rnd (d * u) = 0 := by intro h; rw [h0 h, zero_mul, rnd_zero]
  generalize (b - a) * u = w at *
  generalize hdu : d * u = du at *
  generalize rnd du = p at *
  have c3' : |p - du| ≤ B * (1123 / 10 ^ 19) := by
    refine c3.trans ?_
    norm_num at hp2 tiny ⊢; linarith
  have hp3 : |a + p| ≤ 1.0101 * B := by
    have e : a + p = (a + w) + ((p - du) + (du - w)) := by ring
    rw [e]
    have h1 := abs_add_le (a + w) ((p - du) + (du - w))
    have h2 := abs_add_le (p - du) (du - w)
    norm_num at c3' c2 hq h1 h2 ⊢
    linarith
  obtain ⟨b4, c4⟩ := rnd_unit (v := a + p) (hp3.trans (by norm_num; linarith))
  have i3 := hx.add i2 b4
  refine ⟨_, i3, ?_, ?_⟩
  · have e : rnd (a + p) - (a + w) = (rnd (a + p) - (a + p)) + ((p - du) + (du - w)) := by ring
    rw [e]
    refine (abs_add_le _ _).trans ((add_le_add c4 ((abs_add_le (p - du) (du - w)).trans (add_le_add c3' c2))).trans ?_)
    norm_num at hp3 tiny ⊢
    linarith
  · intro h
    rw [h0' h, add_zero, hx.rep.rnd_eq]

/-- The literal of plane `m`, relatively. -/
theorem plane64_fine {m : ℕ} (h : m < 255) :
    ∃ c, Is ((criticalPlanes : List 𝔻).getD m 0.0) c ∧ |c - plane m| ≤ plane m * (12 / 10 ^ 17) := by
  have hl : m < criticalPlanesTable.length := by
    have := planes_length
    rw [criticalPlanes, List.length_map] at this
    omega
  have h0 := plane_low h
  have h1 := plane_high h
  norm_num at h0 h1
  have hb : |plane m| ≤ 100 := by rw [abs_le]; constructor <;> linarith
  obtain ⟨b1, c1⟩ := rnd_unit (v := plane m) (hb.trans (by norm_num))
  refine ⟨rnd (plane m), ?_, ?_⟩
  · unfold plane criticalPlanes at *
    simp only [List.getD_eq_getElem?_getD, List.getElem?_map, List.getElem?_eq_getElem hl, Option.map_some,
      Option.getD_some] at *
    exact is_lit (L := L) (m := criticalPlanesTable[m].1) (s := true) (e := criticalPlanesTable[m].2) rfl (hb.trans (by
      calc (100 : ℝ) ≤ 2 ^ 10 := by norm_num
        _ ≤ 2 ^ 1000 := pow_le_pow_right₀ (by norm_num) (by norm_num)))
  · refine c1.trans ?_
    rw [abs_of_nonneg (by linarith)]
    norm_num; linarith

/-- The parameter for plane `m`. -/
theorem param_fine {x z : 𝔻} {a b : ℝ} {m : ℕ} (hm : m < 255) (hx : Is x a) (hz : Is z b) (ha : -0.1 ≤ a ∧ a ≤ 100.1) (hb : -0.1 ≤ b ∧ b ≤ 100.1)
    (hg : plane m / 10 ^ 16 ≤ |b - a|) (h : Straddle m a b) :
    ∃ u, Is (intercept x ((criticalPlanes : List 𝔻).getD m 0.0) z) u ∧ |u| ≤ 2 * 10 ^ 6 ∧
      -(plane m * (401 / 10 ^ 15) / |b - a| + 2 / 10 ^ 15) ≤ u ∧ u ≤ 1 + (plane m * (401 / 10 ^ 15) / |b - a| + 2 / 10 ^ 15) ∧
      |(b - a) * u - (plane m - a)| ≤ 5 / 10 ^ 13 := by
  obtain ⟨c, ic, hc⟩ := plane64_fine (L := L) hm
  have hc' := abs_le.1 hc
  have p0 := plane_low hm
  have p1 := plane_high hm
  obtain ⟨hlo, hhi⟩ := h
  norm_num at p0 p1
  set g := |b - a| with hgd
  have g0 : 0 < g := lt_of_lt_of_le (by positivity) hg
  have g1 : g ≤ 100.2 := by rw [hgd, abs_le]; norm_num at *; constructor <;> linarith
  have hne : a ≠ b := by
    intro h; rw [hgd, h, sub_self, abs_zero] at g0; exact lt_irrefl _ g0
  set h := plane m * (4002 / 10 ^ 16) with hh
  have h0 : 0 ≤ h := by rw [hh]; positivity
  obtain ⟨q0, q1⟩ := quot_range (a := a) (b := b) (c := c) (h := h) hne
    (by generalize min a b = mn at *; norm_num at hc' hlo hh ⊢; linarith)
    (by generalize max a b = mx at *; norm_num at hc' hhi hh ⊢; linarith)
  rw [← hgd] at q0 q1
  norm_num at g1
  obtain ⟨u, iu, eu, bu⟩ := intercept64 (g := g) (h := h) hx ic hz rfl
    (le_trans (by rw [div_le_div_iff₀ (by norm_num) (by norm_num)]; norm_num; linarith) hg) (by linarith) h0
    (by rw [hh]
        have : plane m ≤ 10 ^ 16 * g := by rw [div_le_iff₀ (by norm_num)] at hg; linarith
        norm_num at this ⊢; linarith)
    (by rw [hh]; norm_num; linarith) q0 q1
  have hhg : 0 ≤ h / g := by positivity
  have e26 : plane m * (401 / 10 ^ 15) / g = 4010 / 4002 * (h / g) := by rw [hh]; ring
  refine ⟨u, iu, bu, ?_, ?_, ?_⟩
  · rw [e26]
    have := (abs_le.1 eu).1
    norm_num at this ⊢; linarith
  · rw [e26]
    have := (abs_le.1 eu).2
    norm_num at this ⊢; linarith
  · have hD : b - a ≠ 0 := sub_ne_zero.2 hne.symm
    have e : (b - a) * u - (plane m - a) = (b - a) * (u - (c - a) / (b - a)) + (c - plane m) := by
      field_simp; ring
    rw [e]
    refine (abs_add_le _ _).trans ?_
    rw [abs_mul, ← hgd]
    have m1 : g * |u - (c - a) / (b - a)| ≤ g * ((1 + h / g) / 10 ^ 15) := by gcongr
    have m2 : g * ((1 + h / g) / 10 ^ 15) = (g + h) / 10 ^ 15 := by field_simp
    rw [m2] at m1
    have hhb : h ≤ 1 := by rw [hh]; norm_num; linarith
    norm_num at m1 hc ⊢; linarith

/-! ### Points near a segment, with relative errors -/

/-- The size of the coordinates of a segment. -/
noncomputable def scale (A D : Fin 3 → ℝ) (i : Fin 3) : ℝ := max (A i) (A i + D i) + 1 / 10 ^ 40

/-- A point within the relative distance `e` of the line `A + s D`, with `s` in the unit interval extended by `δ`. -/
def OnRay (A D : Fin 3 → ℝ) (e δ : ℝ) (P : Fin 3 → ℝ) : Prop :=
  ∃ s, -δ ≤ s ∧ s ≤ 1 + δ ∧ ∀ i, |P i - (A i + s * D i)| ≤ e * scale A D i ∧ (D i = 0 → P i = A i)

/-- A segment of the cube. -/
def InCube (A D : Fin 3 → ℝ) : Prop := ∀ i, (0 ≤ A i ∧ A i ≤ 100) ∧ 0 ≤ A i + D i ∧ A i + D i ≤ 100

theorem InCube.scale {A D : Fin 3 → ℝ} (h : InCube A D) (i : Fin 3) :
    1 / 10 ^ 40 ≤ scale A D i ∧ scale A D i ≤ 101 ∧ A i ≤ scale A D i ∧ A i + D i ≤ scale A D i := by
  obtain ⟨⟨h0, h1⟩, h2, h3⟩ := h i
  have m1 := le_max_left (A i) (A i + D i)
  have m2 := le_max_right (A i) (A i + D i)
  have m3 : max (A i) (A i + D i) ≤ 100 := max_le h1 h3
  unfold Lemmas.scale
  generalize max (A i) (A i + D i) = mx at *
  norm_num
  refine ⟨by linarith, by linarith, by linarith, by linarith⟩

theorem OnRay.mono {A D P : Fin 3 → ℝ} {e δ e' δ' : ℝ} (hC : InCube A D) (h : OnRay A D e δ P) (he : e ≤ e') (hd : δ ≤ δ') :
    OnRay A D e' δ' P := by
  obtain ⟨s, h0, h1, h2⟩ := h
  refine ⟨s, by linarith, by linarith, fun i => ⟨(h2 i).1.trans ?_, (h2 i).2⟩⟩
  have : 0 ≤ scale A D i := le_trans (by norm_num) (hC.scale i).1
  gcongr

theorem OnRay.onLine {A D P : Fin 3 → ℝ} {e δ : ℝ} (hC : InCube A D) (h : OnRay A D e δ P) (he : 0 ≤ e) :
    OnLine A D (e * 101) δ P := by
  obtain ⟨s, h0, h1, h2⟩ := h
  refine ⟨s, h0, h1, fun i => ⟨(h2 i).1.trans ?_, (h2 i).2⟩⟩
  have := (hC.scale i).2.1
  gcongr

/-- The coordinates of such a point are within the segment's size. -/
theorem OnRay.size {A D P : Fin 3 → ℝ} {e δ : ℝ} (hC : InCube A D) (h : OnRay A D e δ P) (hδ : 0 ≤ δ) (i : Fin 3) :
    -((δ + e) * scale A D i) ≤ P i ∧ P i ≤ (1 + δ + e) * scale A D i := by
  obtain ⟨s, h0, h1, h2⟩ := h
  have h3 := abs_le.1 (h2 i).1
  obtain ⟨-, -, hA, hB⟩ := hC.scale i
  obtain ⟨⟨hA0, -⟩, hB0, -⟩ := hC i
  have e1 : A i + s * D i = (1 - s) * A i + s * (A i + D i) := by ring
  rw [e1] at h3
  generalize A i + D i = B at *
  generalize A i = a at *
  generalize scale A D i = S at *
  have S0 : 0 ≤ S := hA0.trans hA
  have k1 : -(δ * S) ≤ (1 - s) * a + s * B := by
    rcases le_total 0 s with hs | hs
    · rcases le_total s 1 with hs1 | hs1
      · nlinarith [mul_nonneg (sub_nonneg.2 hs1) hA0, mul_nonneg hs hB0, mul_nonneg hδ S0]
      · nlinarith [mul_nonneg hs hB0, mul_le_mul_of_nonneg_left hA (sub_nonneg.2 hs1), mul_le_mul_of_nonneg_right (show s - 1 ≤ δ by linarith) S0]
    · nlinarith [mul_nonneg (show 0 ≤ 1 - s by linarith) hA0, mul_le_mul_of_nonneg_left hB (show 0 ≤ -s by linarith), mul_le_mul_of_nonneg_right (show -s ≤ δ by linarith) S0]
  have k2 : (1 - s) * a + s * B ≤ (1 + δ) * S := by
    rcases le_total 0 s with hs | hs
    · rcases le_total s 1 with hs1 | hs1
      · nlinarith [mul_le_mul_of_nonneg_left hA (sub_nonneg.2 hs1), mul_le_mul_of_nonneg_left hB hs, mul_nonneg hδ S0]
      · nlinarith [mul_le_mul_of_nonneg_left hB hs, mul_nonneg (sub_nonneg.2 hs1) hA0, mul_le_mul_of_nonneg_right h1 S0]
    · nlinarith [mul_le_mul_of_nonneg_left hA (show 0 ≤ 1 - s by linarith), mul_nonneg (show 0 ≤ -s by linarith) hB0, mul_le_mul_of_nonneg_right (show -s ≤ δ by linarith) S0]
  constructor
  · linarith
  · linarith

/-- Interpolation between two such points, whose parameters are at most `τ` apart. -/
theorem OnRay.step {A D P Q M : Fin 3 → ℝ} {e δ κ r u s t τ : ℝ} (hC : InCube A D)
    (s0 : -δ ≤ s) (s1 : s ≤ 1 + δ) (s2 : ∀ i, |P i - (A i + s * D i)| ≤ e * scale A D i ∧ (D i = 0 → P i = A i))
    (t0 : -δ ≤ t) (t1 : t ≤ 1 + δ) (t2 : ∀ i, |Q i - (A i + t * D i)| ≤ e * scale A D i ∧ (D i = 0 → Q i = A i))
    (he : 0 ≤ e) (hκ : 0 ≤ κ) (hτ : |t - s| ≤ τ) (hu0 : -κ ≤ u) (hu1 : u ≤ 1 + κ)
    (hM : ∀ i, |M i - (P i + (Q i - P i) * u)| ≤ r * scale A D i) (hE : ∀ i, P i = Q i → M i = P i) :
    OnRay A D (e * (1 + 2 * κ) + r) (δ + κ * τ) M := by
  have hst' := abs_le.1 hτ
  have τ0 : 0 ≤ τ := (abs_nonneg _).trans hτ
  have κτ : 0 ≤ κ * τ := mul_nonneg hκ τ0
  have hull : -δ - κ * τ ≤ s + (t - s) * u ∧ s + (t - s) * u ≤ (1 + δ) + κ * τ :=
    hull_over hκ hu0 hu1 (by gcongr) ⟨s0, s1⟩ ⟨t0, t1⟩
  refine ⟨s + (t - s) * u, by linarith [hull.1], by linarith [hull.2], fun i => ⟨?_, ?_⟩⟩
  · have S0 : 0 ≤ scale A D i := le_trans (by norm_num) (hC.scale i).1
    have e1 : M i - (A i + (s + (t - s) * u) * D i) = (M i - (P i + (Q i - P i) * u)) +
      ((P i - (A i + s * D i)) * (1 - u) + (Q i - (A i + t * D i)) * u) := by ring
    rw [e1]
    refine (abs_add_le _ _).trans ?_
    have h1 := abs_add_le ((P i - (A i + s * D i)) * (1 - u)) ((Q i - (A i + t * D i)) * u)
    rw [abs_mul, abs_mul] at h1
    have h2 : |P i - (A i + s * D i)| * |1 - u| ≤ e * scale A D i * |1 - u| := by gcongr; exact (s2 i).1
    have h3 : |Q i - (A i + t * D i)| * |u| ≤ e * scale A D i * |u| := by gcongr; exact (t2 i).1
    have h4 : |1 - u| + |u| ≤ 1 + 2 * κ := by
      rcases le_total 0 u with h | h
      · rw [abs_of_nonneg h]
        rcases le_total u 1 with h' | h'
        · rw [abs_of_nonneg (by linarith)]; linarith
        · rw [abs_of_nonpos (by linarith)]; linarith
      · rw [abs_of_nonpos h, abs_of_nonneg (by linarith)]; linarith
    have h5 : e * scale A D i * |1 - u| + e * scale A D i * |u| ≤ e * scale A D i * (1 + 2 * κ) := by
      rw [← mul_add]; exact mul_le_mul_of_nonneg_left h4 (mul_nonneg he S0)
    have := hM i
    have e2 : (e * (1 + 2 * κ) + r) * scale A D i = e * scale A D i * (1 + 2 * κ) + r * scale A D i := by ring
    rw [e2]
    linarith
  · intro hD
    rw [hE i ((s2 i).2 hD ▸ ((t2 i).2 hD).symm), (s2 i).2 hD]

/-- The computed point for plane `m`, given how far its parameter may be outside of the unit interval. -/
theorem lerp_ray {A D P Q : Fin 3 → ℝ} {e δ κ u w : ℝ} {S T : Vec3 𝔻} {t : 𝔻} (hC : InCube A D) (hS : IsV S P) (hT : IsV T Q)
    (hP : OnRay A D e δ P) (hQ : OnRay A D e δ Q) (he0 : 0 ≤ e) (he1 : e ≤ 1 / 10 ^ 4) (hd0 : 0 ≤ δ) (hd1 : δ ≤ 1 / 10 ^ 3)
    (hκ : 0 ≤ κ) (hu0 : -κ ≤ u) (hu1 : u ≤ 1 + κ) (iu : Is t u) (bu : |u| ≤ 2 * 10 ^ 6) (hw : w ≤ 1 / 1000)
    (hov : ∀ i, κ * |Q i - P i| ≤ w * scale A D i) :
    ∃ M, IsV (lerpPoint S t T) M ∧ (∀ i, |M i - (P i + (Q i - P i) * u)| ≤ 35 / 10 ^ 17 * scale A D i) ∧
      ∀ i, P i = Q i → M i = P i := by
  have key : ∀ i, ∃ v, Is ((lerpPoint S t T).get i) v ∧
      |v - (P i + (Q i - P i) * u)| ≤ 35 / 10 ^ 17 * scale A D i ∧ (P i = Q i → v = P i) := by
    intro i
    obtain ⟨S0, S1, -, -⟩ := hC.scale i
    obtain ⟨p0, p1⟩ := hP.size hC hd0 i
    obtain ⟨q0, q1⟩ := hQ.size hC hd0 i
    have hov := hov i
    generalize scale A D i = s at *
    have s0 : 0 < s := lt_of_lt_of_le (by norm_num) S0
    have hl : (δ + e) * s ≤ 11 / 10 ^ 4 * s := by
      have : δ + e ≤ 11 / 10 ^ 4 := by norm_num at *; linarith
      gcongr
    have hr : (1 + δ + e) * s ≤ (1 + 11 / 10 ^ 4) * s := by
      have : 1 + δ + e ≤ 1 + 11 / 10 ^ 4 := by norm_num at *; linarith
      gcongr
    have hws : w * s ≤ 1 / 1000 * s := by gcongr
    have hh := hull_over hκ hu0 hu1 (hov.trans hws) (lo := -(11 / 10 ^ 4 * s)) (hi := (1 + 11 / 10 ^ 4) * s)
      ⟨by linarith, by linarith⟩ ⟨by linarith, by linarith⟩
    rw [lerp_get64]
    have hpabs : |P i| ≤ 1.002 * s := by rw [abs_le]; norm_num at *; constructor <;> linarith
    have hqabs : |Q i| ≤ 1.002 * s := by rw [abs_le]; norm_num at *; constructor <;> linarith
    have hsum : |P i + (Q i - P i) * u| ≤ 1.01 * (1.002 * s) := by rw [abs_le]; norm_num at *; constructor <;> linarith
    have hprod : |(Q i - P i) * u| ≤ 1.01 * (1.002 * s) := by rw [abs_le]; norm_num at *; constructor <;> linarith
    obtain ⟨v, iv, hv, hv'⟩ := lerp_fine (hS i) (hT i) iu (B := 1.002 * s) (by norm_num at *; linarith) (by norm_num at *; linarith)
      hpabs hqabs bu hprod hsum
    refine ⟨v, iv, hv.trans ?_, hv'⟩
    norm_num; linarith
  choose M h1 h2 h3 using key
  exact ⟨M, h1, h2, h3⟩

/-- One round of the bisection over a segment of moderate length along the axis. -/
theorem round_fine {A D P Q : Fin 3 → ℝ} {e δ : ℝ} {S T : Vec3 𝔻} {axis : Fin 3} {m : ℕ} (hm : m < 255) (hC : InCube A D)
    (hS : IsV S P) (hT : IsV T Q) (hP : OnRay A D e δ P) (hQ : OnRay A D e δ Q)
    (he0 : 0 ≤ e) (he1 : e ≤ 1 / 10 ^ 10) (hd0 : 0 ≤ δ) (hd1 : δ ≤ 1 / 10 ^ 4)
    (hsep : 1 / 1000 ≤ |Q axis - P axis|) (h : Straddle m (P axis) (Q axis)) :
    ∃ M, IsV (setCoordinate S ((criticalPlanes : List 𝔻).getD m 0.0) T axis) M ∧
      OnRay A D (e + 37 / 10 ^ 17) (δ + 5 / 10 ^ 8) M ∧ |M axis - plane m| ≤ 1 / 10 ^ 12 := by
  have p0 := plane_low hm
  have p1 := plane_high hm
  have rP : ∀ i, -0.1 ≤ P i ∧ P i ≤ 100.1 := fun i => by
    obtain ⟨h1, h2⟩ := (hP.onLine hC he0).range hd0 i (hC i).1 (hC i).2
    norm_num at *; constructor <;> linarith
  have rQ : ∀ i, -0.1 ≤ Q i ∧ Q i ≤ 100.1 := fun i => by
    obtain ⟨h1, h2⟩ := (hQ.onLine hC he0).range hd0 i (hC i).1 (hC i).2
    norm_num at *; constructor <;> linarith
  norm_num at p0 p1
  obtain ⟨u, iu, bu, u0, u1, hu⟩ := param_fine hm (hS axis) (hT axis) (rP axis) (rQ axis)
    (le_trans (by rw [div_le_iff₀ (by norm_num)]; norm_num; linarith) hsep) h
  have hκ : plane m * (401 / 10 ^ 15) / |Q axis - P axis| + 2 / 10 ^ 15 ≤ 45 / 10 ^ 9 := by
    have : plane m * (401 / 10 ^ 15) / |Q axis - P axis| ≤ 99.6 * (401 / 10 ^ 15) / (1 / 1000) := by
      have : plane m ≤ 99.6 := by norm_num; linarith
      gcongr
    refine (add_le_add_left this _).trans ?_
    norm_num
  have u0' : -(45 / 10 ^ 9) ≤ u := by linarith
  have u1' : u ≤ 1 + 45 / 10 ^ 9 := by linarith
  obtain ⟨M, iM, hM, hE⟩ := lerp_ray (κ := 45 / 10 ^ 9) (w := 1 / 1000) hC hS hT hP hQ he0 (he1.trans (by norm_num)) hd0 (hd1.trans (by norm_num))
    (by norm_num) u0' u1' iu bu le_rfl (fun i => by
      obtain ⟨a0, a1⟩ := hP.size hC hd0 i
      obtain ⟨b0, b1⟩ := hQ.size hC hd0 i
      obtain ⟨S0, -, -, -⟩ := hC.scale i
      generalize scale A D i = s at *
      have s0 : 0 ≤ s := le_trans (by norm_num) S0
      have l1 : (δ + e) * s ≤ 1 * s := by
        have : δ + e ≤ 1 := by norm_num at *; linarith
        gcongr
      have l2 : (1 + δ + e) * s ≤ 2 * s := by
        have : 1 + δ + e ≤ 2 := by norm_num at *; linarith
        gcongr
      have : |Q i - P i| ≤ 3 * s := by rw [abs_le]; constructor <;> linarith
      norm_num; linarith)
  refine ⟨M, iM, ?_, ?_⟩
  · obtain ⟨s, s0, s1, s2⟩ := hP
    obtain ⟨t, t0, t1, t2⟩ := hQ
    refine (OnRay.step (τ := 1 + 2 * δ) (κ := 45 / 10 ^ 9) hC s0 s1 s2 t0 t1 t2 he0 (by norm_num)
      (by rw [abs_le]; constructor <;> linarith) u0' u1' hM hE).mono hC ?_ ?_
    · norm_num at he1 ⊢; linarith
    · norm_num at hd1 ⊢; linarith
  · have e1 : M axis - plane m = (M axis - (P axis + (Q axis - P axis) * u)) +
      ((Q axis - P axis) * u - (plane m - P axis)) := by ring
    rw [e1]
    have h1 := hM axis
    have h2 := (hC.scale axis).2.1
    refine (abs_add_le _ _).trans ((add_le_add h1 hu).trans ?_)
    norm_num; linarith

/-- Both ends are near the segment. -/
def EndsR (A D : Fin 3 → ℝ) (e δ : ℝ) (s : LimState 𝔻) (P Q : Fin 3 → ℝ) : Prop :=
  IsV s.left P ∧ IsV s.right Q ∧ OnRay A D e δ P ∧ OnRay A D e δ Q

theorem limLoop_ray {A D : Fin 3 → ℝ} (hC : InCube A D) (hue : 𝔻) (axis : Fin 3)
    (n : Nat) : ∀ (s : LimState 𝔻) (P Q : Fin 3 → ℝ) (e δ : ℝ), 0 ≤ e → e + n * (37 / 10 ^ 17) ≤ 1 / 10 ^ 10 → 0 ≤ δ →
      δ + n * (5 / 10 ^ 8) ≤ 1 / 10 ^ 4 → EndsR A D e δ s P Q → Inv64 s.lPlane s.rPlane (P axis) (Q axis) →
      ∃ P' Q', EndsR A D (e + n * (37 / 10 ^ 17)) (δ + n * (5 / 10 ^ 8)) (limLoop hue axis n s) P' Q' := by
  induction n with
  | zero =>
    intro s P Q e δ _ _ _ _ h _
    exact ⟨P, Q, by simpa [limLoop] using h⟩
  | succ n ih =>
    intro s P Q e δ e0 e1 d0 d1 h hb
    have n1 : (0 : ℝ) ≤ n * (37 / 10 ^ 17) := by positivity
    have n2 : (0 : ℝ) ≤ n * (5 / 10 ^ 8) := by positivity
    have q1 : e + ((n + 1 : ℕ) : ℝ) * (37 / 10 ^ 17) = e + 37 / 10 ^ 17 + n * (37 / 10 ^ 17) := by push_cast; ring
    have q2 : δ + ((n + 1 : ℕ) : ℝ) * (5 / 10 ^ 8) = δ + 5 / 10 ^ 8 + n * (5 / 10 ^ 8) := by push_cast; ring
    rw [q1] at e1 ⊢
    rw [q2] at d1 ⊢
    obtain ⟨iP, iQ, oP, oQ⟩ := h
    have me : e ≤ e + 37 / 10 ^ 17 := by norm_num
    have md : δ ≤ δ + 5 / 10 ^ 8 := by norm_num
    simp only [limLoop]
    by_cases hle : ((s.rPlane - s.lPlane).natAbs : Int) ≤ 1
    · rw [if_pos hle]
      exact ⟨P, Q, iP, iQ, oP.mono hC (by linarith) (by linarith), oQ.mono hC (by linarith) (by linarith)⟩
    · rw [if_neg hle]
      have hbnd := hb.bounds (by omega)
      obtain ⟨m, hm, em, m1, m2⟩ := mid_index64 (L := L) hbnd.1 hbnd.2 (by omega)
      rw [em, Int.toNat_natCast]
      obtain ⟨hst, hsep⟩ := hb.straddle m1 m2 hm
      obtain ⟨M, iM, oM, hM⟩ := round_fine hm hC iP iQ oP oQ e0 (by linarith) d0 (by linarith) hsep hst
      generalize setCoordinate s.left ((criticalPlanes : List 𝔻).getD m 0.0) s.right axis = mid at *
      split
      · exact ih _ P M _ _ (by linarith) e1 (by linarith) d1 ⟨iP, iM, oP.mono hC me md, oM⟩ (hb.right m1 m2 hM)
      · exact ih _ M Q _ _ (by linarith) e1 (by linarith) d1 ⟨iM, iQ, oM, oQ.mono hC me md⟩ (hb.left m1 m2 hM)

/-- A straddled plane forces the segment to be long along the axis, also in proportion to its size. -/
theorem Far.ratio {A D P Q : Fin 3 → ℝ} {e δ : ℝ} {i : Fin 3} {m : ℕ} (hF : Far A D) (hC : InCube A D) (hm : m < 255)
    (hP : OnRay A D e δ P) (hQ : OnRay A D e δ Q) (he0 : 0 ≤ e) (he1 : e ≤ 9 / 10 ^ 11) (hd0 : 0 ≤ δ) (hd1 : δ ≤ 1 / 10 ^ 4)
    (hne : P i ≠ Q i) (h : Straddle m (P i) (Q i)) : 1 / 100 ≤ |D i| ∧ scale A D i ≤ 260 * |D i| := by
  have oP := hP.onLine hC he0
  have oQ := hQ.onLine hC he0
  have hlong := hF.long hm oP oQ (by norm_num at *; linarith) hd0 hd1 hne h
  refine ⟨hlong, ?_⟩
  obtain ⟨⟨A0, A1⟩, B0, B1⟩ := hC i
  obtain ⟨-, hS, -, -⟩ := hC.scale i
  have p1 := plane_high hm
  -- near 100 the last plane is not far
  have near : A i = 100 ∨ A i + D i = 100 → 39 / 100 ≤ |D i| := by
    intro hend
    by_contra hc
    push Not at hc
    obtain ⟨s, s0, s1, s2⟩ := oP
    obtain ⟨t, t0, t1, t2⟩ := oQ
    have key : ∀ w x : ℝ, -δ ≤ w → w ≤ 1 + δ → |x - (A i + w * D i)| ≤ e * 101 → 99.605 ≤ x := by
      intro w x w0 w1 hx
      have hx := abs_le.1 hx
      have h1 : |w * D i| ≤ (1 + 1 / 10 ^ 4) * (39 / 100) := by
        rw [abs_mul]
        have : |w| ≤ 1 + 1 / 10 ^ 4 := by rw [abs_le]; constructor <;> linarith
        gcongr
      have h2 : |(w - 1) * D i| ≤ (1 + 1 / 10 ^ 4) * (39 / 100) := by
        rw [abs_mul]
        have : |w - 1| ≤ 1 + 1 / 10 ^ 4 := by rw [abs_le]; constructor <;> linarith
        gcongr
      have h1 := abs_le.1 h1
      have h2 := abs_le.1 h2
      norm_num at he1 h1 h2 hx ⊢
      rcases hend with h | h <;> linarith
    have k1 := key s (P i) s0 s1 (s2 i).1
    have k2 := key t (Q i) t0 t1 (t2 i).1
    obtain ⟨hlo, -⟩ := h
    have hlo := min_le_iff.1 hlo
    norm_num at k1 k2 hlo p1
    rcases hlo with h | h <;> linarith
  unfold scale at hS ⊢
  rcases hF i with h0 | h0 | (h0 | h0) | (h0 | h0)
  · rw [h0] at hlong; norm_num at hlong
  · linarith
  · have hD : 0 ≤ D i := by linarith
    rw [abs_of_nonneg hD] at hlong ⊢
    rw [max_eq_right (by linarith)]
    norm_num at hlong ⊢; linarith
  · have := near (.inl h0); linarith
  · have hD : D i ≤ 0 := by linarith
    rw [abs_of_nonpos hD] at hlong ⊢
    rw [max_eq_left (by linarith)]
    norm_num at hlong ⊢; linarith
  · have := near (.inr h0); linarith

/-- One round over a segment that may be very short along the axis: the parameters of the ends are then close too. -/
theorem short_fine {A D P Q : Fin 3 → ℝ} {e δ : ℝ} {S T : Vec3 𝔻} {axis : Fin 3} {m : ℕ} (hm : m < 255) (hC : InCube A D)
    (hD : 1 / 100 ≤ |D axis| ∧ scale A D axis ≤ 260 * |D axis|)
    (hS : IsV S P) (hT : IsV T Q) (hP : OnRay A D e δ P) (hQ : OnRay A D e δ Q)
    (he0 : 0 ≤ e) (he1 : e ≤ 3 / 10 ^ 11) (hd0 : 0 ≤ δ) (hd1 : δ ≤ 25 / 10 ^ 6)
    (hne : P axis ≠ Q axis) (hsep : |Q axis - P axis| ≤ 1 / 1000) (h : Straddle m (P axis) (Q axis)) :
    ∃ M, IsV (setCoordinate S ((criticalPlanes : List 𝔻).getD m 0.0) T axis) M ∧
      OnRay A D (8100 * e + 35 / 10 ^ 17) (δ + 5 / 10 ^ 9 + 22 * 10 ^ 5 * e) M := by
  have p0 := plane_low hm
  have p1 := plane_high hm
  have rP : ∀ i, -(26 / 10 ^ 4) ≤ P i ∧ P i ≤ 100 + 26 / 10 ^ 4 := fun i => by
    obtain ⟨h1, h2⟩ := (hP.onLine hC he0).range hd0 i (hC i).1 (hC i).2
    norm_num at *; constructor <;> linarith
  have rQ : ∀ i, -(26 / 10 ^ 4) ≤ Q i ∧ Q i ≤ 100 + 26 / 10 ^ 4 := fun i => by
    obtain ⟨h1, h2⟩ := (hQ.onLine hC he0).range hd0 i (hC i).1 (hC i).2
    norm_num at *; constructor <;> linarith
  norm_num at p0 p1
  set g := |Q axis - P axis| with hg
  have g0 : 0 < g := by rw [hg, abs_pos, sub_ne_zero]; exact hne.symm
  -- the two ends are different doubles near the plane
  have hclose : plane m * (92 / 100) ≤ min (P axis) (Q axis) := by
    obtain ⟨-, h2⟩ := h
    have := max_sub_min_eq_abs (P axis) (Q axis)
    rw [← hg] at this
    generalize max (P axis) (Q axis) = mx at *
    generalize min (P axis) (Q axis) = mn at *
    norm_num at h2 ⊢
    linarith
  have hgap : plane m / 10 ^ 16 ≤ g := by
    have key : ∀ a b : ℝ, Rep a → Rep b → a < b → plane m * (92 / 100) ≤ a → plane m / 10 ^ 16 ≤ b - a := by
      intro a b ha hb hab hp
      refine le_trans ?_ (rep_gap ha hb (by linarith) hab)
      rw [div_le_div_iff₀ (by norm_num) (by norm_num)]
      norm_num; linarith
    rcases lt_or_gt_of_ne hne with hlt | hlt
    · rw [min_eq_left hlt.le] at hclose
      rw [hg, abs_of_pos (by linarith)]
      exact key _ _ (hS axis).rep (hT axis).rep hlt hclose
    · rw [min_eq_right hlt.le] at hclose
      rw [hg, abs_of_neg (by linarith), neg_sub]
      exact key _ _ (hT axis).rep (hS axis).rep hlt hclose
  obtain ⟨u, iu, bu, u0, u1, -⟩ := param_fine hm (hS axis) (hT axis)
    (by have := rP axis; norm_num at this ⊢; constructor <;> linarith)
    (by have := rQ axis; norm_num at this ⊢; constructor <;> linarith) hgap h
  rw [← hg] at u0 u1
  set κ := plane m * (401 / 10 ^ 15) / g + 2 / 10 ^ 15 with hκd
  have κ0 : 0 ≤ κ := by rw [hκd]; positivity
  have κg : κ * g ≤ 41 / 10 ^ 12 := by
    rw [hκd, add_mul, div_mul_cancel₀ _ g0.ne']
    norm_num; linarith
  have κ1 : κ ≤ 4011 := by
    rw [hκd]
    have : plane m * (401 / 10 ^ 15) / g ≤ 4010 := by
      rw [div_le_iff₀ g0]
      rw [div_le_iff₀ (by norm_num)] at hgap
      norm_num at hgap ⊢; linarith
    refine (add_le_add_left this _).trans ?_
    norm_num
  have hP' := hP
  have hQ' := hQ
  obtain ⟨s, s0, s1, s2⟩ := hP
  obtain ⟨t, t0, t1, t2⟩ := hQ
  have hts : |t - s| ≤ 100 * g + 520 * e := by
    have e1 : (t - s) * D axis = (Q axis - P axis) - ((Q axis - (A axis + t * D axis)) - (P axis - (A axis + s * D axis))) := by
      ring
    have h1 : |(t - s) * D axis| ≤ g + 2 * (e * scale A D axis) := by
      rw [e1]
      have h2 := (t2 axis).1
      have h3 := (s2 axis).1
      have h4 := abs_sub (Q axis - (A axis + t * D axis)) (P axis - (A axis + s * D axis))
      refine (abs_sub _ _).trans ?_
      linarith
    rw [abs_mul] at h1
    obtain ⟨d1, d2⟩ := hD
    have d0 : 0 < |D axis| := by linarith
    refine le_of_mul_le_mul_right (h1.trans ?_) d0
    have m1 : e * scale A D axis ≤ e * (260 * |D axis|) := by gcongr
    have m2 : g * 1 ≤ g * (100 * |D axis|) := mul_le_mul_of_nonneg_left (by linarith) g0.le
    linarith
  have κe : κ * e ≤ 4011 * e := by gcongr
  have κτ : κ * (100 * g + 520 * e) ≤ 5 / 10 ^ 9 + 22 * 10 ^ 5 * e := by
    have e1 : κ * (100 * g + 520 * e) = 100 * (κ * g) + 520 * (κ * e) := by ring
    rw [e1]
    norm_num at κg ⊢; linarith
  have hov : ∀ i, κ * |Q i - P i| ≤ 1 / 1000 * scale A D i := by
    intro i
    obtain ⟨S0, -, hA, hB⟩ := hC.scale i
    obtain ⟨⟨A0, -⟩, B0, -⟩ := hC i
    have hDi : |D i| ≤ scale A D i := by
      rw [abs_le]; constructor <;> linarith
    have e1 : Q i - P i = (t - s) * D i + ((Q i - (A i + t * D i)) - (P i - (A i + s * D i))) := by ring
    have hW : |Q i - P i| ≤ ((100 * g + 520 * e) + 2 * e) * scale A D i := by
      rw [e1]
      refine (abs_add_le _ _).trans ?_
      rw [abs_mul]
      have h2 := (t2 i).1
      have h3 := (s2 i).1
      have h4 := abs_sub (Q i - (A i + t * D i)) (P i - (A i + s * D i))
      have h5 : |t - s| * |D i| ≤ (100 * g + 520 * e) * scale A D i := by gcongr
      linarith
    have S00 : 0 ≤ scale A D i := le_trans (by norm_num) S0
    calc κ * |Q i - P i| ≤ κ * (((100 * g + 520 * e) + 2 * e) * scale A D i) := by gcongr
      _ = (κ * (100 * g + 520 * e) + 2 * (κ * e)) * scale A D i := by ring
      _ ≤ 1 / 1000 * scale A D i := by
        gcongr
        norm_num at κτ he1 ⊢; linarith
  obtain ⟨M, iM, hM, hE⟩ := lerp_ray hC hS hT hP' hQ' he0 (he1.trans (by norm_num)) hd0 (hd1.trans (by norm_num)) κ0 u0 u1 iu bu
    le_rfl hov
  refine ⟨M, iM, ?_⟩
  refine (OnRay.step hC s0 s1 s2 t0 t1 t2 he0 κ0 hts u0 u1 hM hE).mono hC ?_ ?_
  · have e1 : e * (1 + 2 * κ) = e + 2 * (κ * e) := by ring
    rw [e1]; linarith
  · linarith

/-- One axis: whatever the search does, the errors grow by bounded factors. -/
theorem axis_fine (hL : L.PowOk) {A D P Q : Fin 3 → ℝ} {e δ : ℝ} (hC : InCube A D) (hF : Far A D) (hue : 𝔻) (s : LimState 𝔻)
    (axis : Fin 3) (h : EndsR A D e δ s P Q) (he0 : 0 ≤ e) (he1 : e ≤ 3 / 10 ^ 11) (hd0 : 0 ≤ δ) (hd1 : δ ≤ 2 / 10 ^ 5) :
    ∃ P' Q', EndsR A D (8100 * e + 3 / 10 ^ 15) (δ + 5 / 10 ^ 7 + 22 * 10 ^ 5 * e) (limAxis hue s axis) P' Q' := by
  obtain ⟨iP, iQ, oP, oQ⟩ := h
  have rP : ∀ i, -0.01 ≤ P i ∧ P i ≤ 100.01 := fun i => by
    have := (oP.onLine hC he0).range hd0 i (hC i).1 (hC i).2
    norm_num at *; constructor <;> linarith
  have rQ : ∀ i, -0.01 ≤ Q i ∧ Q i ≤ 100.01 := fun i => by
    have := (oQ.onLine hC he0).range hd0 i (hC i).1 (hC i).2
    norm_num at *; constructor <;> linarith
  have me : e ≤ 8100 * e + 3 / 10 ^ 15 := by norm_num; linarith
  have md : δ ≤ δ + 5 / 10 ^ 7 + 22 * 10 ^ 5 * e := by norm_num; linarith
  rcases planes64 hL hue s axis (iP axis) (iQ axis) (rP axis) (rQ axis) with e' | ⟨hne, l, r, e', hp⟩
  · rw [e']
    exact ⟨P, Q, iP, iQ, oP.mono hC me md, oQ.mono hC me md⟩
  rw [e']
  by_cases hsep : 1 / 1000 ≤ |Q axis - P axis| ∨ (r - l).natAbs ≤ 1
  · have hinv : Inv64 l r (P axis) (Q axis) := by
      rcases hp with ⟨hp, hlt⟩ | ⟨hp, hlt⟩
      · refine .inl ⟨hp, fun h => ?_⟩
        have hsep := hsep.resolve_right (by omega)
        rw [abs_of_pos (by linarith)] at hsep
        linarith
      · refine .inr ⟨hp, fun h => ?_⟩
        have hsep := hsep.resolve_right (by omega)
        rw [abs_of_neg (by linarith)] at hsep
        linarith
    obtain ⟨P', Q', iP', iQ', oP', oQ'⟩ := limLoop_ray hC hue axis 8 { s with lPlane := l, rPlane := r } P Q _ _ he0
      (by norm_num at *; linarith) hd0 (by norm_num at *; linarith) ⟨iP, iQ, oP, oQ⟩ hinv
    refine ⟨P', Q', iP', iQ', oP'.mono hC ?_ ?_, oQ'.mono hC ?_ ?_⟩ <;> norm_num <;> linarith
  · push Not at hsep
    obtain ⟨hsh, hd⟩ := hsep
    -- two planes in between would keep the ends apart
    have hbd : -1 ≤ min l r ∧ max l r ≤ 255 := by
      rcases hp with ⟨hp, -⟩ | ⟨hp, -⟩ <;> have := hp.lo_ge <;> have := hp.hi_le <;> have := hp.le <;> omega
    have hst : ∀ m : ℕ, min l r < m → (m : Int) < max l r → Straddle m (P axis) (Q axis) := by
      intro m h1 h2
      rcases hp with ⟨hp, -⟩ | ⟨hp, -⟩
      · have := hp.le
        exact ⟨(min_le_left _ _).trans (hp.low m (by omega) (by omega)), (hp.high m (by omega) (by omega)).trans (le_max_right _ _)⟩
      · have := hp.le
        exact ⟨(min_le_right _ _).trans (hp.low m (by omega) (by omega)), (hp.high m (by omega) (by omega)).trans (le_max_left _ _)⟩
    have h2 : (r - l).natAbs = 2 := by
      by_contra hc
      obtain ⟨m, hm⟩ := Int.eq_ofNat_of_zero_le (show 0 ≤ min l r + 1 by omega)
      have g := plane_mono (m := m) (n := m + 1) (by omega) (by omega)
      have g' := plane_high (m := m + 1) (by omega)
      have hsh := abs_lt.1 hsh
      rcases hp with ⟨hp, hlt⟩ | ⟨hp, hlt⟩
      · have := hp.le
        have h3 := hp.low m (by omega) (by omega)
        have h4 := hp.high (m + 1) (by omega) (by push_cast; omega)
        norm_num at g g' h3 h4 hsh
        linarith
      · have := hp.le
        have h3 := hp.low m (by omega) (by omega)
        have h4 := hp.high (m + 1) (by omega) (by push_cast; omega)
        norm_num at g g' h3 h4 hsh
        linarith
    obtain ⟨m, hm, em, m1, m2⟩ := mid_index64 (L := L) hbd.1 hbd.2 (by omega)
    have hD := hF.ratio hC hm oP oQ he0 (he1.trans (by norm_num)) hd0 (hd1.trans (by norm_num)) hne (hst m m1 m2)
    obtain ⟨M, iM, oM⟩ := short_fine hm hC hD iP iQ oP oQ he0 he1 hd0 (hd1.trans (by norm_num)) hne hsh.le (hst m m1 m2)
    have oM := oM.mono hC (e' := 8100 * e + 3 / 10 ^ 15) (δ' := δ + 5 / 10 ^ 7 + 22 * 10 ^ 5 * e) (by norm_num) (by norm_num)
    rcases limLoop_once hue axis { s with lPlane := l, rPlane := r } m h2 em m1 m2 with ⟨e1, e2⟩ | ⟨e1, e2⟩
    · exact ⟨P, M, by rw [e1]; exact iP, by rw [e2]; exact iM, oP.mono hC me md, oM⟩
    · exact ⟨M, Q, by rw [e1]; exact iM, by rw [e2]; exact iQ, oM, oQ.mono hC me md⟩

end Mcu.Lemmas
