import Verif.Lemmas.F64Vertex

/-! The search for the gamut limit in IEEE-754 binary64: the ends stay near the cube, so the table of critical planes is never
left, for any double as luminance or hue. -/

namespace Mcu.Lemmas

open Mcu.Ieee Props Props.Binary64 MathUtils ColorUtils HctSolver

variable {L : Libm}

local notation "𝔻" => F64 L

/-- Plane indices that bracket the coordinates of the two ends, in either direction; if a plane is left between them, the ends
are apart. -/
def Inv64 (l r : Int) (a b : ℝ) : Prop :=
  (Bracket64 l r a b ∧ (l + 2 ≤ r → a + 1 / 1000 ≤ b)) ∨ (Bracket64 r l b a ∧ (r + 2 ≤ l → b + 1 / 1000 ≤ a))

theorem Bracket64.step_high {lo hi : Int} {x z w : ℝ} {m : ℕ} (h : Bracket64 lo hi x z) (h1 : lo < m) (h2 : (m : Int) < hi)
    (hw : |w - plane m| ≤ 1 / 10 ^ 12) : Bracket64 lo m x w ∧ (lo + 2 ≤ (m : Int) → x + 1 / 1000 ≤ w) := by
  have hm : m < 255 := by have := h.hi_le; omega
  have hw := abs_le.1 hw
  norm_num at hw
  refine ⟨⟨h.lo_ge, by omega, by omega, h.low, fun k hk hlt => ?_⟩, fun h3 => ?_⟩
  · have h4 := plane_mono (m := k) (n := m) (by omega) hm
    have h5 := plane_low hk
    norm_num at h4 h5 ⊢
    linarith
  · have := h.lo_ge
    obtain ⟨k, hk⟩ := Int.eq_ofNat_of_zero_le (show 0 ≤ lo + 1 by omega)
    have h4 := h.low k (by omega) (by omega)
    have h5 := plane_mono (m := k) (n := m) (by omega) hm
    have h6 := plane_high hm
    norm_num at h4 h5 h6
    linarith

theorem Bracket64.step_low {lo hi : Int} {x z w : ℝ} {m : ℕ} (h : Bracket64 lo hi x z) (h1 : lo < m) (h2 : (m : Int) < hi)
    (hw : |w - plane m| ≤ 1 / 10 ^ 12) : Bracket64 m hi w z ∧ ((m : Int) + 2 ≤ hi → w + 1 / 1000 ≤ z) := by
  have hm : m < 255 := by have := h.hi_le; omega
  have hw := abs_le.1 hw
  norm_num at hw
  refine ⟨⟨by omega, h.hi_le, by omega, fun k hk hlt => ?_, h.high⟩, fun h3 => ?_⟩
  · have h4 := plane_mono (m := m) (n := k) (by omega) hk
    have h5 := plane_low hk
    norm_num at h4 h5 ⊢
    linarith
  · have := h.hi_le
    obtain ⟨k, hk⟩ := Int.eq_ofNat_of_zero_le (show 0 ≤ hi - 1 by omega)
    have h4 := h.high k (by omega) (by omega)
    have h5 := plane_mono (m := m) (n := k) (by omega) (by omega)
    have h6 := plane_high (m := k) (by omega)
    norm_num at h4 h5 h6
    linarith

/-- The index of the middle plane, strictly between the two. -/
theorem mid_index64 {l r : Int} (h0 : -1 ≤ min l r) (h1 : max l r ≤ 255) (h : 2 ≤ (r - l).natAbs) :
    ∃ m : ℕ, m < 255 ∧ Fl.toI64 (Fl.floor (Fl.ofInt (l + r) / (2.0 : 𝔻))) = (m : Int) ∧ min l r < m ∧ (m : Int) < max l r := by
  rw [mid_eq64 h0 h1]
  obtain ⟨m, hm⟩ := Int.eq_ofNat_of_zero_le (show 0 ≤ (l + r) / 2 by omega)
  exact ⟨m, by omega, hm, by omega, by omega⟩

theorem Inv64.bounds {l r : Int} {a b : ℝ} (h : Inv64 l r a b) (hd : 2 ≤ (r - l).natAbs) : -1 ≤ min l r ∧ max l r ≤ 255 := by
  rcases h with ⟨h, -⟩ | ⟨h, -⟩ <;> have := h.lo_ge <;> have := h.hi_le <;> have := h.le <;> omega

theorem Inv64.straddle {l r : Int} {a b : ℝ} (h : Inv64 l r a b) {m : ℕ} (h1 : min l r < m) (h2 : (m : Int) < max l r) (hm : m < 255) :
    Straddle m a b ∧ 1 / 1000 ≤ |b - a| := by
  rcases h with ⟨h, hs⟩ | ⟨h, hs⟩
  · have := h.le
    have hs := hs (by omega)
    exact ⟨⟨(min_le_left _ _).trans (h.low m hm (by omega)), (h.high m hm (by omega)).trans (le_max_right _ _)⟩, by
      rw [le_abs]; left; linarith⟩
  · have := h.le
    have hs := hs (by omega)
    exact ⟨⟨(min_le_right _ _).trans (h.low m hm (by omega)), (h.high m hm (by omega)).trans (le_max_left _ _)⟩, by
      rw [le_abs]; right; linarith⟩

theorem Inv64.right {l r : Int} {a b w : ℝ} (h : Inv64 l r a b) {m : ℕ} (h1 : min l r < m) (h2 : (m : Int) < max l r)
    (hw : |w - plane m| ≤ 1 / 10 ^ 12) : Inv64 l m a w := by
  rcases h with ⟨h, hs⟩ | ⟨h, hs⟩
  · have := h.le
    exact .inl (h.step_high (by omega) (by omega) hw)
  · have := h.le
    exact .inr (h.step_low (by omega) (by omega) hw)

theorem Inv64.left {l r : Int} {a b w : ℝ} (h : Inv64 l r a b) {m : ℕ} (h1 : min l r < m) (h2 : (m : Int) < max l r)
    (hw : |w - plane m| ≤ 1 / 10 ^ 12) : Inv64 m r w b := by
  rcases h with ⟨h, hs⟩ | ⟨h, hs⟩
  · have := h.le
    exact .inl (h.step_low (by omega) (by omega) hw)
  · have := h.le
    exact .inr (h.step_high (by omega) (by omega) hw)

/-- Both ends are near the segment. -/
def Ends (A D : Fin 3 → ℝ) (ε δ : ℝ) (s : LimState 𝔻) (P Q : Fin 3 → ℝ) : Prop :=
  IsV s.left P ∧ IsV s.right Q ∧ OnLine A D ε δ P ∧ OnLine A D ε δ Q

theorem limLoop_line {A D : Fin 3 → ℝ} (hAB : ∀ i, (0 ≤ A i ∧ A i ≤ 100) ∧ 0 ≤ A i + D i ∧ A i + D i ≤ 100) (hue : 𝔻) (axis : Fin 3)
    (n : Nat) : ∀ (s : LimState 𝔻) (P Q : Fin 3 → ℝ) (ε δ : ℝ), 0 ≤ ε → ε + n * (11 / 10 ^ 14) ≤ 1 / 10 ^ 11 → 0 ≤ δ →
      δ + n * (27 / 10 ^ 7) ≤ 1 / 10 ^ 4 → Ends A D ε δ s P Q → Inv64 s.lPlane s.rPlane (P axis) (Q axis) →
      ∃ P' Q', Ends A D (ε + n * (11 / 10 ^ 14)) (δ + n * (27 / 10 ^ 7)) (limLoop hue axis n s) P' Q' := by
  induction n with
  | zero =>
    intro s P Q ε δ _ _ _ _ h _
    exact ⟨P, Q, by simpa [limLoop] using h⟩
  | succ n ih =>
    intro s P Q ε δ e0 e1 d0 d1 h hb
    have n1 : (0 : ℝ) ≤ n * (11 / 10 ^ 14) := by positivity
    have n2 : (0 : ℝ) ≤ n * (27 / 10 ^ 7) := by positivity
    have q1 : ε + ((n + 1 : ℕ) : ℝ) * (11 / 10 ^ 14) = ε + 11 / 10 ^ 14 + n * (11 / 10 ^ 14) := by push_cast; ring
    have q2 : δ + ((n + 1 : ℕ) : ℝ) * (27 / 10 ^ 7) = δ + 27 / 10 ^ 7 + n * (27 / 10 ^ 7) := by push_cast; ring
    rw [q1] at e1 ⊢
    rw [q2] at d1 ⊢
    obtain ⟨iP, iQ, oP, oQ⟩ := h
    have me : ε ≤ ε + 11 / 10 ^ 14 := by norm_num
    have md : δ ≤ δ + 27 / 10 ^ 7 := by norm_num
    simp only [limLoop]
    by_cases hle : ((s.rPlane - s.lPlane).natAbs : Int) ≤ 1
    · rw [if_pos hle]
      exact ⟨P, Q, iP, iQ, oP.mono (by linarith) (by linarith), oQ.mono (by linarith) (by linarith)⟩
    · rw [if_neg hle]
      have hbnd := hb.bounds (by omega)
      obtain ⟨m, hm, em, m1, m2⟩ := mid_index64 (L := L) hbnd.1 hbnd.2 (by omega)
      rw [em, Int.toNat_natCast]
      obtain ⟨hst, hsep⟩ := hb.straddle m1 m2 hm
      obtain ⟨M, iM, oM, hM⟩ := round64 hm hAB iP iQ oP oQ e0 (by linarith) d0 (by linarith) hsep hst
      generalize setCoordinate s.left ((criticalPlanes : List 𝔻).getD m 0.0) s.right axis = mid at *
      split
      · exact ih _ P M _ _ (by linarith) e1 (by linarith) d1 ⟨iP, iM, oP.mono me md, oM⟩ (hb.right m1 m2 hM)
      · exact ih _ M Q _ _ (by linarith) e1 (by linarith) d1 ⟨iM, iQ, oM, oQ.mono me md⟩ (hb.left m1 m2 hM)

theorem limLoop_exit (hue : 𝔻) (axis : Fin 3) (n : Nat) (s : LimState 𝔻) (h : (s.rPlane - s.lPlane).natAbs ≤ 1) :
    limLoop hue axis n s = s := by
  cases n with
  | zero => rfl
  | succ n =>
    simp only [limLoop]
    rw [if_pos (by omega)]

/-- A single round is left when one plane is between the ends. -/
theorem limLoop_once (hue : 𝔻) (axis : Fin 3) (s : LimState 𝔻) (m : ℕ) (hd : (s.rPlane - s.lPlane).natAbs = 2)
    (em : Fl.toI64 (Fl.floor (Fl.ofInt (s.lPlane + s.rPlane) / (2.0 : 𝔻))) = (m : Int)) (m1 : min s.lPlane s.rPlane < m)
    (m2 : (m : Int) < max s.lPlane s.rPlane) :
    let M := setCoordinate s.left ((criticalPlanes : List 𝔻).getD m 0.0) s.right axis
    let t := limLoop hue axis 8 s
    (t.left = s.left ∧ t.right = M) ∨ (t.left = M ∧ t.right = s.right) := by
  intro M t
  simp only [t, M]
  rw [limLoop]
  rw [if_neg (by omega), em]
  simp only [Int.toNat_natCast]
  generalize setCoordinate s.left ((criticalPlanes : List 𝔻).getD m 0.0) s.right axis = mid
  by_cases hc : areInCyclicOrder s.leftHue hue (hueOf mid) = true
  · simp only [if_pos hc]
    rw [limLoop_exit _ _ _ _ (by simp only; omega)]
    exact .inl ⟨rfl, rfl⟩
  · simp only [if_neg hc]
    rw [limLoop_exit _ _ _ _ (by simp only; omega)]
    exact .inr ⟨rfl, rfl⟩

theorem limAxis_eq64 (hue : 𝔻) (s : LimState 𝔻) (axis : Fin 3) {a b : ℝ} (ha : Is (s.left.get axis) a) (hb : Is (s.right.get axis) b) :
    (a = b ∧ limAxis hue s axis = s) ∨
    (a < b ∧ limAxis hue s axis = limLoop hue axis 8
      { s with lPlane := criticalPlaneBelow (trueDelinearized (s.left.get axis)),
               rPlane := criticalPlaneAbove (trueDelinearized (s.right.get axis)) }) ∨
    (b < a ∧ limAxis hue s axis = limLoop hue axis 8
      { s with lPlane := criticalPlaneAbove (trueDelinearized (s.left.get axis)),
               rPlane := criticalPlaneBelow (trueDelinearized (s.right.get axis)) }) := by
  simp only [limAxis]
  by_cases he : a = b
  · left
    refine ⟨he, ?_⟩
    rw [if_neg]
    rw [bne, (ha.beq_iff hb).2 he]; decide
  · have hne : (s.left.get axis != s.right.get axis) = true := by
      rw [bne, Bool.not_eq_true', ← Bool.not_eq_true, ha.beq_iff hb]; exact he
    rw [if_pos hne]
    right
    by_cases hlt : a < b
    · exact .inl ⟨hlt, by rw [if_pos ((ha.lt_iff hb).2 hlt)]⟩
    · exact .inr ⟨lt_of_le_of_ne (not_lt.1 hlt) (Ne.symm he), by rw [if_neg (by rw [ha.lt_iff hb]; exact hlt)]⟩

/-- The first plane indices, in either direction. -/
theorem planes64 (hL : L.PowOk) (hue : 𝔻) (s : LimState 𝔻) (axis : Fin 3) {a b : ℝ} (ha : Is (s.left.get axis) a)
    (hb : Is (s.right.get axis) b) (ra : -0.01 ≤ a ∧ a ≤ 100.01) (rb : -0.01 ≤ b ∧ b ≤ 100.01) :
    limAxis hue s axis = s ∨ a ≠ b ∧ ∃ l r, limAxis hue s axis = limLoop hue axis 8 { s with lPlane := l, rPlane := r } ∧
      ((Bracket64 l r a b ∧ a < b) ∨ (Bracket64 r l b a ∧ b < a)) := by
  rcases limAxis_eq64 hue s axis ha hb with ⟨-, e⟩ | ⟨hlt, e⟩ | ⟨hlt, e⟩
  · exact .inl e
  · exact .inr ⟨hlt.ne, _, _, e, .inl ⟨bracket64_init hL ha hb ra.1 ra.2 rb.1 rb.2 hlt, hlt⟩⟩
  · exact .inr ⟨hlt.ne', _, _, e, .inr ⟨bracket64_init hL hb ha rb.1 rb.2 ra.1 ra.2 hlt, hlt⟩⟩

theorem limAxis_inBounds (hL : L.PowOk) (hue : 𝔻) (s : LimState 𝔻) (axis : Fin 3) {a b : ℝ} (ha : Is (s.left.get axis) a)
    (hb : Is (s.right.get axis) b) (ra : -0.01 ≤ a ∧ a ≤ 100.01) (rb : -0.01 ≤ b ∧ b ≤ 100.01) (h : s.inBounds = true) :
    (limAxis hue s axis).inBounds = true := by
  rcases planes64 hL hue s axis ha hb ra rb with e | ⟨-, l, r, e, hp⟩
  · rw [e]; exact h
  · rw [e]
    by_cases hd : (r - l).natAbs ≤ 1
    · rw [limLoop_exit _ _ _ _ hd]; exact h
    · have : -1 ≤ min l r ∧ max l r ≤ 255 := by
        rcases hp with ⟨hp, -⟩ | ⟨hp, -⟩ <;> have := hp.lo_ge <;> have := hp.hi_le <;> have := hp.le <;> omega
      exact limLoop_inBounds hue axis 8 _ this.1 this.2 h

/-! ### The three axes -/

/-- A direction that is not flat along any axis on which a plane is straddled. -/
def Far (A D : Fin 3 → ℝ) : Prop :=
  ∀ i, D i = 0 ∨ 6 ≤ |D i| ∨ (A i = 0 ∨ A i = 100) ∨ (A i + D i = 0 ∨ A i + D i = 100)

/-- A straddled plane forces the segment to be long enough along the axis. -/
theorem Far.long {A D P Q : Fin 3 → ℝ} {ε δ : ℝ} {i : Fin 3} {m : ℕ} (hF : Far A D) (hm : m < 255) (hP : OnLine A D ε δ P)
    (hQ : OnLine A D ε δ Q) (he1 : ε ≤ 1 / 10 ^ 8) (hd0 : 0 ≤ δ) (hd1 : δ ≤ 1 / 10 ^ 4) (hne : P i ≠ Q i)
    (h : Straddle m (P i) (Q i)) : 1 / 100 ≤ |D i| := by
  obtain ⟨s, s0, s1, s2⟩ := hP
  obtain ⟨t, t0, t1, t2⟩ := hQ
  obtain ⟨hlo, hhi⟩ := h
  have a1 := abs_le.1 (s2 i).1
  have a2 := abs_le.1 (t2 i).1
  have p0 := plane_low hm
  have p1 := plane_high hm
  rcases hF i with h | h | h
  · exact absurd (((s2 i).2 h).trans ((t2 i).2 h).symm) hne
  · linarith
  · by_contra hc
    push Not at hc
    have key : ∀ w x : ℝ, -δ ≤ w → w ≤ 1 + δ → -ε ≤ x - (A i + w * D i) → x - (A i + w * D i) ≤ ε →
        |x - A i| ≤ 102 / 10 ^ 4 ∧ |x - (A i + D i)| ≤ 102 / 10 ^ 4 := by
      intro w x w0 w1 x0 x1
      have h1 : |w * D i| ≤ (1 + 1 / 10 ^ 4) * (1 / 100) := by
        rw [abs_mul]
        have : |w| ≤ 1 + 1 / 10 ^ 4 := by rw [abs_le]; constructor <;> linarith
        gcongr
      have h2 : |(w - 1) * D i| ≤ (1 + 1 / 10 ^ 4) * (1 / 100) := by
        rw [abs_mul]
        have : |w - 1| ≤ 1 + 1 / 10 ^ 4 := by rw [abs_le]; constructor <;> linarith
        gcongr
      have h1 := abs_le.1 h1
      have h2 := abs_le.1 h2
      norm_num at he1 h1 h2
      constructor
      · rw [abs_le]; norm_num; constructor <;> linarith
      · rw [abs_le]; norm_num; constructor <;> linarith
    obtain ⟨k1, k2⟩ := key s (P i) s0 s1 a1.1 a1.2
    obtain ⟨k3, k4⟩ := key t (Q i) t0 t1 a2.1 a2.2
    have k1 := abs_le.1 k1
    have k2 := abs_le.1 k2
    have k3 := abs_le.1 k3
    have k4 := abs_le.1 k4
    have hlo' : P i ≤ plane m * (1 + 4 / 10 ^ 13) ∨ Q i ≤ plane m * (1 + 4 / 10 ^ 13) := min_le_iff.1 hlo
    have hhi' : plane m * (1 - 4 / 10 ^ 13) ≤ P i ∨ plane m * (1 - 4 / 10 ^ 13) ≤ Q i := le_max_iff.1 hhi
    norm_num at p0 p1 k1 k2 k3 k4 hlo' hhi'
    rcases hlo' with hlo' | hlo' <;> rcases hhi' with hhi' | hhi' <;> rcases h with (h | h) | (h | h) <;> linarith

/-- The first axis: the ends start at the vertices. -/
theorem axis_red (hL : L.PowOk) {A D : Fin 3 → ℝ} (hAB : ∀ i, (0 ≤ A i ∧ A i ≤ 100) ∧ 0 ≤ A i + D i ∧ A i + D i ≤ 100)
    (hF : Far A D) (hue : 𝔻) (s : LimState 𝔻) (hl : IsV s.left A) (hr : IsV s.right (fun i => A i + D i)) :
    ∃ P Q, Ends A D (8 * (11 / 10 ^ 14)) (8 * (27 / 10 ^ 7)) (limAxis hue s 0) P Q := by
  have oA : OnLine A D 0 0 A := ⟨0, by norm_num, by norm_num, fun i => ⟨by norm_num, fun _ => rfl⟩⟩
  have oB : OnLine A D 0 0 (fun i => A i + D i) :=
    ⟨1, by norm_num, by norm_num, fun i => ⟨by norm_num, fun h => by simp only [h, add_zero]⟩⟩
  have r1 := (hAB 0).1
  have r2 := (hAB 0).2
  rcases planes64 hL hue s 0 (hl 0) (hr 0) (by norm_num; constructor <;> linarith) (by norm_num; constructor <;> linarith) with
    e | ⟨hne, l, r, e, hp⟩
  · rw [e]
    exact ⟨A, _, hl, hr, oA.mono (by norm_num) (by norm_num), oB.mono (by norm_num) (by norm_num)⟩
  · rw [e]
    have hinv : Inv64 l r (A 0) (A 0 + D 0) := by
      have far : ∀ m : ℕ, m < 255 → Straddle m (A 0) (A 0 + D 0) → 1 / 100 ≤ |D 0| := fun m hm hst =>
        hF.long hm oA oB (by norm_num) le_rfl (by norm_num) hne hst
      rcases hp with ⟨hp, hlt⟩ | ⟨hp, hlt⟩
      · refine .inl ⟨hp, fun h => ?_⟩
        have b1 := hp.lo_ge
        have b2 := hp.hi_le
        obtain ⟨m, hm⟩ := Int.eq_ofNat_of_zero_le (show 0 ≤ l + 1 by omega)
        have := far m (by omega) ⟨(min_le_left _ _).trans (hp.low m (by omega) (by omega)),
          (hp.high m (by omega) (by omega)).trans (le_max_right _ _)⟩
        rw [abs_of_pos (by linarith)] at this
        linarith
      · refine .inr ⟨hp, fun h => ?_⟩
        have b1 := hp.lo_ge
        have b2 := hp.hi_le
        obtain ⟨m, hm⟩ := Int.eq_ofNat_of_zero_le (show 0 ≤ r + 1 by omega)
        have := far m (by omega) ⟨(min_le_right _ _).trans (hp.low m (by omega) (by omega)),
          (hp.high m (by omega) (by omega)).trans (le_max_left _ _)⟩
        rw [abs_of_neg (by linarith)] at this
        linarith
    have := limLoop_line hAB hue 0 8 { s with lPlane := l, rPlane := r } A (fun i => A i + D i) 0 0 le_rfl (by norm_num) le_rfl
      (by norm_num) ⟨hl, hr, oA, oB⟩ hinv
    simpa using this

/-- The second axis: the blue coordinates of the ends stay near the cube. -/
theorem axis_green (hL : L.PowOk) {A D P Q : Fin 3 → ℝ} (hAB : ∀ i, (0 ≤ A i ∧ A i ≤ 100) ∧ 0 ≤ A i + D i ∧ A i + D i ≤ 100)
    (hF : Far A D) (hue : 𝔻) (s : LimState 𝔻) (h : Ends A D (8 * (11 / 10 ^ 14)) (8 * (27 / 10 ^ 7)) s P Q) :
    ∃ a b, Is ((limAxis hue s 1).left.get 2) a ∧ Is ((limAxis hue s 1).right.get 2) b ∧
      (-0.01 ≤ a ∧ a ≤ 100.01) ∧ (-0.01 ≤ b ∧ b ≤ 100.01) := by
  obtain ⟨iP, iQ, oP, oQ⟩ := h
  have rP : ∀ i, -0.01 ≤ P i ∧ P i ≤ 100.01 := fun i => by
    have := oP.range (by norm_num) i (hAB i).1 (hAB i).2
    norm_num at this ⊢; constructor <;> linarith
  have rQ : ∀ i, -0.01 ≤ Q i ∧ Q i ≤ 100.01 := fun i => by
    have := oQ.range (by norm_num) i (hAB i).1 (hAB i).2
    norm_num at this ⊢; constructor <;> linarith
  rcases planes64 hL hue s 1 (iP 1) (iQ 1) (rP 1) (rQ 1) with e | ⟨hne, l, r, e, hp⟩
  · rw [e]
    exact ⟨_, _, iP 2, iQ 2, rP 2, rQ 2⟩
  rw [e]
  by_cases hsep : 1 / 1000 ≤ |Q 1 - P 1| ∨ (r - l).natAbs ≤ 1
  · have hinv : Inv64 l r (P 1) (Q 1) := by
      rcases hp with ⟨hp, hlt⟩ | ⟨hp, hlt⟩
      · refine .inl ⟨hp, fun h => ?_⟩
        have hsep := hsep.resolve_right (by omega)
        rw [abs_of_pos (by linarith)] at hsep
        linarith
      · refine .inr ⟨hp, fun h => ?_⟩
        have hsep := hsep.resolve_right (by omega)
        rw [abs_of_neg (by linarith)] at hsep
        linarith
    obtain ⟨P', Q', iP', iQ', oP', oQ'⟩ := limLoop_line hAB hue 1 8 { s with lPlane := l, rPlane := r } P Q _ _ (by norm_num)
      (by norm_num) (by norm_num) (by norm_num) ⟨iP, iQ, oP, oQ⟩ hinv
    have r1 := oP'.range (by norm_num) 2 (hAB 2).1 (hAB 2).2
    have r2 := oQ'.range (by norm_num) 2 (hAB 2).1 (hAB 2).2
    norm_num at r1 r2
    exact ⟨_, _, iP' 2, iQ' 2, by norm_num; constructor <;> linarith, by norm_num; constructor <;> linarith⟩
  · push Not at hsep
    obtain ⟨hsh, hd⟩ := hsep
    -- two planes in between would keep the ends apart
    have hbd : -1 ≤ min l r ∧ max l r ≤ 255 := by
      rcases hp with ⟨hp, -⟩ | ⟨hp, -⟩ <;> have := hp.lo_ge <;> have := hp.hi_le <;> have := hp.le <;> omega
    have hst : ∀ m : ℕ, min l r < m → (m : Int) < max l r → Straddle m (P 1) (Q 1) := by
      intro m h1 h2
      rcases hp with ⟨hp, -⟩ | ⟨hp, -⟩
      · have := hp.le
        exact ⟨(min_le_left _ _).trans (hp.low m (by omega) (by omega)), (hp.high m (by omega) (by omega)).trans (le_max_right _ _)⟩
      · have := hp.le
        exact ⟨(min_le_right _ _).trans (hp.low m (by omega) (by omega)), (hp.high m (by omega) (by omega)).trans (le_max_left _ _)⟩
    have h2 : (r - l).natAbs = 2 := by
      by_contra hc
      obtain ⟨m, hm⟩ := Int.eq_ofNat_of_zero_le (show 0 ≤ min l r + 1 by omega)
      have g := plane_mono (m := m) (n := m + 1) (by omega) (by omega)
      have g' := plane_high (m := m + 1) (by omega)
      have hsh := abs_lt.1 hsh
      rcases hp with ⟨hp, hlt⟩ | ⟨hp, hlt⟩
      · have := hp.le
        have h3 := hp.low m (by omega) (by omega)
        have h4 := hp.high (m + 1) (by omega) (by push_cast; omega)
        norm_num at g g' h3 h4 hsh
        linarith
      · have := hp.le
        have h3 := hp.low m (by omega) (by omega)
        have h4 := hp.high (m + 1) (by omega) (by push_cast; omega)
        norm_num at g g' h3 h4 hsh
        linarith
    obtain ⟨m, hm, em, m1, m2⟩ := mid_index64 (L := L) hbd.1 hbd.2 (by omega)
    have hD := hF.long hm oP oQ (by norm_num) (by norm_num) (by norm_num) hne (hst m m1 m2)
    obtain ⟨v, iv, hv⟩ := short64 (i := 2) hm hAB hD iP iQ oP oQ (by norm_num) (by norm_num) (by norm_num) (by norm_num) hne hsh.le
      (hst m m1 m2)
    rcases limLoop_once hue 1 { s with lPlane := l, rPlane := r } m h2 em m1 m2 with ⟨e1, e2⟩ | ⟨e1, e2⟩
    · rw [e1, e2]
      exact ⟨_, v, iP 2, iv, rP 2, hv⟩
    · rw [e1, e2]
      exact ⟨v, _, iv, iQ 2, hv, rQ 2⟩

theorem limState64 (hL : L.PowOk) (y hue : 𝔻) : (bisectToLimitState y hue).inBounds = true := by
  simp only [bisectToLimitState, List.foldl_cons, List.foldl_nil]
  rcases segment64 y hue with ⟨he, hm⟩ | ⟨v, n, m, A, B, hn, hm, iv, iA, iB, hA, hB, hnm⟩
  · -- no vertex: nothing is searched
    have h1 : Is (1.0 : 𝔻) 1 := by simpa using lit (L := L) 10 1 true 1 (by norm_num) (by norm_num)
    have hs : ∀ (s : LimState 𝔻), s.left = ⟨-1.0, -1.0, -1.0⟩ → s.right = ⟨-1.0, -1.0, -1.0⟩ → ∀ axis, limAxis hue s axis = s := by
      intro s hl hr axis
      have i1 : Is ((⟨-1.0, -1.0, -1.0⟩ : Vec3 𝔻).get axis) (-1) := by fin_cases axis <;> exact h1.neg
      rcases limAxis_eq64 hue s axis (hl ▸ i1) (hr ▸ i1) with ⟨-, e⟩ | ⟨h, -⟩ | ⟨h, -⟩
      · exact e
      · exact absurd h (lt_irrefl _)
      · exact absurd h (lt_irrefl _)
    have hr := he.symm.trans hm
    rw [hs ⟨_, _, _, _, _, _⟩ hm hr, hs ⟨_, _, _, _, _, _⟩ hm hr, hs ⟨_, _, _, _, _, _⟩ hm hr]
  · set D : Fin 3 → ℝ := fun i => B i - A i with hD
    have hBD : (fun i => A i + D i) = B := by funext i; simp [hD]
    have hBi : ∀ i, A i + D i = B i := fun i => congrFun hBD i
    have hAB : ∀ i, (0 ≤ A i ∧ A i ≤ 100) ∧ 0 ≤ A i + D i ∧ A i + D i ≤ 100 := fun i => by
      rw [hBi]; exact ⟨hA.range i, hB.range i⟩
    have hF : Far A D := by
      intro i
      by_cases h : n = m
      · left; rw [hD, hnm h]; simp
      · right
        rw [hBi]
        exact vertex_far hA hB hn hm h i
    set s0 : LimState 𝔻 := ⟨(bisectToSegment y hue).1, hueOf (bisectToSegment y hue).1, (bisectToSegment y hue).2, -1, 255, true⟩
    have r0 : ∀ x : ℝ, 0 ≤ x ∧ x ≤ 100 → -0.01 ≤ x ∧ x ≤ 100.01 := fun x hx => by
      norm_num; constructor <;> linarith [hx.1, hx.2]
    have b1 := limAxis_inBounds hL hue s0 0 (iA 0) (iB 0) (r0 _ (hA.range 0)) (r0 _ (hB.range 0)) rfl
    obtain ⟨P, Q, hE⟩ := axis_red hL hAB hF hue s0 iA (hBD ▸ iB)
    set s1 := limAxis hue s0 0
    have rP := hE.2.2.1.range (by norm_num) 1 (hAB 1).1 (hAB 1).2
    have rQ := hE.2.2.2.range (by norm_num) 1 (hAB 1).1 (hAB 1).2
    norm_num at rP rQ
    have b2 := limAxis_inBounds hL hue s1 1 (hE.1 1) (hE.2.1 1) (by norm_num; constructor <;> linarith)
      (by norm_num; constructor <;> linarith) b1
    obtain ⟨a, b, ia, ib, ra, rb⟩ := axis_green hL hAB hF hue s1 hE
    exact limAxis_inBounds hL hue _ 2 ia ib ra rb b2

end Mcu.Lemmas
