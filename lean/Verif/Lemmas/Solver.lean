import Verif.Lemmas.Planes

/-! The search for the gamut limit over exact reals: vertices of the luminance plane, the line between
two of them, and the bisection along an axis. -/

namespace Mcu.Lemmas

open Mcu.HctSolver Real

theorem z0 : (0.0 : ℝ) = 0 := by norm_num
theorem z100 : (100.0 : ℝ) = 100 := by norm_num

/-- The luminance of a linear RGB point. -/
noncomputable def lum (v : Vec3 ℝ) : ℝ := 0.2126 * v.x0 + 0.7152 * v.x1 + 0.0722 * v.x2

/-- A vertex of the intersection of the cube with the plane of luminance `y`: inside the cube, on the
plane, and on an edge of the cube. -/
def Vertex (y : ℝ) (v : Vec3 ℝ) : Prop :=
  (∀ i, 0 ≤ v.get i ∧ v.get i ≤ 100) ∧ lum v = y ∧
  ∃ i, ∀ j, j ≠ i → v.get j = 0 ∨ v.get j = 100

theorem isBounded_iff (x : ℝ) : isBounded x = true ↔ 0 ≤ x ∧ x ≤ 100 := by
  simp only [isBounded, z0, z100, Bool.and_eq_true, decide_eq_true_eq]

theorem corner (c : Prop) [Decidable c] : (if c then (0.0 : ℝ) else 100.0) = 0 ∨
    (if c then (0.0 : ℝ) else 100.0) = 100 := by
  split <;> norm_num

theorem corner_range {x : ℝ} (h : x = 0 ∨ x = 100) : 0 ≤ x ∧ x ≤ 100 := by
  rcases h with rfl | rfl <;> norm_num

theorem bounded_cases {y x : ℝ} {v : Vec3 ℝ} (h : 0 ≤ x → x ≤ 100 → Vertex y v) :
    (if isBounded x = true then v else ⟨-1.0, -1.0, -1.0⟩ : Vec3 ℝ).x0 < 0.0 ∨
      Vertex y (if isBounded x = true then v else ⟨-1.0, -1.0, -1.0⟩) := by
  by_cases hb : isBounded x = true
  · rw [if_pos hb]
    rw [isBounded_iff] at hb
    exact .inr (h hb.1 hb.2)
  · rw [if_neg hb]
    left; norm_num

theorem nthVertex_spec (y : ℝ) (n : Nat) : (nthVertex y n).x0 < 0.0 ∨ Vertex y (nthVertex y n) := by
  simp only [nthVertex]
  have hA := corner (n % 4 ≤ 1)
  have hB := corner (n % 2 = 0)
  generalize (if n % 4 ≤ 1 then (0.0 : ℝ) else 100.0) = a at *
  generalize (if n % 2 = 0 then (0.0 : ℝ) else 100.0) = b at *
  have ha := corner_range hA
  have hb := corner_range hB
  simp only [yFromLinrgb]
  by_cases h4 : n < 4
  · simp only [if_pos h4]
    refine bounded_cases fun hr0 hr1 => ⟨?_, ?_, 0, ?_⟩
    · intro i; fin_cases i
      · exact ⟨hr0, hr1⟩
      · exact ha
      · exact hb
    · simp only [lum]; norm_num; ring
    · intro j hj; fin_cases j
      · exact absurd rfl hj
      · exact hA
      · exact hB
  · simp only [if_neg h4]
    by_cases h8 : n < 8
    · simp only [if_pos h8]
      refine bounded_cases fun hr0 hr1 => ⟨?_, ?_, 1, ?_⟩
      · intro i; fin_cases i
        · exact hb
        · exact ⟨hr0, hr1⟩
        · exact ha
      · simp only [lum]; norm_num; ring
      · intro j hj; fin_cases j
        · exact hB
        · exact absurd rfl hj
        · exact hA
    · simp only [if_neg h8]
      refine bounded_cases fun hr0 hr1 => ⟨?_, ?_, 2, ?_⟩
      · intro i; fin_cases i
        · exact ha
        · exact hb
        · exact ⟨hr0, hr1⟩
      · simp only [lum]; norm_num; ring
      · intro j hj; fin_cases j
        · exact hA
        · exact hB
        · exact absurd rfl hj

/-- Some vertex is found for every luminance in [0, 100]. -/
theorem exists_vertex {y : ℝ} (h0 : 0 ≤ y) (h1 : y ≤ 100) :
    ∃ n, n < 12 ∧ ¬ (nthVertex y n).x0 < 0.0 := by
  rcases le_or_gt y 21.26 with h | h
  · refine ⟨0, by norm_num, ?_⟩
    have : isBounded ((y - (0.0 : ℝ) * 0.7152 - 0.0 * 0.0722) / 0.2126) = true := by
      rw [isBounded_iff]; norm_num at h ⊢; constructor <;> linarith
    simp only [nthVertex, yFromLinrgb]
    norm_num at this ⊢
    rw [if_pos this]
    linarith
  · rcases le_or_gt y 92.78 with h' | h'
    · refine ⟨5, by norm_num, ?_⟩
      have : isBounded ((y - (100.0 : ℝ) * 0.2126 - 0.0 * 0.0722) / 0.7152) = true := by
        rw [isBounded_iff]; norm_num at h h' ⊢; constructor <;> linarith
      simp only [nthVertex, yFromLinrgb]
      norm_num at this ⊢
      rw [if_pos this]
      norm_num
    · refine ⟨11, by norm_num, ?_⟩
      have : isBounded ((y - (100.0 : ℝ) * 0.2126 - 100.0 * 0.7152) / 0.0722) = true := by
        rw [isBounded_iff]; norm_num at h h' ⊢; constructor <;> linarith
      simp only [nthVertex, yFromLinrgb]
      norm_num at this ⊢
      rw [if_pos this]
      norm_num

/-- What the vertex loop maintains. -/
def SegOk (y : ℝ) (s : SegState ℝ) : Prop :=
  s.initialized = true → Vertex y s.left ∧ Vertex y s.right

theorem segStep_ok (y hue : ℝ) (s : SegState ℝ) (n : Nat) (h : SegOk y s) :
    SegOk y (segStep y hue s n) := by
  simp only [segStep]
  rcases nthVertex_spec y n with hv | hv
  · rw [if_pos hv]; exact h
  · split_ifs with c1 c2 c3 c4
    · exact h
    · exact fun _ => ⟨hv, hv⟩
    · exact fun hi => ⟨(h hi).1, hv⟩
    · exact fun hi => ⟨hv, (h hi).2⟩
    · exact h

theorem segStep_init (y hue : ℝ) (s : SegState ℝ) (n : Nat)
    (h : s.initialized = true ∨ ¬ (nthVertex y n).x0 < 0.0) :
    (segStep y hue s n).initialized = true := by
  simp only [segStep]
  split_ifs with c1 c2 c3 c4
  · rcases h with h | h
    · exact h
    · exact absurd c1 h
  · rfl
  · simpa using c2
  · simpa using c2
  · simpa using c2

theorem segFold_init (y hue : ℝ) (l : List Nat) (s : SegState ℝ)
    (h : s.initialized = true ∨ ∃ n ∈ l, ¬ (nthVertex y n).x0 < 0.0) :
    (l.foldl (segStep y hue) s).initialized = true := by
  induction l generalizing s with
  | nil => simpa using h
  | cons a l ih =>
    rw [List.foldl_cons]
    apply ih
    rcases h with h | ⟨n, hn, hv⟩
    · exact .inl (segStep_init y hue s a (.inl h))
    · rcases List.mem_cons.1 hn with rfl | hn
      · exact .inl (segStep_init y hue s n (.inr hv))
      · exact .inr ⟨n, hn, hv⟩

theorem segFold_ok (y hue : ℝ) (l : List Nat) (s : SegState ℝ) (h : SegOk y s) :
    SegOk y (l.foldl (segStep y hue) s) := by
  induction l generalizing s with
  | nil => exact h
  | cons a l ih => exact ih _ (segStep_ok y hue s a h)

/-- Both ends of the segment are vertices. -/
theorem segment_vertices {y : ℝ} (h0 : 0 ≤ y) (h1 : y ≤ 100) (hue : ℝ) :
    Vertex y (bisectToSegment y hue).1 ∧ Vertex y (bisectToSegment y hue).2 := by
  obtain ⟨n, hn, hv⟩ := exists_vertex h0 h1
  have hi := segFold_init y hue (List.range 12) segInit (.inr ⟨n, List.mem_range.2 hn, hv⟩)
  exact segFold_ok y hue (List.range 12) segInit (fun h => by simp [segInit] at h) hi

/-! ### Lines -/

/-- The point with parameter `s` on the line through `A` and `B`. -/
def onLine (A B : Vec3 ℝ) (s : ℝ) (P : Vec3 ℝ) : Prop := ∀ i, P.get i = A.get i + s * (B.get i - A.get i)

/-- `P` is on the segment from `A` to `B`, extended by `δ` of its length at both ends. -/
def Near (A B : Vec3 ℝ) (δ : ℝ) (P : Vec3 ℝ) : Prop := ∃ s, -δ ≤ s ∧ s ≤ 1 + δ ∧ onLine A B s P

theorem lerp_get (S T : Vec3 ℝ) (t : ℝ) (i : Fin 3) :
    (lerpPoint S t T).get i = S.get i + (T.get i - S.get i) * t := by
  fin_cases i <;> rfl

theorem setCoordinate_get {S T : Vec3 ℝ} {axis : Fin 3} (h : S.get axis ≠ T.get axis) (c : ℝ) :
    (setCoordinate S c T axis).get axis = c := by
  have : T.get axis - S.get axis ≠ 0 := sub_ne_zero.2 h.symm
  simp only [setCoordinate, lerp_get, intercept]
  field_simp
  ring

theorem onLine_lerp {A B S T : Vec3 ℝ} {s t : ℝ} (hs : onLine A B s S) (ht : onLine A B t T) (u : ℝ) :
    onLine A B (s + (t - s) * u) (lerpPoint S u T) := by
  intro i
  rw [lerp_get, hs i, ht i]; ring

/-- Two different coordinates of vertices are far apart, or one of them is a face of the cube. -/
theorem vertex_separation {y : ℝ} {A B : Vec3 ℝ} (hA : Vertex y A) (hB : Vertex y B) (i : Fin 3)
    (hne : A.get i ≠ B.get i) : 7 ≤ |B.get i - A.get i| ∨
      (A.get i = 0 ∨ A.get i = 100) ∨ (B.get i = 0 ∨ B.get i = 100) := by
  obtain ⟨-, lA, a, ha⟩ := hA
  obtain ⟨-, lB, b, hb⟩ := hB
  by_cases hia : i = a
  · by_cases hib : i = b
    · left
      subst hia; subst hib
      simp only [lum] at lA lB
      have key : 7 ≤ |B.get i - A.get i| := by
        rw [le_abs]
        fin_cases i
        · have a1 := ha 1 (by decide); have a2 := ha 2 (by decide)
          have b1 := hb 1 (by decide); have b2 := hb 2 (by decide)
          simp only [Vec3.get] at *
          rcases a1 with a1 | a1 <;> rcases a2 with a2 | a2 <;> rcases b1 with b1 | b1 <;>
            rcases b2 with b2 | b2 <;> rw [a1, a2] at lA <;> rw [b1, b2] at lB <;> norm_num at lA lB <;>
            first
              | (left; linarith)
              | (right; linarith)
              | (exfalso; apply hne; show A.x0 = B.x0; linarith)
        · have a1 := ha 0 (by decide); have a2 := ha 2 (by decide)
          have b1 := hb 0 (by decide); have b2 := hb 2 (by decide)
          simp only [Vec3.get] at *
          rcases a1 with a1 | a1 <;> rcases a2 with a2 | a2 <;> rcases b1 with b1 | b1 <;>
            rcases b2 with b2 | b2 <;> rw [a1, a2] at lA <;> rw [b1, b2] at lB <;> norm_num at lA lB <;>
            first
              | (left; linarith)
              | (right; linarith)
              | (exfalso; apply hne; show A.x1 = B.x1; linarith)
        · have a1 := ha 0 (by decide); have a2 := ha 1 (by decide)
          have b1 := hb 0 (by decide); have b2 := hb 1 (by decide)
          simp only [Vec3.get] at *
          rcases a1 with a1 | a1 <;> rcases a2 with a2 | a2 <;> rcases b1 with b1 | b1 <;>
            rcases b2 with b2 | b2 <;> rw [a1, a2] at lA <;> rw [b1, b2] at lB <;> norm_num at lA lB <;>
            first
              | (left; linarith)
              | (right; linarith)
              | (exfalso; apply hne; show A.x2 = B.x2; linarith)
      exact key
    · exact .inr (.inr (hb i hib))
  · exact .inr (.inl (ha i hia))

/-- A coordinate between (up to 1e-13) the coordinates of two points near the segment, and away from
the faces of the cube, is the coordinate of a point near the segment. -/
theorem near_mid {y : ℝ} {A B L R M : Vec3 ℝ} (hA : Vertex y A) (hB : Vertex y B) {δ : ℝ} (hδ0 : 0 ≤ δ)
    (hδ : δ ≤ 0.001) {axis : Fin 3} (hL : Near A B δ L) (hR : Near A B δ R)
    (hne : L.get axis ≠ R.get axis) {c : ℝ} (hc0 : 0.015 ≤ c) (hc1 : c ≤ 99.6)
    (hlo : min (L.get axis) (R.get axis) - 1e-13 ≤ c) (hhi : c ≤ max (L.get axis) (R.get axis) + 1e-13)
    (hM : M = setCoordinate L c R axis) : Near A B (δ + 1e-11) M := by
  obtain ⟨s, hs0, hs1, hs⟩ := hL
  obtain ⟨t, ht0, ht1, ht⟩ := hR
  subst hM
  set u := intercept (L.get axis) c (R.get axis)
  have hline := onLine_lerp hs ht u
  refine ⟨s + (t - s) * u, ?_⟩
  have hco := hline axis
  rw [show lerpPoint L u R = setCoordinate L c R axis from rfl, setCoordinate_get hne] at hco
  generalize s + (t - s) * u = w at *
  have hAi := hA.1 axis
  have hBi := hB.1 axis
  have hLi := hs axis
  have hRi := ht axis
  have hABne : A.get axis ≠ B.get axis := by
    intro h
    apply hne
    rw [hLi, hRi, h]; ring
  have hsep := vertex_separation hA hB axis hABne
  set a := A.get axis
  set b := B.get axis
  set l := L.get axis
  set r := R.get axis
  have hhi' : c ≤ l + 1e-13 ∨ c ≤ r + 1e-13 := by
    rcases max_choice l r with e | e <;> rw [e] at hhi
    · exact .inl hhi
    · exact .inr hhi
  have hlo' : l - 1e-13 ≤ c ∨ r - 1e-13 ≤ c := by
    rcases min_choice l r with e | e <;> rw [e] at hlo
    · exact .inl hlo
    · exact .inr hlo
  -- the coordinate distance of the vertices
  have hd : 0.01 ≤ |b - a| := by
    rcases hsep with h | h
    · norm_num at h ⊢; linarith
    · by_contra hcon
      push Not at hcon
      rw [abs_lt] at hcon
      have hbound : ∀ p : ℝ, -δ ≤ p → p ≤ 1 + δ → |a + p * (b - a) - a| ≤ 0.0101 ∧
          |a + p * (b - a) - b| ≤ 0.0101 := by
        intro p hp0 hp1
        norm_num at hδ hcon
        constructor
        · rw [abs_le]; norm_num; constructor <;> nlinarith
        · rw [abs_le]; norm_num; constructor <;> nlinarith
      have hl2 := hbound s hs0 hs1
      have hr2 := hbound t ht0 ht1
      rw [← hLi] at hl2
      rw [← hRi] at hr2
      simp only [abs_le] at hl2 hr2
      norm_num at hl2 hr2 hc0 hc1 hlo hhi
      rcases hlo with hlo | hlo <;> rcases hhi' with hhi | hhi <;> norm_num at hhi <;>
        rcases h with (h | h) | (h | h) <;> linarith
  have hpos : 0 < |b - a| := lt_of_lt_of_le (by norm_num) hd
  -- parameters
  refine ⟨?_, ?_, hline⟩
  · by_contra hcon
    push Not at hcon
    rcases le_or_gt 0 (b - a) with hba | hba
    · rw [abs_of_nonneg hba] at hd hpos
      have h1 : (w + δ) * (b - a) < -1e-11 * (b - a) := by
        apply mul_lt_mul_of_pos_right _ hpos; linarith
      have h2 : 0 ≤ (s + δ) * (b - a) := mul_nonneg (by linarith) hba
      have h3 : 0 ≤ (t + δ) * (b - a) := mul_nonneg (by linarith) hba
      rcases hlo' with hlo | hlo <;> norm_num at hd hlo h1 <;> linarith
    · rw [abs_of_neg hba] at hd hpos
      have h1 : (w + δ) * (a - b) < -1e-11 * (a - b) := by
        apply mul_lt_mul_of_pos_right _ (by linarith); linarith
      have h2 : 0 ≤ (s + δ) * (a - b) := mul_nonneg (by linarith) (by linarith)
      have h3 : 0 ≤ (t + δ) * (a - b) := mul_nonneg (by linarith) (by linarith)
      rcases hhi' with hhi | hhi <;> norm_num at hd hhi h1 <;> linarith
  · by_contra hcon
    push Not at hcon
    rcases le_or_gt 0 (b - a) with hba | hba
    · rw [abs_of_nonneg hba] at hd hpos
      have h1 : 1e-11 * (b - a) < (w - 1 - δ) * (b - a) := by
        apply mul_lt_mul_of_pos_right _ hpos; linarith
      have h2 : (s - 1 - δ) * (b - a) ≤ 0 := mul_nonpos_of_nonpos_of_nonneg (by linarith) hba
      have h3 : (t - 1 - δ) * (b - a) ≤ 0 := mul_nonpos_of_nonpos_of_nonneg (by linarith) hba
      rcases hhi' with hhi | hhi <;> norm_num at hd hhi h1 <;> linarith
    · rw [abs_of_neg hba] at hd hpos
      have h1 : 1e-11 * (a - b) < (w - 1 - δ) * (a - b) := by
        apply mul_lt_mul_of_pos_right _ (by linarith); linarith
      have h2 : (s - 1 - δ) * (a - b) ≤ 0 := mul_nonpos_of_nonpos_of_nonneg (by linarith) (by linarith)
      have h3 : (t - 1 - δ) * (a - b) ≤ 0 := mul_nonpos_of_nonpos_of_nonneg (by linarith) (by linarith)
      rcases hlo' with hlo | hlo <;> norm_num at hd hlo h1 <;> linarith

/-! ### The plane indices -/

/-- What the bisection along an axis maintains, for the smaller (`lo`) and the larger end. -/
structure Bracket (lo hi : Int) (x z : ℝ) : Prop where
  lo_ge : -1 ≤ lo
  hi_le : hi ≤ 255
  le : lo ≤ hi
  low : ∀ m : Nat, m < 255 → lo < m → x ≤ plane m + 1e-13
  high : ∀ m : Nat, m < 255 → (m : Int) < hi → plane m - 1e-13 ≤ z
  lt : lo + 2 ≤ hi → x < z

theorem Bracket.step_high {lo hi : Int} {x z : ℝ} (h : Bracket lo hi x z) {m : Nat} (h1 : lo < m)
    (h2 : (m : Int) < hi) : Bracket lo m x (plane m) where
  lo_ge := h.lo_ge
  hi_le := by have := h.hi_le; omega
  le := h1.le
  low := h.low
  high k _ hk' := by
    have hm : m < 255 := by have := h.hi_le; omega
    have := plane_mono (show k < m by exact_mod_cast hk') hm
    norm_num at this ⊢; linarith
  lt hlt := by
    have hm : m < 255 := by have := h.hi_le; omega
    have hge := h.lo_ge
    obtain ⟨k, rfl⟩ : ∃ k, m = k + 1 := ⟨m - 1, by omega⟩
    have h3 := h.low k (by omega) (by push_cast at hlt; omega)
    have h4 := plane_gap (m := k) (by omega)
    norm_num at h3 h4 ⊢; linarith

theorem Bracket.step_low {lo hi : Int} {x z : ℝ} (h : Bracket lo hi x z) {m : Nat} (_h1 : lo < m)
    (h2 : (m : Int) < hi) : Bracket m hi (plane m) z where
  lo_ge := by have := h.lo_ge; omega
  hi_le := h.hi_le
  le := h2.le
  high := h.high
  low k hk hk' := by
    have := plane_mono (show m < k by exact_mod_cast hk') hk
    norm_num at this ⊢; linarith
  lt hlt := by
    have hhi := h.hi_le
    have h3 := h.high (m + 1) (by omega) (by push_cast; omega)
    have h4 := plane_gap (m := m) (by omega)
    norm_num at h3 h4 ⊢; linarith

theorem toI64_floor {x : ℝ} (h0 : -1000 ≤ x) (h1 : x ≤ 1000) : Fl.toI64 (Fl.floor x) = ⌊x⌋ := by
  rw [fl_floor, fl_toI64, realTrunc_intCast]
  apply satI64_of_mem
  have a := Int.le_floor.2 (show ((-1000 : ℤ) : ℝ) ≤ x by push_cast; exact h0)
  have b := Int.floor_le x
  have c : (⌊x⌋ : ℝ) ≤ ((1000 : ℤ) : ℝ) := by push_cast; linarith
  have c' : ⌊x⌋ ≤ 1000 := by exact_mod_cast c
  omega

theorem toI64_ceil {x : ℝ} (h0 : -1000 ≤ x) (h1 : x ≤ 1000) : Fl.toI64 (Fl.ceil x) = ⌈x⌉ := by
  rw [fl_ceil, fl_toI64, realTrunc_intCast]
  apply satI64_of_mem
  have a := Int.ceil_le.2 (show x ≤ ((1000 : ℤ) : ℝ) by push_cast; exact h1)
  have b := Int.le_ceil x
  have c : ((-1000 : ℤ) : ℝ) ≤ (⌈x⌉ : ℝ) := by push_cast; linarith
  have c' : -1000 ≤ ⌈x⌉ := by exact_mod_cast c
  omega

theorem mid_eq {l r : Int} (h0 : -1 ≤ min l r) (h1 : max l r ≤ 255) :
    Fl.toI64 (Fl.floor (Fl.ofInt (l + r) / (2.0 : ℝ))) = (l + r) / 2 := by
  have e2 : (2.0 : ℝ) = 2 := by norm_num
  have hl : (l + r) / 2 = ⌊((l + r : ℤ) : ℝ) / 2⌋ := by
    have := Int.floor_div_natCast (((l + r : ℤ) : ℝ)) 2
    rw [Int.floor_intCast] at this
    exact_mod_cast this.symm
  rw [fl_ofInt, e2, toI64_floor, ← hl]
  · have : (-2000 : ℝ) ≤ ((l + r : ℤ) : ℝ) := by exact_mod_cast (show (-2000 : ℤ) ≤ l + r by omega)
    linarith
  · have : ((l + r : ℤ) : ℝ) ≤ 2000 := by exact_mod_cast (show (l + r : ℤ) ≤ 2000 by omega)
    linarith

/-- The middle index is strictly between the two ends. -/
theorem mid_index {l r : Int} (h0 : -1 ≤ min l r) (h1 : max l r ≤ 255) (h : 2 ≤ (r - l).natAbs) :
    ∃ m : Nat, Fl.toI64 (Fl.floor (Fl.ofInt (l + r) / (2.0 : ℝ))) = m ∧ min l r < m ∧ (m : Int) < max l r := by
  rw [mid_eq h0 h1]
  refine ⟨((l + r) / 2).toNat, ?_, ?_, ?_⟩ <;> omega

/-- The plane indices computed for two different coordinates bracket them. -/
theorem bracket_init {x z : ℝ} (hx0 : -0.001 ≤ x) (hx1 : x ≤ 100.001) (hz0 : -0.001 ≤ z) (hz1 : z ≤ 100.001)
    (h : x < z) :
    Bracket (criticalPlaneBelow (trueDelinearized x)) (criticalPlaneAbove (trueDelinearized z)) x z := by
  have hx := td_range hx0 hx1
  have hz := td_range hz0 hz1
  have eb : criticalPlaneBelow (trueDelinearized x) = ⌊trueDelinearized x - 1 / 2⌋ := by
    have e : (0.5 : ℝ) = 1 / 2 := by norm_num
    unfold criticalPlaneBelow
    rw [e]
    norm_num at hx
    exact toI64_floor (by linarith) (by linarith)
  have ea : criticalPlaneAbove (trueDelinearized z) = ⌈trueDelinearized z - 1 / 2⌉ := by
    have e : (0.5 : ℝ) = 1 / 2 := by norm_num
    unfold criticalPlaneAbove
    rw [e]
    norm_num at hz
    exact toI64_ceil (by linarith) (by linarith)
  rw [eb, ea]
  norm_num at hx hz
  refine ⟨?_, ?_, ?_, ?_, ?_, fun _ => h⟩
  · exact Int.le_floor.2 (by push_cast; linarith)
  · exact Int.ceil_le.2 (by push_cast; linarith)
  · by_contra hc
    push Not at hc
    have hr := realRound_encode_mono (x := x / 100) (y := z / 100) (by linarith)
    rw [← trueDelinearized_eq, ← trueDelinearized_eq] at hr
    have p1 := Int.floor_le (trueDelinearized x - 1 / 2)
    have p2 := Int.le_ceil (trueDelinearized z - 1 / 2)
    set l := ⌊trueDelinearized x - 1 / 2⌋
    set r := ⌈trueDelinearized z - 1 / 2⌉
    have p3 : (r : ℝ) + 1 ≤ l := by exact_mod_cast hc
    have hpos : 0 ≤ trueDelinearized x := by linarith
    rw [realRound, if_pos hpos, realRound] at hr
    have q1 : l + 1 ≤ ⌊trueDelinearized x + 1 / 2⌋ := Int.le_floor.2 (by push_cast; linarith)
    have q2 : (l : ℝ) + 1 ≤ ((⌊trueDelinearized x + 1 / 2⌋ : ℤ) : ℝ) := by exact_mod_cast q1
    by_cases hz' : 0 ≤ trueDelinearized z
    · rw [if_pos hz'] at hr
      have := Int.floor_le (trueDelinearized z + 1 / 2)
      linarith
    · rw [if_neg hz'] at hr
      have := Int.ceil_lt_add_one (trueDelinearized z - 1 / 2)
      linarith
  · intro m hm hlt
    by_contra hc
    push Not at hc
    have h1 := td_of_ge hm hc.le
    have : ((m : ℤ) : ℝ) ≤ trueDelinearized x - 1 / 2 := by push_cast; linarith
    have := Int.le_floor.2 this
    omega
  · intro m hm hlt
    by_contra hc
    push Not at hc
    have h1 := td_of_le hm hc.le
    have : trueDelinearized z - 1 / 2 ≤ ((m : ℤ) : ℝ) := by push_cast; linarith
    have := Int.ceil_le.2 this
    omega

/-! ### The loops -/

/-- What the search maintains. -/
structure LimOk (A B : Vec3 ℝ) (δ : ℝ) (s : LimState ℝ) : Prop where
  inBounds : s.inBounds = true
  left : Near A B δ s.left
  right : Near A B δ s.right

theorem Near.mono {A B P : Vec3 ℝ} {δ δ' : ℝ} (h : Near A B δ P) (hd : δ ≤ δ') : Near A B δ' P := by
  obtain ⟨s, h0, h1, h2⟩ := h
  exact ⟨s, by linarith, by linarith, h2⟩

theorem LimOk.mono {A B : Vec3 ℝ} {δ δ' : ℝ} {s : LimState ℝ} (h : LimOk A B δ s) (hd : δ ≤ δ') :
    LimOk A B δ' s := ⟨h.inBounds, h.left.mono hd, h.right.mono hd⟩

theorem near_range {y : ℝ} {A B P : Vec3 ℝ} (hA : Vertex y A) (hB : Vertex y B) {δ : ℝ} (_hδ0 : 0 ≤ δ)
    (h : Near A B δ P) (i : Fin 3) : -(100 * δ) ≤ P.get i ∧ P.get i ≤ 100 + 100 * δ := by
  obtain ⟨s, h0, h1, h2⟩ := h
  rw [h2 i]
  have ha := hA.1 i
  have hb := hB.1 i
  constructor
  · rcases le_total 0 (B.get i - A.get i) with hd | hd
    · nlinarith
    · nlinarith
  · rcases le_total 0 (B.get i - A.get i) with hd | hd
    · nlinarith
    · nlinarith

theorem near_lum {y : ℝ} {A B P : Vec3 ℝ} (hA : Vertex y A) (hB : Vertex y B) {δ : ℝ}
    (h : Near A B δ P) : lum P = y := by
  obtain ⟨s, -, -, h2⟩ := h
  have e0 := h2 0
  have e1 := h2 1
  have e2 := h2 2
  have lA := hA.2.1
  have lB := hB.2.1
  simp only [Vec3.get] at e0 e1 e2
  simp only [lum] at *
  rw [e0, e1, e2]
  linear_combination (1 - s) * lA + s * lB

theorem limLoop_ok {y : ℝ} {A B : Vec3 ℝ} (hA : Vertex y A) (hB : Vertex y B) (hue : ℝ) (axis : Fin 3)
    (n : Nat) : ∀ (s : LimState ℝ) (δ : ℝ), 0 ≤ δ → δ + n * 1e-11 ≤ 0.001 → LimOk A B δ s →
      (Bracket s.lPlane s.rPlane (s.left.get axis) (s.right.get axis) ∨
        Bracket s.rPlane s.lPlane (s.right.get axis) (s.left.get axis)) →
      LimOk A B (δ + n * 1e-11) (limLoop hue axis n s) := by
  induction n with
  | zero => intro s δ h0 _ h _; simpa [limLoop] using h
  | succ n ih =>
    intro s δ h0 h1 h hb
    have hstep : (0 : ℝ) ≤ n * 1e-11 := by positivity
    have e : δ + ((n + 1 : ℕ) : ℝ) * 1e-11 = δ + 1e-11 + n * 1e-11 := by push_cast; ring
    rw [e] at h1 ⊢
    simp only [limLoop]
    by_cases hle : ((s.rPlane - s.lPlane).natAbs : Int) ≤ 1
    · rw [if_pos hle]
      exact h.mono (by norm_num at hstep ⊢; linarith)
    · rw [if_neg hle]
      have hbnd : -1 ≤ min s.lPlane s.rPlane ∧ max s.lPlane s.rPlane ≤ 255 := by
        rcases hb with hb | hb <;> have := hb.lo_ge <;> have := hb.hi_le <;> have := hb.le <;> omega
      obtain ⟨m, hm, hm1, hm2⟩ := mid_index hbnd.1 hbnd.2 (by omega)
      have hm255 : m < 255 := by omega
      rw [hm]
      have hok : decide (0 ≤ (m : Int) ∧ (m : Int) < ((criticalPlanes : List ℝ).length : Int)) = true := by
        rw [planes_length]; simp; omega
      rw [hok, Int.toNat_natCast, show (criticalPlanes : List ℝ).getD m 0.0 = plane m from rfl]
      -- the new point
      have hne : s.left.get axis ≠ s.right.get axis := by
        rcases hb with hb | hb
        · exact (hb.lt (by have := hb.le; omega)).ne
        · exact (hb.lt (by have := hb.le; omega)).ne'
      have hlo : min (s.left.get axis) (s.right.get axis) - 1e-13 ≤ plane m := by
        rcases hb with hb | hb
        · have := hb.low m hm255 (by have := hb.le; omega)
          have := min_le_left (s.left.get axis) (s.right.get axis)
          linarith
        · have := hb.low m hm255 (by have := hb.le; omega)
          have := min_le_right (s.left.get axis) (s.right.get axis)
          linarith
      have hhi : plane m ≤ max (s.left.get axis) (s.right.get axis) + 1e-13 := by
        rcases hb with hb | hb
        · have := hb.high m hm255 (by have := hb.le; omega)
          have := le_max_right (s.left.get axis) (s.right.get axis)
          linarith
        · have := hb.high m hm255 (by have := hb.le; omega)
          have := le_max_left (s.left.get axis) (s.right.get axis)
          linarith
      have hmid := near_mid hA hB h0 (by norm_num at hstep h1 ⊢; linarith) h.left h.right hne
        (plane_low hm255) (plane_high hm255) hlo hhi rfl
      have hget := setCoordinate_get hne (plane m)
      generalize setCoordinate s.left (plane m) s.right axis = M at *
      have hd : δ ≤ δ + 1e-11 := by norm_num
      by_cases hcyc : areInCyclicOrder s.leftHue hue (hueOf M) = true
      · rw [if_pos hcyc]
        refine ih _ _ (by norm_num; linarith) h1 ⟨by simp [h.inBounds], h.left.mono hd, hmid⟩ ?_
        show Bracket s.lPlane m (s.left.get axis) (M.get axis) ∨ Bracket m s.lPlane (M.get axis) (s.left.get axis)
        rw [hget]
        rcases hb with hb | hb
        · exact .inl (hb.step_high (by have := hb.le; omega) (by have := hb.le; omega))
        · exact .inr (hb.step_low (by have := hb.le; omega) (by have := hb.le; omega))
      · rw [if_neg hcyc]
        refine ih _ _ (by norm_num; linarith) h1 ⟨by simp [h.inBounds], hmid, h.right.mono hd⟩ ?_
        show Bracket m s.rPlane (M.get axis) (s.right.get axis) ∨ Bracket s.rPlane m (s.right.get axis) (M.get axis)
        rw [hget]
        rcases hb with hb | hb
        · exact .inl (hb.step_low (by have := hb.le; omega) (by have := hb.le; omega))
        · exact .inr (hb.step_high (by have := hb.le; omega) (by have := hb.le; omega))

theorem limAxis_eq (hue : ℝ) (s : LimState ℝ) (axis : Fin 3) :
    (s.left.get axis = s.right.get axis ∧ limAxis hue s axis = s) ∨
    (s.left.get axis < s.right.get axis ∧ limAxis hue s axis = limLoop hue axis 8
      { s with lPlane := criticalPlaneBelow (trueDelinearized (s.left.get axis)),
               rPlane := criticalPlaneAbove (trueDelinearized (s.right.get axis)) }) ∨
    (s.right.get axis < s.left.get axis ∧ limAxis hue s axis = limLoop hue axis 8
      { s with lPlane := criticalPlaneAbove (trueDelinearized (s.left.get axis)),
               rPlane := criticalPlaneBelow (trueDelinearized (s.right.get axis)) }) := by
  simp only [limAxis]
  split_ifs with hne hlt
  · exact .inr (.inl ⟨hlt, rfl⟩)
  · refine .inr (.inr ⟨?_, rfl⟩)
    refine lt_of_le_of_ne (not_lt.1 hlt) fun he => ?_
    rw [bne, ((fl_beq _ _).2 he.symm)] at hne
    exact absurd hne (by decide)
  · refine .inl ⟨?_, rfl⟩
    by_contra he
    apply hne
    rw [bne, Bool.not_eq_true', ← Bool.not_eq_true, fl_beq]
    exact he

theorem limAxis_ok {y : ℝ} {A B : Vec3 ℝ} (hA : Vertex y A) (hB : Vertex y B) (hue : ℝ) (axis : Fin 3)
    (s : LimState ℝ) {δ : ℝ} (h0 : 0 ≤ δ) (h1 : δ ≤ 3e-10) (h : LimOk A B δ s) :
    LimOk A B (δ + 8e-11) (limAxis hue s axis) := by
  have hl := near_range hA hB h0 h.left axis
  have hr := near_range hA hB h0 h.right axis
  have e8 : δ + 8e-11 = δ + ((8 : ℕ) : ℝ) * 1e-11 := by norm_num
  norm_num at h1
  rcases limAxis_eq hue s axis with ⟨-, e⟩ | ⟨hlt, e⟩ | ⟨hlt, e⟩
  · rw [e]; exact h.mono (by norm_num)
  · rw [e, e8]
    refine limLoop_ok hA hB hue axis 8 _ _ h0 (by norm_num; linarith) ⟨h.inBounds, h.left, h.right⟩ (.inl ?_)
    exact bracket_init (by norm_num; linarith) (by norm_num; linarith) (by norm_num; linarith)
      (by norm_num; linarith) hlt
  · rw [e, e8]
    refine limLoop_ok hA hB hue axis 8 _ _ h0 (by norm_num; linarith) ⟨h.inBounds, h.left, h.right⟩ (.inr ?_)
    exact bracket_init (by norm_num; linarith) (by norm_num; linarith) (by norm_num; linarith)
      (by norm_num; linarith) hlt

/-- Eight halvings are enough: afterwards no critical plane is left between the two ends. -/
theorem limLoop_finishes (hue : ℝ) (axis : Fin 3) (n : Nat) : ∀ s : LimState ℝ,
    -1 ≤ min s.lPlane s.rPlane → max s.lPlane s.rPlane ≤ 255 →
    (s.rPlane - s.lPlane).natAbs ≤ 2 ^ n →
    ((limLoop hue axis n s).rPlane - (limLoop hue axis n s).lPlane).natAbs ≤ 1 := by
  induction n with
  | zero => intro s _ _ h; simpa [limLoop] using h
  | succ n ih =>
    intro s h0 h1 h
    simp only [limLoop]
    by_cases hle : ((s.rPlane - s.lPlane).natAbs : Int) ≤ 1
    · rw [if_pos hle]; exact_mod_cast hle
    · rw [if_neg hle]
      have hm : Fl.toI64 (Fl.floor (Fl.ofInt (s.lPlane + s.rPlane) / (2.0 : ℝ))) = (s.lPlane + s.rPlane) / 2 :=
        mid_eq h0 h1
      rw [hm]
      rw [pow_succ] at h
      split_ifs
      · apply ih <;> simp only <;> omega
      · apply ih <;> simp only <;> omega

theorem limState_ok {y : ℝ} (h0 : 0 ≤ y) (h1 : y ≤ 100) (hue : ℝ) :
    LimOk (bisectToSegment y hue).1 (bisectToSegment y hue).2 3e-10 (bisectToLimitState y hue) := by
  obtain ⟨hA, hB⟩ := segment_vertices h0 h1 hue
  simp only [bisectToLimitState, List.foldl_cons, List.foldl_nil]
  set A := (bisectToSegment y hue).1
  set B := (bisectToSegment y hue).2
  have s0 : LimOk A B 0 ⟨A, hueOf A, B, -1, 255, true⟩ :=
    ⟨rfl, ⟨0, by norm_num, by norm_num, fun i => by ring⟩, ⟨1, by norm_num, by norm_num, fun i => by ring⟩⟩
  have s1 := limAxis_ok hA hB hue 0 _ le_rfl (by norm_num) s0
  have s2 := limAxis_ok hA hB hue 1 _ (by norm_num) (by norm_num) s1
  have s3 := limAxis_ok hA hB hue 2 _ (by norm_num) (by norm_num) s2
  exact s3.mono (by norm_num)

end Mcu.Lemmas
