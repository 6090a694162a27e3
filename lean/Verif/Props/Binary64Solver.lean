import Verif.Lemmas.F64Channel

/-! The gamut-limit search of the HCT solver in IEEE-754 binary64. -/

namespace Mcu.Props.Binary64

open Mcu.Ieee MathUtils ColorUtils HctSolver Lemmas

variable {L : Libm}

local notation "𝔻" => F64 L

/-! ### C25 in binary64 -/

/-- C25 in binary64: whatever doubles the luminance and the hue are, NaN and infinities included, no access to the table of
critical planes is out of range. -/
theorem c25_binary64_no_panic (hL : L.PowOk) (y hue : 𝔻) : (bisectToLimitState y hue).inBounds = true :=
  limState64 hL y hue

/-- Luminance weights applied to three doubles, in exact arithmetic. -/
noncomputable def lumOf (v : Vec3 𝔻) : ℝ := 0.2126 * val v.x0 + 0.7152 * val v.x1 + 0.0722 * val v.x2

/-- A finite point of the RGB cube. -/
def Point (v : Vec3 𝔻) : Prop :=
  (Fin v.x0 ∧ Fin v.x1 ∧ Fin v.x2) ∧ (0 ≤ val v.x0 ∧ val v.x0 ≤ 100) ∧ (0 ≤ val v.x1 ∧ val v.x1 ≤ 100) ∧
    (0 ≤ val v.x2 ∧ val v.x2 ≤ 100)

theorem point_of_vertex {v : ℝ} {n : ℕ} {p : Vec3 𝔻} {A : _root_.Fin 3 → ℝ} (i : IsV p A) (h : Vertex64 v n A) :
    Point p ∧ |lumOf p - v| ≤ 1 / 10 ^ 11 := by
  have e0 : val p.x0 = A 0 := (i 0).2
  have e1 : val p.x1 = A 1 := (i 1).2
  have e2 : val p.x2 = A 2 := (i 2).2
  unfold Point lumOf
  rw [e0, e1, e2]
  exact ⟨⟨⟨(i 0).1, (i 1).1, (i 2).1⟩, h.range 0, h.range 1, h.range 2⟩, h.lum⟩

/-- C25 in binary64: for every luminance from 0 to 99.9999 (for tones above 99.9999, whose luminance is above 99.9997, the solver does not
search) the two points the
search starts from are in the cube and have the requested luminance within 1e-11. -/
theorem c25_binary64_segment (y hue : 𝔻) (hy : Fin y) (h0 : 0 ≤ val y) (h1 : val y ≤ 999999 / 10000) :
    let s := bisectToSegment y hue
    (Point s.1 ∧ |lumOf s.1 - val y| ≤ 1 / 10 ^ 11) ∧ (Point s.2 ∧ |lumOf s.2 - val y| ≤ 1 / 10 ^ 11) := by
  intro s
  rcases segment64 y hue with ⟨he, hm⟩ | ⟨v, n, m, A, B, -, -, iv, iA, iB, hA, hB, -⟩
  · exact absurd hm (segment_some hue ⟨hy, rfl⟩ h0 h1)
  · rw [show val y = v from iv.2]
    exact ⟨point_of_vertex iA hA, point_of_vertex iB hB⟩

example : Fin (L := L) (50.0 : 𝔻) ∧ 0 ≤ val (50.0 : 𝔻) ∧ val (50.0 : 𝔻) ≤ 999999 / 10000 := by
  have h : Is (50.0 : 𝔻) 50 := by simpa using lit (L := L) 500 1 true 50 (by norm_num) (by norm_num)
  refine ⟨h.1, ?_, ?_⟩ <;> rw [show val (50.0 : 𝔻) = 50 from h.2] <;> norm_num

/-- C25 in binary64: any other double either gives the marker (-1, -1, -1) for both points, or is finite and a luminance of the
points. -/
theorem c25_binary64_segment_any (y hue : 𝔻) :
    let s := bisectToSegment y hue
    (s.1 = ⟨-1.0, -1.0, -1.0⟩ ∧ s.2 = ⟨-1.0, -1.0, -1.0⟩) ∨
    (Fin y ∧ (Point s.1 ∧ |lumOf s.1 - val y| ≤ 1 / 10 ^ 11) ∧ (Point s.2 ∧ |lumOf s.2 - val y| ≤ 1 / 10 ^ 11)) := by
  intro s
  rcases segment64 y hue with ⟨he, hm⟩ | ⟨v, n, m, A, B, -, -, iv, iA, iB, hA, hB, -⟩
  · exact .inl ⟨hm, he.symm.trans hm⟩
  · right
    rw [show val y = v from iv.2]
    exact ⟨iv.1, point_of_vertex iA hA, point_of_vertex iB hB⟩

/-- C25 in binary64: for every luminance from 0 to 99.9999 and every double as hue the point the search returns is finite,
in the cube up to 0.006 and has the requested luminance within 0.000021. -/
theorem c25_binary64_limit (hL : L.PowOk) (y hue : 𝔻) (hy : Fin y) (h0 : 0 ≤ val y) (h1 : val y ≤ 999999 / 10000) :
    let p := bisectToLimit y hue
    (Fin p.x0 ∧ Fin p.x1 ∧ Fin p.x2) ∧ (-0.006 ≤ val p.x0 ∧ val p.x0 ≤ 100.006) ∧ (-0.006 ≤ val p.x1 ∧ val p.x1 ≤ 100.006) ∧
      (-0.006 ≤ val p.x2 ∧ val p.x2 ≤ 100.006) ∧ |lumOf p - val y| ≤ 0.000021 := by
  intro p
  obtain ⟨X, iX, rX, lX⟩ := limit64 hL y hue ⟨hy, rfl⟩ h0 h1
  have e0 : val p.x0 = X 0 := (iX 0).2
  have e1 : val p.x1 = X 1 := (iX 1).2
  have e2 : val p.x2 = X 2 := (iX 2).2
  have r0 := rX 0
  have r1 := rX 1
  have r2 := rX 2
  refine ⟨⟨(iX 0).1, (iX 1).1, (iX 2).1⟩, ?_, ?_, ?_, ?_⟩
  · rw [e0]; norm_num at *; exact r0
  · rw [e1]; norm_num at *; exact r1
  · rw [e2]; norm_num at *; exact r2
  · unfold lumOf
    rw [e0, e1, e2]
    refine lX.trans ?_
    norm_num

/-- C25 in binary64: the tone, as the library measures it, of the colour of that point is within 0.4701 of the tone that
belongs to the requested luminance. -/
theorem c25_binary64_color (hL : L.PowOk) (y hue : 𝔻) (hy : Fin y) (h0 : 0 ≤ val y) (h1 : val y ≤ 999999 / 10000) :
    Fin (lstarFromArgb (argbFromLinrgb (bisectToLimit y hue)) : 𝔻) ∧
    |val (lstarFromArgb (argbFromLinrgb (bisectToLimit y hue)) : 𝔻) - lstarFromY (val y)| ≤ 0.4701 := by
  have h := limit64_color hL y hue ⟨hy, rfl⟩ h0 h1
  obtain ⟨f, n⟩ := Ap.val_near (ap_lstarFromArgb hL (argbFromLinrgb (bisectToLimit y hue)))
  refine ⟨f, ?_⟩
  change |val _ - _| ≤ _ at n
  change |_ - lstarFromY (val y)| ≤ _ at h
  have n := abs_le.1 n
  have h := abs_le.1 h
  generalize val (lstarFromArgb (argbFromLinrgb (bisectToLimit y hue)) : 𝔻) = a at *
  rw [abs_le]
  norm_num at *
  constructor <;> linarith

end Mcu.Props.Binary64
