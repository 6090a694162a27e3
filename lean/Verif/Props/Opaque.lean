import Verif.Model.Blend
import Verif.Spec.Opaque
import Verif.Props.Bits
import Verif.Props.Color

/-! C14, C23, C24: colour producers, HCT objects and the shape of the HCT search.

All statements marked "any `F`" hold for every type with the operations of `Fl` and no laws: in
particular for IEEE doubles with NaN, infinities, rounding and an arbitrary math library. -/

namespace Mcu.Props

open Mcu.ColorUtils Mcu.HctSolver Mcu.Spec Mcu.MathUtils

variable {F : Type} [Fl F]

/-! ### C14 -/

theorem opaque_rgb (r g b : Int) : Opaque32 (argbFromRgb r g b) := (c01_pack_opaque r g b).2

/-- C14: channels, linear RGB, XYZ, L*a*b* and tone. -/
theorem c14_color_utils (r g b : Int) (v : Vec3 F) (x y z t : F) :
    Opaque32 (argbFromRgb r g b) ∧ Opaque32 (argbFromLinrgb v) ∧ Opaque32 (argbFromXyz x y z) ∧
    Opaque32 (argbFromLab x y z) ∧ Opaque32 (argbFromLstar t) :=
  ⟨opaque_rgb _ _ _, opaque_rgb _ _ _, opaque_rgb _ _ _, opaque_rgb _ _ _, opaque_rgb _ _ _⟩

/-- C14: CAM16 colours seen under any viewing conditions. -/
theorem c14_cam16 (c : Cam16 F) (vc : ViewingConditions F) :
    Opaque32 (c.viewed vc) ∧ Opaque32 c.toInt :=
  ⟨opaque_rgb _ _ _, opaque_rgb _ _ _⟩

/-- The Newton search returns the sentinel 0 or an opaque colour. -/
theorem findLoop_cases (h c y : F) (n : Nat) (j : F) :
    findLoop h c y n j = 0 ∨ Opaque32 (findLoop h c y n j) := by
  induction n generalizing j with
  | zero => left; rfl
  | succ n ih =>
    simp only [findLoop]
    split
    · left; rfl
    · split
      · left; rfl
      · split
        · split
          · left; rfl
          · right; exact opaque_rgb _ _ _
        · exact ih _

/-- C14: the HCT search. -/
theorem c14_solver (h c t : F) : Opaque32 (solveToInt h c t) := by
  simp only [solveToInt]
  split
  · exact opaque_rgb _ _ _
  · split
    · next hne => exact (findLoop_cases _ _ _ _ _).resolve_left hne
    · exact opaque_rgb _ _ _

/-- C14: HCT constructors and setters, recasting to other viewing conditions. -/
theorem c14_hct (o : Hct F) (h c t : F) (vc : ViewingConditions F) :
    Opaque32 (Hct.fromHct h c t).toInt ∧ Opaque32 (o.setHue h).toInt ∧ Opaque32 (o.setChroma c).toInt ∧
    Opaque32 (o.setTone t).toInt ∧ Opaque32 (o.inViewingConditions vc).toInt :=
  ⟨c14_solver _ _ _, c14_solver _ _ _, c14_solver _ _ _, c14_solver _ _ _, c14_solver _ _ _⟩

/-- C14: the three blending functions. -/
theorem c14_blend (a b : Int) (amount : F) :
    Opaque32 (Blend.harmonize F a b) ∧ Opaque32 (Blend.cam16Ucs a b amount) ∧
    Opaque32 (Blend.hctHue a b amount) :=
  ⟨c14_solver _ _ _, opaque_rgb _ _ _, c14_solver _ _ _⟩

example : Opaque32 0xFF4285F4 ∧ ¬ Opaque32 0x4285F4 ∧ ¬ Opaque32 0 := by
  simp only [Opaque32]; omega

/-! ### C23 -/

/-- What an HCT object claims about itself: hue and chroma are those of the CAM16 reading of its colour,
the tone is the L* of its colour. -/
def Coherent (o : Hct F) : Prop :=
  o.getHue = (Cam16.fromInt o.toInt : Cam16 F).hue ∧
  o.getChroma = (Cam16.fromInt o.toInt : Cam16 F).chroma ∧
  o.getTone = lstarFromArgb o.toInt

/-- One API call on an HCT object. -/
inductive HctOp (F : Type) where
  | setHue (v : F)
  | setChroma (v : F)
  | setTone (v : F)
  | recast (vc : ViewingConditions F)

/-- Effect of a call. -/
def HctOp.run : HctOp F → Hct F → Hct F
  | .setHue v, o => o.setHue v
  | .setChroma v, o => o.setChroma v
  | .setTone v, o => o.setTone v
  | .recast vc, o => o.inViewingConditions vc

/-- C23: after any construction and any sequence of calls the object describes its own colour, for any
`F`. -/
theorem c23_coherent (ops : List (HctOp F)) (o : Hct F)
    (h : (∃ argb, o = Hct.fromInt argb) ∨ ∃ hue chroma tone, o = Hct.fromHct hue chroma tone) :
    Coherent (ops.foldl (fun o op => op.run o) o) := by
  have h0 : Coherent o := by
    rcases h with ⟨argb, rfl⟩ | ⟨hue, chroma, tone, rfl⟩ <;> exact ⟨rfl, rfl, rfl⟩
  clear h
  induction ops generalizing o with
  | nil => exact h0
  | cons op ops ih =>
    apply ih
    cases op <;> exact ⟨rfl, rfl, rfl⟩

/-- C23: the colour is opaque if the object was built from hue, chroma, tone or if any call has been
made; an object built from a raw integer reports that integer. -/
theorem c23_opaque (ops : List (HctOp F)) (o : Hct F)
    (h : (∃ hue chroma tone, o = Hct.fromHct hue chroma tone) ∨ ops ≠ []) :
    Opaque32 (ops.foldl (fun o op => op.run o) o).toInt := by
  have step (op : HctOp F) (o : Hct F) : Opaque32 (op.run o).toInt := by
    cases op <;> exact c14_solver _ _ _
  induction ops generalizing o with
  | nil =>
    rcases h with ⟨_, _, _, rfl⟩ | h
    · exact c14_solver _ _ _
    · exact absurd rfl h
  | cons op ops ih =>
    cases ops with
    | nil => exact step op o
    | cons op' ops => exact ih _ (Or.inr (by simp))

/-- C23: assigning the hue, chroma or tone gives the object that is built from the new value and the other two values the
object reported. -/
theorem c23_setters (o : Hct F) (x : F) :
    o.setHue x = Hct.fromHct x o.getChroma o.getTone ∧ o.setChroma x = Hct.fromHct o.getHue x o.getTone ∧
    o.setTone x = Hct.fromHct o.getHue o.getChroma x := ⟨rfl, rfl, rfl⟩

theorem c23_from_int (argb : Int) : (Hct.fromInt argb : Hct F).toInt = argb := rfl

/-- C23: equality of HCT objects is equality of their colours, hence an equivalence, and equal objects
feed the same number to the hasher; coherent equal objects agree in all components. -/
theorem c23_equality (a b : Hct F) : (a.eq b = true ↔ a.toInt = b.toInt) ∧
    (a.eq b = true → a.hashInput = b.hashInput) ∧
    (Coherent a → Coherent b → a.eq b = true →
      a.getHue = b.getHue ∧ a.getChroma = b.getChroma ∧ a.getTone = b.getTone) := by
  have e : a.eq b = true ↔ a.toInt = b.toInt := by
    simp only [Hct.eq, Hct.toInt, beq_iff_eq]
    exact eq_comm
  refine ⟨e, fun h => e.1 h, ?_⟩
  rintro ⟨a1, a2, a3⟩ ⟨b1, b2, b3⟩ h
  have h := e.1 h
  rw [a1, a2, a3, b1, b2, b3, h]
  exact ⟨rfl, rfl, rfl⟩

/-- A history that meets the hypotheses. -/
example (v : F) : ∃ o : Hct F, (∃ argb, o = Hct.fromInt argb) ∧
    [HctOp.setTone v, HctOp.setHue v].foldl (fun o op => op.run o) o = (o.setTone v).setHue v :=
  ⟨Hct.fromInt 0xFF4285F4, ⟨_, rfl⟩, rfl⟩

/-! ### C24 -/

/-- C24: the internal "not found" value 0 is never returned, for any `F`. -/
theorem c24_never_sentinel (h c t : F) : solveToInt h c t ≠ 0 := by
  have := c14_solver h c t
  simp only [Opaque32] at this
  omega

/-- C24: almost no chroma, or a tone at either end, gives the gray of that tone, for any `F`. -/
theorem c24_gray (h c t : F) (hc : c < 0.0001 ∨ t < 0.0001 ∨ t > 99.9999) :
    solveToInt h c t = argbFromLstar t ∧
    redFromArgb (solveToInt h c t) = greenFromArgb (solveToInt h c t) ∧
    greenFromArgb (solveToInt h c t) = blueFromArgb (solveToInt h c t) := by
  have e : solveToInt h c t = argbFromLstar t := by simp only [solveToInt, if_pos hc]
  rw [e]
  exact ⟨rfl, (c16_gray t).1, (c16_gray t).2.1⟩

example : (0 : ℝ) < 0.0001 := by norm_num

/-- C24: the answer depends on the hue only through its sanitised value, for any `F`. -/
theorem c24_hue_sanitized (h h' c t : F)
    (hh : sanitizeDegreesDouble h = sanitizeDegreesDouble h') :
    solveToInt h c t = solveToInt h' c t := by
  simp only [solveToInt, hh]

/-- C24: over the reals, whole turns of the hue do not matter. -/
theorem c24_hue_mod_360 (h c t : ℝ) (k : ℤ) : solveToInt (h + 360 * k) c t = solveToInt h c t :=
  c24_hue_sanitized _ _ _ _ (c06_periodic h k)

/-- C24: `solve_to_cam` reads the colour found by `solve_to_int`. -/
theorem c24_solve_to_cam (h c t : F) :
    solveToCam h c t = Cam16.fromInt (solveToInt h c t) := rfl

/-- C24: tones up to 0 are black and tones from 100 on white, whatever hue and chroma. -/
theorem c24_black_white (h c t : ℝ) : (t ≤ 0 → solveToInt h c t = 0xFF000000) ∧
    (100 ≤ t → solveToInt h c t = 0xFFFFFFFF) := by
  constructor
  · intro ht
    rw [(c24_gray h c t (Or.inr (Or.inl (by norm_num; linarith)))).1]
    exact (c16_saturates t).1 ht
  · intro ht
    rw [(c24_gray h c t (Or.inr (Or.inr (by norm_num; linarith)))).1]
    exact (c16_saturates t).2 ht

end Mcu.Props
