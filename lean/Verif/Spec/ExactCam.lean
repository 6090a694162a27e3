import Verif.Lemmas.F64
import Verif.Model.Cam16

/-! Specification: the exact values of a colour appearance given in binary64. -/

namespace Mcu.Spec

open Mcu.Ieee

/-- The exact values of all correlates and coordinates. -/
noncomputable def exactCam {L : Libm} (c : Cam16 (F64 L)) : Cam16 ℝ :=
  ⟨Dbl.val c.hue, Dbl.val c.chroma, Dbl.val c.j, Dbl.val c.q, Dbl.val c.m, Dbl.val c.s, Dbl.val c.jstar, Dbl.val c.astar, Dbl.val c.bstar⟩

end Mcu.Spec
