import Verif

/-! The model on Lean's `Float` (hardware doubles): a sanity check of the transcription against constants
from the repository's own tests.  Not part of the proofs.  Run with
`cd lean && lake env lean --run ../tests/FloatCheck.lean`. -/

namespace Mcu

def floatFmod (x y : Float) : Float :=
  let q := x / y
  let t := if q < 0 then q.ceil else q.floor
  x - y * t

instance : Fl Float where
  toBEq := inferInstance
  decLt := inferInstance
  decLe := inferInstance
  ofInt n := Float.ofInt n
  toI64 x := x.toInt64.toInt
  abs := Float.abs
  sqrt := Float.sqrt
  exp := Float.exp
  ln := Float.log
  sin := Float.sin
  cos := Float.cos
  floor := Float.floor
  ceil := Float.ceil
  round := Float.round
  powf := Float.pow
  atan2 := Float.atan2
  fmod := floatFmod
  fmax a b := if a < b then b else a
  fmin a b := if b < a then b else a
  pi := 3.14159265358979323846264338327950288

end Mcu
