import Verif.Fl
import Mathlib.Analysis.SpecialFunctions.Pow.Real
import Mathlib.Analysis.SpecialFunctions.Complex.Arg
import Mathlib.Analysis.SpecialFunctions.Trigonometric.Basic
import Mathlib.Analysis.Real.Sqrt
import Mathlib.Algebra.Order.Floor.Ring

/-! Exact real arithmetic as an instance of `Fl`.

What is idealised: no rounding, no NaN/infinity.  Division by zero is `0` and `powf` of a negative
base is Mathlib's `Real.rpow`, where IEEE would give NaN/infinity; theorems over `ℝ` whose argument
could reach such a point carry hypotheses excluding it or prove that it is not reached. -/

namespace Mcu

/-- Truncation towards zero. -/
noncomputable def realTrunc (x : ℝ) : ℤ := if 0 ≤ x then ⌊x⌋ else ⌈x⌉

/-- Round half away from zero (Rust `f64::round`). -/
noncomputable def realRound (x : ℝ) : ℝ :=
  if 0 ≤ x then (⌊x + 1/2⌋ : ℤ) else (⌈x - 1/2⌉ : ℤ)

/-- Saturation of an integer to the `i64` range. -/
def satI64 (n : Int) : Int := max (-9223372036854775808) (min 9223372036854775807 n)

noncomputable instance instFlReal : Fl ℝ where
  toAdd := inferInstance
  toSub := inferInstance
  toMul := inferInstance
  toDiv := inferInstance
  toNeg := inferInstance
  toLT := inferInstance
  toLE := inferInstance
  toBEq := ⟨fun a b => @decide (a = b) (Classical.propDecidable _)⟩
  toOfScientific := inferInstance
  decLt := fun _ _ => Classical.propDecidable _
  decLe := fun _ _ => Classical.propDecidable _
  ofInt n := (n : ℝ)
  toI64 x := satI64 (realTrunc x)
  abs x := |x|
  sqrt := Real.sqrt
  exp := Real.exp
  ln := Real.log
  sin := Real.sin
  cos := Real.cos
  floor x := (⌊x⌋ : ℤ)
  ceil x := (⌈x⌉ : ℤ)
  round := realRound
  powf x y := x ^ y
  atan2 y x := Complex.arg ⟨x, y⟩
  fmod x y := x - y * (realTrunc (x / y) : ℤ)
  fmax := max
  fmin := min
  pi := Real.pi

end Mcu
