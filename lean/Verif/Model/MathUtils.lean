import Verif.Fl

/-! Model of /repo/src/utils/math_utils.rs. -/

namespace Mcu.MathUtils

variable {F : Type} [Fl F]

/-- math_utils.rs 7-15 -/
def signum (num : F) : Int :=
  if num < 0.0 then -1
  else if num == 0.0 then 0
  else 1

/-- math_utils.rs 20-22 -/
def lerp (start stop amount : F) : F :=
  (1.0 - amount) * start + amount * stop

/-- math_utils.rs 28-36 -/
def clampInt (min max input : Int) : Int :=
  if input < min then min
  else if input > max then max
  else input

/-- math_utils.rs 42-50 -/
def clampDouble (min max input : F) : F :=
  if input < min then min
  else if input > max then max
  else input

/-- math_utils.rs 56-62.  Rust `%` on `i64` is the truncated remainder `Int.tmod`. -/
def sanitizeDegreesInt (degrees : Int) : Int :=
  let degrees := degrees.tmod 360
  if degrees < 0 then degrees + 360 else degrees

/-- math_utils.rs 68-74 -/
def sanitizeDegreesDouble (degrees : F) : F :=
  let degrees := Fl.fmod degrees 360.0
  if degrees < 0.0 then degrees + 360.0 else degrees

/-- math_utils.rs 88-95 -/
def rotationDirection (fromD toD : F) : F :=
  let increasingDifference := sanitizeDegreesDouble (toD - fromD)
  if increasingDifference ≤ 180.0 then 1.0 else -1.0

/-- math_utils.rs 98-100 -/
def differenceDegrees (a b : F) : F :=
  180.0 - Fl.abs (Fl.abs (a - b) - 180.0)

/-- math_utils.rs 103-108.  The Rust function takes `Vec`s and would panic on shorter ones; every
caller in /repo passes a 3-vector and a 3x3 matrix, which the type `Vec3` expresses. -/
def matrixMultiply (row : Vec3 F) (m : Vec3 (Vec3 F)) : Vec3 F :=
  let a := row.x0 * m.x0.x0 + row.x1 * m.x0.x1 + row.x2 * m.x0.x2
  let b := row.x0 * m.x1.x0 + row.x1 * m.x1.x1 + row.x2 * m.x1.x2
  let c := row.x0 * m.x2.x0 + row.x1 * m.x2.x1 + row.x2 * m.x2.x2
  ⟨a, b, c⟩

end Mcu.MathUtils
