/-
`Fl F`: the interface of the number type the Rust code calls `f64`.

Every function of the model that touches floating point numbers is written once,
for an arbitrary type `F` with `[Fl F]`, transcribing the Rust expression operator by
operator.  The model is then read in three ways:

* theorems about an arbitrary `[Fl F]` use no law of arithmetic at all, hence hold for IEEE
  doubles with any math library (NaN, infinities and rounding included);
* theorems about `F := ℝ` (instance in `Verif/FlReal.lean`) are about exact arithmetic;
* theorems about `F := F64` (instance in `Verif/F64.lean`) are about IEEE-754 binary64 with
  round-to-nearest-even.

No law is part of the class.
-/

namespace Mcu

/-- The operations of Rust's `f64` used by the code in /repo/src (operators `+ - * / %`, unary `-`,
comparisons, `as` casts, and the methods `abs sqrt powf exp ln sin cos atan2 floor ceil round max
min`).  A class without axioms: instances decide what the operations mean. -/
class Fl (F : Type) extends Add F, Sub F, Mul F, Div F, Neg F, LT F, LE F, BEq F, OfScientific F where
  /-- `a < b` is decidable (for NaN it is false). -/
  decLt : (a b : F) → Decidable (a < b)
  /-- `a <= b` is decidable (for NaN it is false). -/
  decLe : (a b : F) → Decidable (a ≤ b)
  /-- `x as f64` for an `i64`/`usize` `x`. -/
  ofInt : Int → F
  /-- `x as i64`: truncation towards zero, saturating, NaN to 0. -/
  toI64 : F → Int
  abs : F → F
  sqrt : F → F
  exp : F → F
  ln : F → F
  sin : F → F
  cos : F → F
  floor : F → F
  ceil : F → F
  /-- Rust `f64::round`: half away from zero. -/
  round : F → F
  /-- `x.powf(y)` -/
  powf : F → F → F
  /-- `y.atan2(x)` -/
  atan2 : F → F → F
  /-- the operator `%` -/
  fmod : F → F → F
  /-- `f64::max` -/
  fmax : F → F → F
  /-- `f64::min` -/
  fmin : F → F → F
  /-- `std::f64::consts::PI` -/
  pi : F

attribute [instance 50] Fl.toAdd Fl.toSub Fl.toMul Fl.toDiv Fl.toNeg Fl.toLT Fl.toLE Fl.toBEq
  Fl.toOfScientific
attribute [instance_reducible] Fl.decLt Fl.decLe
attribute [instance 50] Fl.decLt Fl.decLe

/-- `Vec<f64>` of length three, as used for XYZ, Lab and linear RGB throughout
(e.g. /repo/src/utils/color_utils.rs lines 87-98).  The Rust code indexes such vectors with the
literals 0, 1, 2 (always in range) or with an axis 0..3; see `Vec3.get`. -/
structure Vec3 (F : Type) where
  x0 : F
  x1 : F
  x2 : F
deriving Repr

/-- Indexing `v[axis]`; axes are `Fin 3` in the model (hct_solver.rs lines 388, 520-552). -/
def Vec3.get {F : Type} (v : Vec3 F) : Fin 3 → F
  | 0 => v.x0
  | 1 => v.x1
  | 2 => v.x2

end Mcu
