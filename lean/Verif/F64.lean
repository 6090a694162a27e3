import Verif.Fl
import Verif.FlReal
import Verif.Rounding64
import Mathlib.Data.EReal.Basic

/-! IEEE-754 binary64 as an instance of `Fl`.

`+ - * / sqrt`, conversions from integers and decimal literals are correctly rounded (nearest, ties to even); `%`,
`floor`, `ceil`, `round`, `abs`, comparisons are exact.  `powf exp ln sin cos atan2` belong to the platform's math
library, about which IEEE-754 and Rust promise nothing: they are the parameter `L`.  NaN payloads and signs are not
modelled (one NaN). -/

namespace Mcu

open Ieee

/-- A double. -/
inductive Dbl where
  | nan
  | inf (neg : Bool)
  | zero (neg : Bool)
  | num (v : ℝ) (h : Rep v ∧ v ≠ 0 ∧ |v| < 2 ^ 1024)

namespace Dbl

/-- The number a finite double stands for. -/
noncomputable def val : Dbl → ℝ
  | num v _ => v
  | _ => 0

/-- The sign bit. -/
noncomputable def neg? : Dbl → Bool
  | nan => false
  | inf s => s
  | zero s => s
  | num v _ => @decide (v < 0) (Classical.propDecidable _)

/-- Neither NaN nor infinite. -/
def Fin : Dbl → Prop
  | nan => False
  | inf _ => False
  | _ => True

/-- The value on the extended real line (NaN arbitrarily 0). -/
noncomputable def ext : Dbl → EReal
  | nan => 0
  | inf true => ⊥
  | inf false => ⊤
  | x => (x.val : EReal)

open Classical in
/-- Round a real; `s` is the sign of a zero result. -/
noncomputable def ofReal (s : Bool) (v : ℝ) : Dbl :=
  if h0 : rnd v = 0 then zero s
  else if h1 : |rnd v| < 2 ^ 1024 then num (rnd v) ⟨rep_rnd v, h0, h1⟩
  else inf (decide (v < 0))

/-- Unary minus. -/
noncomputable def neg : Dbl → Dbl
  | nan => nan
  | inf s => inf !s
  | zero s => zero !s
  | num v h => num (-v) ⟨h.1.neg, neg_ne_zero.2 h.2.1, by rw [abs_neg]; exact h.2.2⟩

open Classical in
noncomputable def add : Dbl → Dbl → Dbl
  | nan, _ => nan
  | _, nan => nan
  | inf a, inf b => if a = b then inf a else nan
  | inf a, _ => inf a
  | _, inf b => inf b
  | x, y => if x.val + y.val = 0 then zero (x.neg? && y.neg?) else ofReal false (x.val + y.val)

noncomputable def sub (x y : Dbl) : Dbl := add x (neg y)

noncomputable def mul : Dbl → Dbl → Dbl
  | nan, _ => nan
  | _, nan => nan
  | inf _, zero _ => nan
  | zero _, inf _ => nan
  | inf a, y => inf (xor a y.neg?)
  | x, inf b => inf (xor x.neg? b)
  | x, y => ofReal (xor x.neg? y.neg?) (x.val * y.val)

noncomputable def div : Dbl → Dbl → Dbl
  | nan, _ => nan
  | _, nan => nan
  | inf _, inf _ => nan
  | inf a, y => inf (xor a y.neg?)
  | x, inf b => zero (xor x.neg? b)
  | zero _, zero _ => nan
  | x, zero b => inf (xor x.neg? b)
  | x, y => ofReal (xor x.neg? y.neg?) (x.val / y.val)

noncomputable def sqrt : Dbl → Dbl
  | nan => nan
  | inf false => inf false
  | inf true => nan
  | zero s => zero s
  | num v _ => open Classical in if v < 0 then nan else ofReal false (Real.sqrt v)

/-- The remainder of truncated division; exact, with the sign of the dividend. -/
noncomputable def fmod : Dbl → Dbl → Dbl
  | nan, _ => nan
  | _, nan => nan
  | inf _, _ => nan
  | _, zero _ => nan
  | x, inf _ => x
  | x, y => ofReal x.neg? (x.val - y.val * (realTrunc (x.val / y.val) : ℤ))

/-- An integer-valued function of the value (floor, ceil, round); keeps the sign of a zero result. -/
noncomputable def toInteger (f : ℝ → ℤ) : Dbl → Dbl
  | num v h => ofReal (num v h).neg? (f v)
  | x => x

def isNan : Dbl → Bool
  | nan => true
  | _ => false

def lt (x y : Dbl) : Prop := x.isNan = false ∧ y.isNan = false ∧ x.ext < y.ext
def le (x y : Dbl) : Prop := x.isNan = false ∧ y.isNan = false ∧ x.ext ≤ y.ext

open Classical in
noncomputable def beq (x y : Dbl) : Bool := decide (x.isNan = false ∧ y.isNan = false ∧ x.ext = y.ext)

/-- Rust `f64::max`: the other argument if one is NaN. -/
noncomputable def fmax (x y : Dbl) : Dbl :=
  open Classical in if x.isNan then y else if y.isNan then x else if lt x y then y else x

/-- Rust `f64::min`. -/
noncomputable def fmin (x y : Dbl) : Dbl :=
  open Classical in if x.isNan then y else if y.isNan then x else if lt y x then y else x

/-- `x as i64`. -/
noncomputable def toI64 : Dbl → Int
  | nan => 0
  | inf true => -9223372036854775808
  | inf false => 9223372036854775807
  | x => satI64 (realTrunc x.val)

noncomputable def abs : Dbl → Dbl
  | nan => nan
  | inf _ => inf false
  | zero _ => zero false
  | num v h => num |v| ⟨by rcases abs_choice v with e | e <;> rw [e]; exacts [h.1, h.1.neg], abs_ne_zero.2 h.2.1,
      by rw [abs_abs]; exact h.2.2⟩

end Dbl

/-- The platform's math library. -/
structure Libm where
  powf : Dbl → Dbl → Dbl
  exp : Dbl → Dbl
  ln : Dbl → Dbl
  sin : Dbl → Dbl
  cos : Dbl → Dbl
  atan2 : Dbl → Dbl → Dbl

/-- An accuracy assumption on `powf`, used only where a theorem names it: for a base between 10⁻⁶ and 10⁶⁰ and an exponent
between 0 and 3 the result is finite with relative error at most 10⁻¹³ (some 450 units in the last place; the libraries in
use stay below one). -/
def Libm.PowOk (L : Libm) : Prop := ∀ x y : Dbl, x.Fin → y.Fin → 1 / 10 ^ 6 ≤ x.val → x.val ≤ 10 ^ 60 → 0 ≤ y.val →
  y.val ≤ 3 → (L.powf x y).Fin ∧ |(L.powf x y).val - x.val ^ y.val| ≤ x.val ^ y.val / 10 ^ 13

/-- Doubles on a platform with math library `L`. -/
def F64 (_ : Libm) : Type := Dbl

noncomputable instance instFlF64 (L : Libm) : Fl (F64 L) where
  add := Dbl.add
  sub := Dbl.sub
  mul := Dbl.mul
  div := Dbl.div
  neg := Dbl.neg
  lt := Dbl.lt
  le := Dbl.le
  beq := Dbl.beq
  ofScientific m s e := Dbl.ofReal false (OfScientific.ofScientific m s e : ℝ)
  decLt := fun _ _ => Classical.propDecidable _
  decLe := fun _ _ => Classical.propDecidable _
  ofInt n := Dbl.ofReal false n
  toI64 := Dbl.toI64
  abs := Dbl.abs
  sqrt := Dbl.sqrt
  exp := L.exp
  ln := L.ln
  sin := L.sin
  cos := L.cos
  floor := Dbl.toInteger (fun v => ⌊v⌋)
  ceil := Dbl.toInteger (fun v => ⌈v⌉)
  round := Dbl.toInteger (fun v => if 0 ≤ v then ⌊v + 1 / 2⌋ else ⌈v - 1 / 2⌉)
  powf := L.powf
  atan2 := L.atan2
  fmod := Dbl.fmod
  fmax := Dbl.fmax
  fmin := Dbl.fmin
  pi := Dbl.ofReal false Real.pi

end Mcu
