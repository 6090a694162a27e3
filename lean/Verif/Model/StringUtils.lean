import Verif.Model.ColorUtils

/-! Model of /repo/src/utils/string_utils.rs.  A Rust `String` is modelled by the list of its
characters. -/

namespace Mcu.StringUtils

open ColorUtils

/-- Lower-case hexadecimal digit of `n < 16` (Rust `{:x}`). -/
def hexChar (n : Nat) : Char := if n < 10 then Char.ofNat (48 + n) else Char.ofNat (87 + n)

/-- `{:02x}` for a value in `0..=255` (the only values it is applied to, string_utils.rs 23): two
lower-case hexadecimal digits. -/
def fmt02x (n : Int) : List Char := [hexChar (n.toNat / 16), hexChar (n.toNat % 16)]

/-- string_utils.rs 5-11 and 13-25.  `leading_hash_sign = None` means `true`. -/
def hexFromArgb (argb : Int) (leadingHashSign : Option Bool) : List Char :=
  let leadingHashSign := leadingHashSign.getD true
  let red := redFromArgb argb
  let green := greenFromArgb argb
  let blue := blueFromArgb argb
  (if leadingHashSign then ['#'] else []) ++
    (fmt02x red ++ fmt02x green ++ fmt02x blue).map Char.toUpper

/-- `char::to_digit(16)` on the bytes accepted by `from_str_radix` (standard library). -/
def toDigit16 (c : Char) : Option Int :=
  if '0' ≤ c ∧ c ≤ '9' then some (c.toNat - 48)
  else if 'a' ≤ c ∧ c ≤ 'f' then some (c.toNat - 87)
  else if 'A' ≤ c ∧ c ≤ 'F' then some (c.toNat - 55)
  else none

/-- `checked_*` result: `None` outside of the `i64` range. -/
def checkedI64 (n : Int) : Option Int :=
  if -9223372036854775808 ≤ n ∧ n ≤ 9223372036854775807 then some n else none

/-- The digit loop of `i64::from_str_radix(_, 16)` (standard library): multiply by 16, then add (or
subtract for a negative number) the digit, all checked. -/
def parseLoop (positive : Bool) (acc : Int) : List Char → Option Int
  | [] => some acc
  | c :: cs => do
    let acc ← checkedI64 (acc * 16)
    let d ← toDigit16 c
    let acc ← checkedI64 (if positive then acc + d else acc - d)
    parseLoop positive acc cs

/-- `i64::from_str_radix(src, 16).ok()` (standard library): empty input and a lone sign are errors, one
leading `+` or `-` is accepted. -/
def fromStrRadix16 : List Char → Option Int
  | [] => none
  | ['+'] => none
  | ['-'] => none
  | '+' :: cs => parseLoop true 0 cs
  | '-' :: cs => parseLoop false 0 cs
  | cs => parseLoop true 0 cs

/-- string_utils.rs 27-29.  `trim_start_matches("#")` removes every leading `#`. -/
def argbFromHex (hex : List Char) : Option Int :=
  fromStrRadix16 (hex.dropWhile (· = '#'))

end Mcu.StringUtils
