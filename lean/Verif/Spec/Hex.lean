/-! Specification of hexadecimal numerals, written without reference to the model. -/

namespace Mcu.Spec

/-- Value of a hexadecimal digit: its position in one of the two digit tables. -/
def digitValue (c : Char) : Option Nat :=
  ("0123456789abcdef".toList.idxOf? c) <|> ("0123456789ABCDEF".toList.idxOf? c)

/-- Positional value of a list of base 16 digits, most significant first. -/
def positional : List Nat → Nat
  | [] => 0
  | d :: ds => d * 16 ^ ds.length + positional ds

/-- `HexNumeral cs v`: the text `cs` is an optional sign followed by at least one hexadecimal digit and
denotes `v`. -/
inductive HexNumeral : List Char → Int → Prop
  | plain (ds : List Char) (vs : List Nat) (ne : ds ≠ []) (digits : ds.mapM digitValue = some vs) :
      HexNumeral ds (positional vs)
  | plus (ds : List Char) (vs : List Nat) (ne : ds ≠ []) (digits : ds.mapM digitValue = some vs) :
      HexNumeral ('+' :: ds) (positional vs)
  | minus (ds : List Char) (vs : List Nat) (ne : ds ≠ []) (digits : ds.mapM digitValue = some vs) :
      HexNumeral ('-' :: ds) (-positional vs)

/-- The range of a signed 64-bit integer. -/
def InI64 (v : Int) : Prop := -2 ^ 63 ≤ v ∧ v < 2 ^ 63

end Mcu.Spec
