import Verif.Model.Ini
import Mathlib.Data.Nat.Digits.Defs

set_option autoImplicit false

/-!
# Decimal numerals

What a numeral is, how it is written and which number it stands for.
-/

namespace QED

/-- An optionally signed decimal numeral: digits, an optional point followed by digits, an optional
exponent. -/
structure Numeral where
  neg : Bool
  int : List (Fin 10)
  frac : Option (List (Fin 10))
  exp : Option (Bool × List (Fin 10))

namespace Numeral

/-- At least one digit in the mantissa and in the exponent if there is one. -/
def WF (n : Numeral) : Prop :=
  (n.int ≠ [] ∨ ∃ f, n.frac = some f ∧ f ≠ []) ∧ ∀ e, n.exp = some e → e.2 ≠ []

/-- The character of a digit. -/
def digit (d : Fin 10) : Char := Char.ofNat (48 + d.val)

/-- A sign if the number is negative. -/
def signText (neg : Bool) : List Char := if neg then ['-'] else []

/-- How the fraction is written. -/
def fracText : Option (List (Fin 10)) → List Char
  | none => []
  | some f => '.' :: f.map digit

/-- How the exponent is written. -/
def expText : Option (Bool × List (Fin 10)) → List Char
  | none => []
  | some e => 'e' :: signText e.1 ++ e.2.map digit

/-- How a numeral is written. -/
def text (n : Numeral) : List Char :=
  signText n.neg ++ n.int.map digit ++ fracText n.frac ++ expText n.exp

/-- How a numeral is written when `c` stands before the exponent. -/
def textWith (c : Char) (n : Numeral) : List Char :=
  signText n.neg ++ n.int.map digit ++ fracText n.frac ++
    match n.exp with
    | none => []
    | some e => c :: signText e.1 ++ e.2.map digit

/-- The number a string of digits stands for, most significant digit first. -/
def nat (ds : List (Fin 10)) : ℕ := Nat.ofDigits 10 (ds.reverse.map Fin.val)

/-- The exponent of ten. -/
def expVal : Option (Bool × List (Fin 10)) → ℤ
  | none => 0
  | some e => if e.1 then -(nat e.2 : ℤ) else (nat e.2 : ℤ)

/-- The number a numeral stands for. -/
def value (n : Numeral) : ℚ :=
  (if n.neg then -1 else 1) *
    ((nat n.int : ℚ) + (nat (n.frac.getD []) : ℚ) / 10 ^ (n.frac.getD []).length) *
    (10 : ℚ) ^ expVal n.exp

/-- Numerals separated by the given text. -/
def joined (sep : List Char) : List Numeral → List Char
  | [] => []
  | [n] => n.text
  | n :: m :: ns => n.text ++ sep ++ joined sep (m :: ns)

end Numeral
end QED
