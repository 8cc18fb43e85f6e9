import Verif.Spec.Numeral

set_option autoImplicit false

/-!
# Compact numerals

The numbers in the tables that come with the program, in a form that is cheap to check.
-/

namespace QED
namespace Shipped

/-- A decimal numeral: sign, digits before the point, all digits of the mantissa as one number, digits after
the point if there is one, the negative exponent with its number of digits if there is one, and the letter
before it. -/
structure Tok where
  neg : Bool
  int : Nat
  mant : Nat
  frac : Option Nat
  exp : Option (Nat × Nat)
  letter : Char

/-- A whole number of one digit. -/
def n (m : Nat) : Tok := ⟨false, 1, m, none, none, 'e'⟩

/-- A number with one digit before the point and `w` after it. -/
def f (w m : Nat) : Tok := ⟨false, 1, m, some w, none, 'e'⟩

/-- The same below zero. -/
def g (w m : Nat) : Tok := ⟨true, 1, m, some w, none, 'e'⟩

/-- One digit before the point, `w` after it and a negative exponent of two digits. -/
def x (w m e : Nat) : Tok := ⟨false, 1, m, some w, some (2, e), 'e'⟩

/-- The last `w` decimal digits of a number. -/
def digits : Nat → Nat → List (Fin 10)
  | 0, _ => []
  | w + 1, m => digits w (m / 10) ++ [Fin.ofNat 10 m]

namespace Tok

/-- The digits after the point. -/
def width (t : Tok) : Nat := t.frac.getD 0

/-- The negative exponent. -/
def down (t : Tok) : Nat := (t.exp.map Prod.snd).getD 0

/-- The numeral. -/
def numeral (t : Tok) : Numeral :=
  ⟨t.neg, digits t.int (t.mant / 10 ^ t.width), t.frac.map fun w => digits w t.mant,
    t.exp.map fun e => (true, digits e.1 e.2)⟩

/-- The parts fit together, and 40 decimal places are enough. -/
def ok (t : Tok) : Bool :=
  0 < t.int && t.mant < 10 ^ (t.int + t.width) && t.width + t.down ≤ 40 &&
    (t.exp.all fun e => 0 < e.1 && e.2 < 10 ^ e.1) && (t.letter = 'e' || t.letter = 'E')

/-- The number in units of `10 ^ -40`, without the sign. -/
def size (t : Tok) : Nat := t.mant * 10 ^ (40 - (t.width + t.down))

/-- The number in units of `10 ^ -40`. -/
def units (t : Tok) : Int := if t.neg then -(t.size : Int) else t.size

end Tok

/-- How it is written. -/
def Tok.text (t : Tok) : List Char := t.numeral.textWith t.letter

/-- A text made of numerals, each with the white space behind it, and `last` at the end. -/
def text (last : List Char) : List (Tok × List Char) → List Char
  | [] => last
  | (t, s) :: ts => t.text ++ (s ++ text last ts)

/-- A row, each number followed by `s`, the last one by `e`. -/
def row (s e : List Char) : List Tok → List (Tok × List Char)
  | [] => []
  | [t] => [(t, e)]
  | t :: u :: ts => (t, s) :: row s e (u :: ts)

end Shipped
end QED
