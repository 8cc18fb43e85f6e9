import Verif.Spec.Numeral

set_option autoImplicit false

/-!
# What a table file holds

Independent of the code that reads it: a file lists numbers, separated by any white space.
-/

namespace QED
namespace TableFile

/-- The text consists of these numerals with white space between them and, possibly, around them. Before an
exponent there is an `e` or an `E`. -/
inductive Lists : List Numeral → List Char → Prop
  | done {ws : List Char} : (∀ c ∈ ws, Ini.isSpace c = true) → Lists [] ws
  | more {ws : List Char} {e : Char} {n : Numeral} {ns : List Numeral} {rest : List Char} :
      (∀ c ∈ ws, Ini.isSpace c = true) → e = 'e' ∨ e = 'E' → n.WF →
      (∀ c, rest.head? = some c → Ini.isSpace c = true) → Lists ns rest →
      Lists (n :: ns) (ws ++ (n.textWith e ++ rest))

/-- The numeral is the plain decimal notation of a number that fits into 32 bits. -/
def Count (n : Numeral) (k : Nat) : Prop :=
  n.neg = false ∧ n.frac = none ∧ n.exp = none ∧ Numeral.nat n.int = k ∧ k < 2 ^ 32

/-- A file with a number `k` followed by pairs. -/
def PairFile (k : Nat) (pairs : List (Numeral × Numeral)) (text : List Char) : Prop :=
  ∃ n, Count n k ∧ Lists (n :: pairs.flatMap fun p => [p.1, p.2]) text

/-- The two files of the photon-energy table: the numbers of rows and columns, the range of `log10 eta` and
the rows; and the smallest `chi` of each row. -/
structure EnergyFiles (columns : Nat) (logMin logMax : Numeral) (rows : List (List Numeral))
    (chiMin : List Numeral) (text minText : List Char) : Prop where
  table : ∃ m n, Count m rows.length ∧ Count n columns ∧
    Lists (m :: n :: logMin :: logMax :: rows.flatten) text
  columns : ∀ r ∈ rows, r.length = columns
  mins : Lists chiMin minText
  each : chiMin.length = rows.length

/-- The three files of the energy split: the number of rows and the rows, which are as long as there are
rows; the `log10 chi` of each row; the energy fraction of each column. -/
structure SplitFiles (rows : List (List Numeral)) (chi epsilon : List Numeral)
    (text chiText epsText : List Char) : Prop where
  table : ∃ m, Count m rows.length ∧ Lists (m :: rows.flatten) text
  square : ∀ r ∈ rows, r.length = rows.length
  chi : Lists chi chiText ∧ chi.length = rows.length
  epsilon : Lists epsilon epsText ∧ epsilon.length = rows.length

end TableFile
end QED
