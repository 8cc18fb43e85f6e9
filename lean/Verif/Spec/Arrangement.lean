import Verif.Spec.Ini

set_option autoImplicit false

/-!
# The same settings, arranged differently
-/

namespace QED
namespace Ini

/-- The first line does not begin with a byte order mark. -/
def Unmarked (lines : List (List Char)) : Prop := ∀ l, lines.head? = some l → ¬ ['\xef', '\xbb', '\xbf'] <+: l

/-- The lines write down the configuration `c`, with any comments and blank lines of at most 199 characters. -/
def Writes (lines : List (List Char)) (c : Config) : Prop :=
  (∀ l ∈ lines, '\n' ∉ l ∧ '\x00' ∉ l ∧ l.length ≤ 199) ∧ Unmarked lines ∧
    open Classical in lines.filter (¬ IsInert ·) = c.lines

/-- Every entry of `c` is in `c'`, in the same section, with the same value and the same name up to its case. -/
def Covers (c' c : Config) : Prop :=
  ∀ e ∈ c.entries, ∃ e' ∈ c'.entries, e'.1 = e.1 ∧ SameName e'.2.1 e.2.1 ∧ e'.2.2 = e.2.2

/-- The same settings, in whatever order and arrangement. -/
def SameSettings (c c' : Config) : Prop := Covers c' c ∧ Covers c c'

end Ini
end QED
