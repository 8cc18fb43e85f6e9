import Verif.Spec.Ini

set_option autoImplicit false

/-!
# Values given more than once, or on several lines
-/

namespace QED
namespace Ini

/-- White space, in the C locale. -/
def whiteSpace : List Char := [' ', '\t', '\n', '\x0b', '\x0c', '\r']

/-- What lines of the given kinds say: section, name and value, in order. An indented line after a name
continues the value of that name. -/
def given (sect name : List Char) : List Kind → List (List Char × List Char × List Char)
  | [] => []
  | .header s :: ks => given s [] ks
  | .entry k v :: ks => (sect, k, v) :: given sect k ks
  | .more v :: ks => (sect, name, v) :: given sect name ks
  | .inert :: ks => given sect name ks
  | .bad :: ks => given sect name ks

open Classical in
/-- The values given for a name in a section, in order. -/
noncomputable def givenFor (ks : List Kind) (s k : List Char) : List (List Char) :=
  ((given [] [] ks).filter fun e => SameName e.1 s ∧ SameName e.2.1 k).map (·.2.2)

/-- Values on lines of their own, but for empty values at the start. -/
def joined (vs : List (List Char)) : List Char := ['\n'].intercalate (vs.dropWhile (· = []))

/-- No section and no name is longer than 49 characters. -/
def ShortNames (ks : List Kind) : Prop :=
  ∀ k ∈ ks, match k with
    | .header s => s.length ≤ 49
    | .entry n _ => n.length ≤ 49
    | _ => True

end Ini
end QED
