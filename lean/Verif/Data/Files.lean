import Verif.Data.ChiMin
import Verif.Data.ESplit
import Verif.Data.Epsilon
import Verif.Data.HSokolov
import Verif.Data.Ksi
import Verif.Data.LogChi
import Verif.Data.PairProd

set_option autoImplicit false

/-!
# The table files that come with the program

The contents of `Tables/` in the repository, character by character. `tools/tables-check.sh` compares them with
the files.
-/

namespace QED
namespace Shipped

/-- A number on a line of its own. -/
def lines (ts : List Tok) : List (Tok × List Char) := ts.map fun t => (t, ['\n'])

/-- `Tables/hsokolov.table`. -/
def hText : List Char :=
  text [] ((⟨false, 3, 500, none, none, 'e'⟩, [' ', '\n']) :: hPairs.flatMap fun p => [(p.1, [' ']), (p.2, ['\n'])])

/-- The range of `log10 eta` in `Tables/ksi_sokolov.table`. -/
def logMin : Tok := ⟨true, 1, 5, some 0, none, 'e'⟩

/-- The range of `log10 eta` in `Tables/ksi_sokolov.table`. -/
def logMax : Tok := ⟨false, 1, 1, some 0, none, 'e'⟩

/-- `Tables/ksi_sokolov.table`. -/
def ksiText : List Char :=
  text ['\n'] ((⟨false, 3, 100, none, none, 'e'⟩, ['\t', ' ']) :: (⟨false, 3, 100, none, none, 'e'⟩, ['\t', ' ']) ::
    (logMin, ['\t', ' ']) :: (logMax, ['\n']) :: ksiRows.flatMap (row ['\t'] ['\n']))

/-- `Tables/chimin.table`. -/
def chiMinText : List Char := text [] (lines chiMin)

/-- `Tables/pairprod.table`. -/
def rateText : List Char :=
  text [] ((⟨false, 4, 1301, none, none, 'e'⟩, ['\n']) :: ratePairs.flatMap fun p => [(p.1, ['\t']), (p.2, ['\n'])])

/-- `Tables/e_split.table`. -/
def splitText : List Char :=
  text [] ((⟨false, 3, 100, none, none, 'e'⟩, ['\n']) :: splitRows.flatMap (row ['\t'] ['\t', '\n']))

/-- `Tables/epsilon.table`. -/
def epsilonText : List Char := text [] (lines epsilon)

/-- `Tables/log_chi.table`. -/
def logChiText : List Char := text [] (lines logChi)

/-- The table directory, under the name `dir`. -/
def tables (dir : List Char) (path : List Char) : Option (List Char) :=
  if path = dir ++ "/hsokolov.table".toList then some hText
  else if path = dir ++ "/ksi_sokolov.table".toList then some ksiText
  else if path = dir ++ "/chimin.table".toList then some chiMinText
  else if path = dir ++ "/pairprod.table".toList then some rateText
  else if path = dir ++ "/e_split.table".toList then some splitText
  else if path = dir ++ "/epsilon.table".toList then some epsilonText
  else if path = dir ++ "/log_chi.table".toList then some logChiText
  else none

end Shipped
end QED
