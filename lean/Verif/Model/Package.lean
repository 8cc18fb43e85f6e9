import Verif.Model.TableFiles

set_option autoImplicit false

/-!
# The Python package

What `pip install` puts into the package as far as the tables are concerned, and what importing it does to the
environment. A file system gives the text of the file of a name, if there is one.
-/

namespace QED.Package

/-- `physics_table_files` (`Source/Physics/CMakeLists.txt:30-38`). -/
def tableFiles : List String :=
  ["chimin.table", "e_split.table", "energy_split.table", "epsilon.table", "hsokolov.table", "ksi_sokolov.table",
    "log_chi.table", "pairprod.table"]

/-- The file `name` of the directory `tables` of the package in `dir`. -/
def inPackage (dir : List Char) (name : String) : List Char := dir ++ "/tables/".toList ++ name.toList

/-- `pip install root` (`setup.py:47-57`, `Source/Physics/CMakeLists.txt:51-52`) with the package in `dir`: each of the
table files of the source tree is copied. Simplification: the other files of the package are left out. -/
def install (root dir : List Char) (files : List Char → Option (List Char)) : List Char → Option (List Char) := fun p =>
  match tableFiles.find? fun n => p = inPackage dir n with
  | some n => files (root ++ "/Tables/".toList ++ n.toList)
  | none => files p

/-- `import QEDCascPy` (`Source/Python/QEDCascPy/__init__.py:1-4`): the environment variable `QED_TABLES_PATH` is set,
whatever it was before. -/
def importPackage (dir : List Char) (_env : Option (List Char)) : Option (List Char) := some (dir ++ "/tables".toList)

end QED.Package
