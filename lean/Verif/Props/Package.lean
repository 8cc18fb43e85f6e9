import Verif.Model.Package
import Verif.Props.Shipped

set_option autoImplicit false

/-!
# C160: the tables of the Python package
-/

namespace QED

open Dbl TableFile Package Main

namespace Package

theorem install_file (root dir : List Char) (files : List Char → Option (List Char)) {n : String} (hn : n ∈ tableFiles) :
    install root dir files (inPackage dir n) = files (root ++ "/Tables/".toList ++ n.toList) := by
  unfold install
  have e : (fun m => decide (inPackage dir n = inPackage dir m)) = fun m => n == m := by
    funext m
    have : inPackage dir n = inPackage dir m ↔ n = m := by
      constructor
      · intro h
        exact String.toList_injective (List.append_cancel_left h)
      · rintro rfl; rfl
    rw [Bool.eq_iff_iff, decide_eq_true_iff, beq_iff_eq, this]
  have h : tableFiles.find? (fun m => n == m) = some n := by
    have : ∀ n ∈ tableFiles, tableFiles.find? (fun m => n == m) = some n := by decide
    exact this n hn
  rw [e, h]

/-- The tables that a process opens. -/
theorem install_open (root dir : List Char) (files : List Char → Option (List Char)) {n : String} (hn : n ∈ tableFiles) :
    openTable (install root dir files) (dir ++ "/tables".toList) ("/" ++ n) =
      openTable files (root ++ "/Tables".toList) ("/" ++ n) := by
  have h := install_file root dir files hn
  unfold inPackage at h
  have a : dir ++ "/tables".toList ++ ("/" ++ n).toList = dir ++ "/tables/".toList ++ n.toList := by
    rw [String.toList_append, ← List.append_assoc, List.append_assoc dir]; rfl
  have b : root ++ "/Tables".toList ++ ("/" ++ n).toList = root ++ "/Tables/".toList ++ n.toList := by
    rw [String.toList_append, ← List.append_assoc, List.append_assoc root]; rfl
  unfold openTable
  rw [a, b, h]

end Package

variable {D : Type} [Dbl D]

/-- C160: in an installed package the process of photon emission reads the tables of the source tree it was installed
from, whatever the environment variable was when the script began, and whatever other files there are. -/
theorem C160_emission (root dir : List Char) (files : List Char → Option (List Char)) (env : Option (List Char)) :
    loadEmission (D := D) (importPackage dir env) (install root dir files) =
      loadEmission (some (root ++ "/Tables".toList)) files := by
  unfold loadEmission importPackage tablePath
  have h1 := install_open root dir files (n := "hsokolov.table") (by decide)
  have h2 := install_open root dir files (n := "ksi_sokolov.table") (by decide)
  have h3 := install_open root dir files (n := "chimin.table") (by decide)
  rw [Res.ok_bind, Res.ok_bind]
  rw [show ("/hsokolov.table" : String) = "/" ++ "hsokolov.table" from rfl, h1]
  rw [show ("/ksi_sokolov.table" : String) = "/" ++ "ksi_sokolov.table" from rfl, h2]
  rw [show ("/chimin.table" : String) = "/" ++ "chimin.table" from rfl, h3]

/-- C160 for pair production. -/
theorem C160_pairs (root dir : List Char) (files : List Char → Option (List Char)) (env : Option (List Char)) :
    loadPairs (D := D) (importPackage dir env) (install root dir files) =
      loadPairs (some (root ++ "/Tables".toList)) files := by
  unfold loadPairs importPackage tablePath
  have h1 := install_open root dir files (n := "pairprod.table") (by decide)
  have h2 := install_open root dir files (n := "e_split.table") (by decide)
  have h3 := install_open root dir files (n := "epsilon.table") (by decide)
  have h4 := install_open root dir files (n := "log_chi.table") (by decide)
  rw [Res.ok_bind, Res.ok_bind]
  rw [show ("/pairprod.table" : String) = "/" ++ "pairprod.table" from rfl, h1]
  rw [show ("/e_split.table" : String) = "/" ++ "e_split.table" from rfl, h2]
  rw [show ("/epsilon.table" : String) = "/" ++ "epsilon.table" from rfl, h3]
  rw [show ("/log_chi.table" : String) = "/" ++ "log_chi.table" from rfl, h4]

/-- C160 for the tables that come with the program: a script that imports the package always has them, complete and of
the sizes that all look-ups need. -/
theorem C160_shipped (root dir : List Char) (env : Option (List Char)) :
    (∃ t : Tables D, LoadedFrom t (importPackage dir env)
      (install root dir (Shipped.tables (root ++ "/Tables".toList)))) ∧
    ∀ t : Tables D, LoadedFrom t (importPackage dir env)
      (install root dir (Shipped.tables (root ++ "/Tables".toList))) →
        LoadedFrom t (some (root ++ "/Tables".toList)) (Shipped.tables (root ++ "/Tables".toList)) ∧ t.Good := by
  have e : ∀ t : Tables D, LoadedFrom t (importPackage dir env)
      (install root dir (Shipped.tables (root ++ "/Tables".toList))) ↔
        LoadedFrom t (some (root ++ "/Tables".toList)) (Shipped.tables (root ++ "/Tables".toList)) := by
    intro t
    unfold LoadedFrom
    rw [C160_emission, C160_pairs]
  constructor
  · obtain ⟨t, ht⟩ := C98_loaded (D := D) (root ++ "/Tables".toList)
    exact ⟨t, (e t).mpr ht⟩
  · intro t ht
    exact ⟨(e t).mp ht, C98_good _ t ((e t).mp ht)⟩

/-- A script in an environment where the variable is not set, with which the executable runs into undefined
behaviour (C88). -/
example : (∃ t : Tables ℝ, LoadedFrom t (importPackage "/site-packages/QEDCascPy".toList none)
    (install "/QED-Cascade".toList "/site-packages/QEDCascPy".toList
      (Shipped.tables "/QED-Cascade/Tables".toList))) ∧
    loadEmission (D := ℝ) none (Shipped.tables "/QED-Cascade/Tables".toList) = .ub "std::string of a null pointer" :=
  ⟨(C160_shipped "/QED-Cascade".toList "/site-packages/QEDCascPy".toList none).1, rfl⟩

end QED
