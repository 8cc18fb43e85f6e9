import Verif.Props.Package

set_option autoImplicit false

/-!
# C160: programs that do not use the package
-/

namespace QED

open Dbl TableFile Package Main

namespace Package

theorem install_other (root dir path : List Char) (files : List Char → Option (List Char)) {n : String}
    (hn : n ∈ tableFiles) (h : path ≠ dir ++ "/tables".toList) :
    openTable (install root dir files) path ("/" ++ n) = openTable files path ("/" ++ n) := by
  have e : tableFiles.find? (fun m => decide (path ++ ("/" ++ n).toList = inPackage dir m)) = none := by
    rw [List.find?_eq_none]
    intro m hm hd
    have hd := of_decide_eq_true hd
    unfold inPackage at hd
    rw [List.append_assoc] at hd
    have all : ∀ n ∈ tableFiles, ∀ m ∈ tableFiles,
        ¬ ("/tables/".toList ++ m.toList) <:+ ("/" ++ n).toList ∧
          (("/" ++ n).toList <:+ ("/tables/".toList ++ m.toList) → n = m) := by decide +kernel
    obtain ⟨h1, h2⟩ := all n hn m hm
    have s1 : ("/" ++ n).toList <:+ path ++ ("/" ++ n).toList := List.suffix_append _ _
    have s2 : ("/tables/".toList ++ m.toList) <:+ path ++ ("/" ++ n).toList := hd ▸ List.suffix_append _ _
    rcases List.suffix_or_suffix_of_suffix s1 s2 with s | s
    · obtain rfl := h2 s
      have a : dir ++ ("/tables/".toList ++ n.toList) = dir ++ "/tables".toList ++ ("/" ++ n).toList := by
        rw [String.toList_append, ← List.append_assoc, ← List.append_assoc, List.append_assoc dir "/tables".toList]; rfl
      rw [a] at hd
      exact h (List.append_cancel_right hd)
    · exact h1 s
  unfold openTable install
  rw [e]

end Package

variable {D : Type} [Dbl D]

/-- C160: a program that takes its tables from any other directory still reads the same ones after the installation. -/
theorem C160_others (root dir path : List Char) (files : List Char → Option (List Char))
    (h : path ≠ dir ++ "/tables".toList) :
    loadEmission (D := D) (some path) (install root dir files) = loadEmission (some path) files ∧
      loadPairs (D := D) (some path) (install root dir files) = loadPairs (some path) files := by
  constructor
  · unfold loadEmission tablePath
    rw [Res.ok_bind, Res.ok_bind]
    rw [show ("/hsokolov.table" : String) = "/" ++ "hsokolov.table" from rfl, install_other root dir path files (by decide) h,
      show ("/ksi_sokolov.table" : String) = "/" ++ "ksi_sokolov.table" from rfl,
      install_other root dir path files (by decide) h,
      show ("/chimin.table" : String) = "/" ++ "chimin.table" from rfl, install_other root dir path files (by decide) h]
  · unfold loadPairs tablePath
    rw [Res.ok_bind, Res.ok_bind]
    rw [show ("/pairprod.table" : String) = "/" ++ "pairprod.table" from rfl,
      install_other root dir path files (by decide) h,
      show ("/e_split.table" : String) = "/" ++ "e_split.table" from rfl, install_other root dir path files (by decide) h,
      show ("/epsilon.table" : String) = "/" ++ "epsilon.table" from rfl, install_other root dir path files (by decide) h,
      show ("/log_chi.table" : String) = "/" ++ "log_chi.table" from rfl, install_other root dir path files (by decide) h]

/-- The executable beside an installed package: with the directory of the source tree it has the shipped tables. -/
example : "/QED-Cascade/Tables".toList ≠ "/site-packages/QEDCascPy".toList ++ "/tables".toList ∧
    ∃ t : Tables ℝ, LoadedFrom t (some "/QED-Cascade/Tables".toList)
      (install "/QED-Cascade".toList "/site-packages/QEDCascPy".toList
        (Shipped.tables "/QED-Cascade/Tables".toList)) := by
  have h : "/QED-Cascade/Tables".toList ≠ "/site-packages/QEDCascPy".toList ++ "/tables".toList := by decide
  obtain ⟨t, ht⟩ := C98_loaded (D := ℝ) "/QED-Cascade/Tables".toList
  obtain ⟨a, b⟩ := C160_others (D := ℝ) "/QED-Cascade".toList "/site-packages/QEDCascPy".toList _
    (Shipped.tables "/QED-Cascade/Tables".toList) h
  refine ⟨h, t, ?_⟩
  unfold LoadedFrom at ht ⊢
  rw [a, b]
  exact ht

end QED
