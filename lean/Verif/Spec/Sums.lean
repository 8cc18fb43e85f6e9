import Verif.Model.Program

set_option autoImplicit false

/-!
# The histograms of single events and sources
-/

namespace QED

open Main MCTools

/-- The histogram before anything has been counted: the same settings, no entries, and nothing in its bins. -/
def Hist.blank (h : Hist ℝ) : Hist ℝ := { h with entries := 0, values := h.values.map fun _ => 0 }

/-- What is in bin `b` of histogram `i`; nothing if there is no such bin. -/
def bin (hists : List (Hist ℝ)) (i b : Nat) : ℝ := ((hists[i]?.map Hist.values).getD [])[b]?.getD 0

/-- The number of entries of histogram `i`. -/
def entriesOf (hists : List (Hist ℝ)) (i : Nat) : Nat := (hists[i]?.map Hist.entries).getD 0

/-- Events from number `j` on, each recorded in histograms of its own that are `blanks` at its start: `gss` are these
histograms at the end of each event. The source, the random numbers and the tables are handed on from each event to the
next. -/
inductive EachAlone (cfg : SimCfg ℝ) (fuel : Nat) (output tracking : Bool) (blanks : List (Hist ℝ)) :
    Nat → Source ℝ × Rng ℝ × OutMgr ℝ → List (List (Hist ℝ)) → Source ℝ × Rng ℝ × OutMgr ℝ → Prop
  | nil {j s r o} : EachAlone cfg fuel output tracking blanks j (s, r, o) [] (s, r, o)
  | cons {j s r o s' r' o' gs gss z} :
      runEvent cfg fuel output tracking j (s, ⟨r, blanks, o⟩) = (some (.ok (s', ⟨r', gs, o'⟩)) : Timed _) →
      EachAlone cfg fuel output tracking blanks (j + 1) (s', r', o') gss z →
      EachAlone cfg fuel output tracking blanks j (s, r, o) (gs :: gss) z

/-- The same for sources. -/
inductive SourcesAlone (cfg : SimCfg ℝ) (fuel : Nat) (tracking : Bool) (blanks : List (Hist ℝ)) :
    List (Source ℝ × Bool) → Rng ℝ × OutMgr ℝ → List (List (Hist ℝ)) → Rng ℝ × OutMgr ℝ → Prop
  | nil {r o} : SourcesAlone cfg fuel tracking blanks [] (r, o) [] (r, o)
  | cons {s ss r o r' o' gs gss z} :
      runSource cfg fuel tracking s ⟨r, blanks, o⟩ = (some (.ok ⟨r', gs, o'⟩) : Timed _) →
      SourcesAlone cfg fuel tracking blanks ss (r', o') gss z →
      SourcesAlone cfg fuel tracking blanks (s :: ss) (r, o) (gs :: gss) z

end QED
