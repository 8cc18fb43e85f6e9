import Verif.Model.Program
import Verif.Spec.Radiation

set_option autoImplicit false

/-!
# One event after others

`nextEvent` is the next event of a source: its primary and all that happens to it until the end time. `fresh`
is a generator that nobody has used, whose draws are the given list.
-/

namespace QED

open Dbl MCTools

/-- The particles at the end of the next event of the source `s`, run with the generator `r` and without
histograms. -/
def nextEvent {D : Type} [Dbl D] (cfg : SimCfg D) (fuel : Nat) (s : Source D) (r : Rng D) : Timed (PList D) :=
  Timed.bind (some (s.generateList r)) fun x =>
    Timed.bind (timeLoop cfg fuel (.init x.1 x.2.2 [])) fun e => some (.ok e.list)

/-- A generator that has not been used. -/
noncomputable def fresh (us : List ℝ) : Rng ℝ := ⟨fun i => us.getD i 0, 0⟩

/-- The first `j` events of the source `s` all end, and leave histograms and output with the property `A`. The
source and the generator they leave are `src` and `r`. -/
def EndsWith (cfg : SimCfg ℝ) (fuel : Nat) (output tracking : Bool) (j : Nat) (s : Source ℝ) (hists : List (Hist ℝ))
    (out : OutMgr ℝ) (A : List (Hist ℝ) → OutMgr ℝ → Prop) (us : List ℝ) (src : Source ℝ) (r : Rng ℝ) : Prop :=
  ∃ hists' out', Main.runEvents cfg fuel output tracking j 0 (s, ⟨fresh us, hists, out⟩) =
    some (.ok (src, ⟨r, hists', out'⟩)) ∧ A hists' out'

/-- The next event of the source `s` ends with particles that have the property `B`. -/
def NextIs (cfg : SimCfg ℝ) (fuel : Nat) (B : PList ℝ → Prop) (s : Source ℝ) (r : Rng ℝ) : Prop :=
  ∃ l, nextEvent cfg fuel s r = some (.ok l) ∧ B l

/-- One after another, the next events of the source `s` end with particles that have the properties `Bs`. -/
def NextAre (cfg : SimCfg ℝ) (fuel : Nat) : List (PList ℝ → Prop) → Source ℝ → Rng ℝ → Prop
  | [], _, _ => True
  | B :: Bs, s, r => ∃ l s' r' e, s.generateList r = .ok (l, s', r') ∧
      timeLoop cfg fuel (.init l r' []) = some (.ok e) ∧ B e.list ∧ NextAre cfg fuel Bs s' e.rng

/-- The samples number `i` and `j` of the source are the same. -/
def Source.SameSample {D : Type} (s : Source D) (i j : Nat) : Prop :=
  s.xPos[i]? = s.xPos[j]? ∧ s.yPos[i]? = s.yPos[j]? ∧ s.zPos[i]? = s.zPos[j]? ∧
    s.thetaDir[i]? = s.thetaDir[j]? ∧ s.phiDir[i]? = s.phiDir[j]? ∧ s.energy[i]? = s.energy[j]?

end QED
