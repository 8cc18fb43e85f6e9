import Verif.Model.RunManager

set_option autoImplicit false

/-!
# The calls of the shipped Python example

The numbers are in SI units, as in the script.
-/

namespace QED

open RunMgr

/-- The laser of the script (`example/QEDCascPy_example.py:11-19`). -/
noncomputable def scriptField : FieldArgs ℝ :=
  { maxField := 1e14, wavelength := 8e-7, duration := 3e-14, waist := 1e-5, polarisation := 0
    start := ⟨0, 0, 1e-5⟩, focus := ⟨0, 0, 0⟩ }

/-- The beam of the script (`example/QEDCascPy_example.py:22-30`). -/
noncomputable def scriptBeam : GenArgs ℝ :=
  { particleType := "Electron", energyDist := "gaussian", energyParam1 := 8.176e-11
    energyParam2 := 8.176e-12, radius := 0, duration := 0, divergence := 0
    position := ⟨0, 0, -1e-5⟩, direction := ⟨0, 0, 1⟩ }

/-- The run manager before `beamOn` (`example/QEDCascPy_example.py:7-8,33-34,41-48`); `fa` and `ga` are
what its constructor finds in memory. -/
noncomputable def scriptManager (fa : FieldArgs ℝ) (ga : GenArgs ℝ) : Mgr ℝ :=
  setGenerator scriptBeam (setSampleFraction 0.1 (setPhysics "Semiclassical"
    (setField "gaussian" scriptField (setTime 5e-17 1e-13 (RunMgr.new fa ga)))))

/-- `run_manager.beamOn(events = 1000, threads = 2)` (`example/QEDCascPy_example.py:51`) returns with
outcome `o`. -/
def ScriptRun (fa : FieldArgs ℝ) (ga : GenArgs ℝ) (e : Env ℝ) (o : Outcome ℝ) : Prop :=
  BeamOn e 1000 2 (scriptManager fa ga) (.ok o)

end QED
