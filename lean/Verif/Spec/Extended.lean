import Verif.Model.Pushers

set_option autoImplicit false

/-!
# The same numbers in arithmetic with infinities

Over the real numbers a division by zero gives zero, which is not what the program computes. `XR` is exact arithmetic
with the infinities and NaN of IEEE. The definitions here carry real data over to it unchanged.
-/

namespace QED

/-- A vector with real components. -/
def V3.inXR (v : V3 ℝ) : V3 XR := ⟨.fin v.x, .fin v.y, .fin v.z⟩

/-- A matrix with real entries. -/
def M3.inXR (m : M3 ℝ) : M3 XR :=
  ⟨.fin m.m00, .fin m.m01, .fin m.m02, .fin m.m10, .fin m.m11, .fin m.m12, .fin m.m20, .fin m.m21, .fin m.m22⟩

/-- A particle with real data. -/
def Particle.inXR (p : Particle ℝ) : Particle XR :=
  { kind := p.kind, mass := .fin p.mass, charge := .fin p.charge, weight := .fin p.weight, time := .fin p.time,
    opticalDepth := .fin p.opticalDepth, tracking := p.tracking, isAlive := p.isAlive, position := p.position.inXR,
    momentum := p.momentum.inXR, posHistory := p.posHistory.map V3.inXR, momHistory := p.momHistory.map V3.inXR,
    timeHistory := p.timeHistory.map .fin, gammaHistory := p.gammaHistory.map .fin }

/-- A Gaussian pulse with real parameters. -/
def GaussField.inXR (f : GaussField ℝ) : GaussField XR :=
  { maxE := .fin f.maxE, waveLength := .fin f.waveLength, tau := .fin f.tau, waist := .fin f.waist,
    polAngle := .fin f.polAngle, waveNum := .fin f.waveNum, rotation := f.rotation.inXR,
    rotationInv := f.rotationInv.inXR, startPos := f.startPos.inXR, focusPos := f.focusPos.inXR }

/-- A focused pulse with real parameters. -/
def FocusField.inXR (f : FocusField ℝ) : FocusField XR :=
  { maxE := .fin f.maxE, waveLength := .fin f.waveLength, tau := .fin f.tau, waist := .fin f.waist,
    polAngle := .fin f.polAngle, waveNum := .fin f.waveNum, rayleigh := .fin f.rayleigh, eps := .fin f.eps,
    t0 := .fin f.t0, rotation := f.rotation.inXR, rotationInv := f.rotationInv.inXR }

/-- At every real time and place the field `g'` has the real values of `g`. -/
def Field.Extends (g' : Field XR) (g : Field ℝ) : Prop :=
  ∀ t x, g' (.fin t) x.inXR = ((g t x).1.inXR, (g t x).2.inXR)

end QED
