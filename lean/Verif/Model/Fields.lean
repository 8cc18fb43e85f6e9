import Verif.Model.ThreeVector
import Verif.Model.Units

set_option autoImplicit false

/-!
# `Source/Physics/Fields/EMField`

`GetField(time, position, eField, bField)` writes its two output arguments;
here it returns the pair `(E, B)`.
-/

namespace QED

open Dbl

/-- `EMField::GetField` (`EMField.hh:13-14`): time and position to `(E, B)`. -/
abbrev Field (D : Type) := D → V3 D → V3 D × V3 D

variable {D : Type} [Dbl D]

/-- `StaticEMField` (`StaticEMField.cpp:3-18`). -/
def staticField (e b : V3 D) : Field D := fun _ _ => (e, b)

/-- `class PlaneEMField` (`PlaneEMField.hh:23-29`). -/
structure PlaneField (D : Type) where
  maxE : D
  waveLength : D
  polAngle : D
  waveNum : D
  rotation : M3 D
  rotationInv : M3 D

namespace PlaneField

/-- Constructor (`PlaneEMField.cpp:9-16`). -/
def new (maxE waveLength polAngle : D) (direction : V3 D) : PlaneField D :=
  let rotation := direction.rotateToAxis V3.ez
  { maxE, waveLength, polAngle
    waveNum := lit 2 *. Units.pi /. waveLength
    rotation, rotationInv := rotation.inverse }

/-- The scalar amplitude `E0` (`PlaneEMField.cpp:25-26`). -/
def amplitude (f : PlaneField D) (time : D) (position : V3 D) : D :=
  let p := f.rotation.mulVec position
  f.maxE *. cos ((p.z -. time) *. f.waveNum)

/-- `GetField` (`PlaneEMField.cpp:22-36`). -/
def getField (f : PlaneField D) : Field D := fun time position =>
  let e0 := f.amplitude time position
  (f.rotationInv.mulVec ⟨e0 *. cos f.polAngle, e0 *. sin f.polAngle, lit 0⟩,
   f.rotationInv.mulVec ⟨e0 *. sin f.polAngle, e0 *. cos f.polAngle, lit 0⟩)

end PlaneField

/-- `class GaussianEMField` (`GaussianEMField.hh:27-39`). -/
structure GaussField (D : Type) where
  maxE : D
  waveLength : D
  tau : D
  waist : D
  polAngle : D
  waveNum : D
  rotation : M3 D
  rotationInv : M3 D
  startPos : V3 D
  focusPos : V3 D

namespace GaussField

/-- Constructor (`GaussianEMField.cpp:10-21`). -/
def new (maxE waveLength tau waist polAngle : D) (startPos focusPos : V3 D) : GaussField D :=
  let waveVec := startPos.direction focusPos
  let rotation := waveVec.rotateToAxis V3.ez
  { maxE, waveLength, tau, waist, polAngle
    waveNum := lit 2 *. Units.pi /. waveLength
    rotation, rotationInv := rotation.inverse, startPos, focusPos }

/-- The scalar amplitude `E0` (`GaussianEMField.cpp:30-43`). -/
def amplitude (f : GaussField D) (time : D) (position : V3 D) : D :=
  let p := f.rotation.mulVec position
  let t0 := (f.startPos.sub f.focusPos).mag
  let r2 := p.x *. p.x +. p.y *. p.y
  let rayleigh := f.waveNum *. f.waist *. f.waist /. lit 2
  let curvature := p.z +. rayleigh *. rayleigh /. (p.z +. lit 1e-99)
  let beamWaist := f.waist *. sqrt (lit 1 +. p.z *. p.z /. (rayleigh *. rayleigh))
  f.maxE *. (f.waist /. beamWaist)
    *. exp (lit (-1) *. r2 /. (beamWaist *. beamWaist))
    *. cos (p.z *. f.waveNum +. r2 *. f.waveNum /. (lit 2 *. curvature))
    *. exp (lit (-1) *. (time -. t0 -. p.z) *. (time -. t0 -. p.z) /. (f.tau *. f.tau))

/-- `GetField` (`GaussianEMField.cpp:27-54`). -/
def getField (f : GaussField D) : Field D := fun time position =>
  let e0 := f.amplitude time position
  (f.rotationInv.mulVec ⟨e0 *. cos f.polAngle, e0 *. sin f.polAngle, lit 0⟩,
   f.rotationInv.mulVec ⟨e0 *. sin f.polAngle, e0 *. cos f.polAngle, lit 0⟩)

end GaussField

/-- `class FocusingField` (`FocusingField.hh:26-41`). -/
structure FocusField (D : Type) where
  maxE : D
  waveLength : D
  tau : D
  waist : D
  polAngle : D
  waveNum : D
  rayleigh : D
  eps : D
  t0 : D
  rotation : M3 D
  rotationInv : M3 D

namespace FocusField

/-- Constructor (`FocusingField.cpp:5-20`). -/
def new (maxE waveLength tau waist polAngle : D) (startPos focusPos : V3 D) : FocusField D :=
  let t0 := (startPos.sub focusPos).mag
  let waveVec := startPos.direction focusPos
  let rotation := waveVec.rotateToAxis V3.ez
  let waveNum := lit 2 *. Units.pi /. waveLength
  let rayleigh := waveNum *. waist *. waist /. lit 2
  { maxE, waveLength, tau, waist, polAngle, waveNum, rayleigh
    eps := waist /. rayleigh
    t0, rotation, rotationInv := rotation.inverse }

/-- The pulse envelope `E_0` at a point `p` of the beam frame
(`FocusingField.cpp:32-33,39-41`). -/
def envelope (f : FocusField D) (time : D) (p : V3 D) : D :=
  let ze := p.z /. f.rayleigh
  let r2 := p.x *. p.x +. p.y *. p.y
  let w := f.waist *. sqrt (lit 1 +. ze *. ze)
  f.maxE *. exp ((-. r2) /. (w *. w)
    -. (time -. f.t0 -. p.z) *. (time -. f.t0 -. p.z) /. (f.tau *. f.tau))

/-- The fields in the beam frame before the polarisation step, at a point `p` of
the beam frame (`FocusingField.cpp:30-41,50-78`). -/
def beamField (f : FocusField D) (time : D) (p : V3 D) : V3 D × V3 D :=
  let xe := p.x /. f.waist
  let ye := p.y /. f.waist
  let ze := p.z /. f.rayleigh
  let r2 := p.x *. p.x +. p.y *. p.y
  let rho2 := r2 /. (f.waist *. f.waist)
  let curvature := p.z +. f.rayleigh *. f.rayleigh /. (p.z +. lit 1e-99)
  let phiG := atan ze
  let phi := f.waveNum *. (p.z -. r2 /. (lit 2 *. curvature))
  let w := f.waist *. sqrt (lit 1 +. ze *. ze)
  let e0 := f.envelope time p
  let s (i : Nat) : D :=
    pow (f.waist /. w) (lit ((i : ℚ) + 1)) *. sin (phi +. lit ((i : ℚ) + 1) *. phiG)
  let c (i : Nat) : D :=
    pow (f.waist /. w) (lit ((i : ℚ) + 1)) *. cos (phi +. lit ((i : ℚ) + 1) *. phiG)
  let eps := f.eps
  let ex := e0 *. (s 0 +. eps *. eps *. (xe *. xe *. s 2 -. rho2 *. rho2 *. s 3 /. lit 4)
    +. eps *. eps *. eps *. eps
      *. (s 2 /. lit 8 -. rho2 *. s 3 /. lit 4
        -. rho2 *. (rho2 -. lit 16 *. xe *. xe) *. s 4 /. lit 16
        -. rho2 *. rho2 *. (rho2 +. lit 2 *. xe *. xe) *. s 5 /. lit 8
        +. rho2 *. rho2 *. rho2 *. rho2 *. s 6 /. lit 32))
  let ey := e0 *. xe *. ye *. (eps *. eps *. s 2 +. eps *. eps *. eps *. eps
    *. (rho2 *. s 4 -. rho2 *. rho2 *. s 5 /. lit 4))
  let ez := e0 *. xe *. (eps *. c 1 +. eps *. eps *. eps *. ((-. c 2) /. lit 2
    +. rho2 *. c 3 -. rho2 *. rho2 *. c 4 /. lit 4))
  let bx := lit 0
  let bY := e0 *. (s 0 +. eps *. eps *. (rho2 *. s 2 /. lit 2 -. rho2 *. rho2 *. s 3 /. lit 4)
    +. eps *. eps *. eps *. eps *. ((-. s 2) /. lit 8 +. rho2 *. s 3 /. lit 4
      +. lit 5 *. rho2 *. rho2 *. s 4 /. lit 16 -. rho2 *. rho2 *. rho2 *. s 5 /. lit 4
      +. rho2 *. rho2 *. rho2 *. rho2 *. s 6 /. lit 32))
  let bz := e0 *. ye *. (eps *. c 1 +. eps *. eps *. eps *. (c 2 /. lit 2
    +. rho2 *. c 3 /. lit 2 -. rho2 *. rho2 *. c 4 /. lit 4))
  (⟨ex, ey, ez⟩, ⟨bx, bY, bz⟩)

/-- The polarisation step (`FocusingField.cpp:79-82` and `84-87`): the second
assignment already sees the new first component. -/
def polarise (polAngle : D) (v : V3 D) : V3 D :=
  let x' := v.x *. cos polAngle -. v.y *. sin polAngle
  let y' := x' *. sin polAngle +. v.y *. cos polAngle
  ⟨x', y', v.z⟩

/-- `GetField` (`FocusingField.cpp:26-89`). -/
def getField (f : FocusField D) : Field D := fun time position =>
  let p := f.rotation.mulVec position
  if f.envelope time p <. lit 1e-15 then
    (⟨lit 0, lit 0, lit 0⟩, ⟨lit 0, lit 0, lit 0⟩)
  else
    let (e, b) := f.beamField time p
    (f.rotationInv.mulVec (polarise f.polAngle e), f.rotationInv.mulVec (polarise f.polAngle b))

end FocusField

end QED
