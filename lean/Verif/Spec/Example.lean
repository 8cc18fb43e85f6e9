import Verif.Model.FileParser

set_option autoImplicit false

/-!
# What the shipped example asks for

The numbers of `example/example.ini` with the units they are meant in, divided by the internal units.
-/

namespace QED

open _root_.QED.Units

/-- The parameters of the shipped example (`example/example.ini:1-59`). -/
noncomputable def exampleInput : Input ℝ :=
  let u : UnitsSystem ℝ := unitsSI
  { general :=
      { units := "SI"
        timeStep := 1e-17 / u.refTime      -- 0.01 fs
        timeEnd := 1e-13 / u.refTime       -- 100 fs
        fileName := "example.h5"
        tracking := false }
    field :=
      .gaussian
        (2e14 / u.refEField)               -- 2e14 V/m
        (8e-7 / u.refLength)               -- 0.8 µm
        (1e-14 / u.refTime)                -- 10 fs
        (5e-6 / u.refLength)               -- 5 µm
        0
        ⟨0, 0, 1e-5 / u.refLength⟩         -- from 10 µm above the origin
        ⟨0, 0, 0⟩                          -- to the origin
    particles :=
      [{ number := 100
         name := "electron"
         type := "electron"
         distro := "gaussian"
         position := ⟨0, 0, -1e-5 / u.refLength⟩
         direction := ⟨0, 0, 1⟩
         energy1 := 8.176e-12 / u.refEnergy
         energy2 := 8.176e-13 / u.refEnergy
         radius := 1e-6 / u.refLength
         divergence := 0
         duration := 5e-15 / u.refTime
         output := true }]
    physics :=
      { physics := "Classical"
        minEnergy := 0
        sampleFraction := 0.1
        pairProduction := false }
    histograms :=
      [{ name := "start", particle := "Electron", type := "energy", time := 0
         bins := 400, minBin := 0, maxBin := 5000 },
       { name := "end", particle := "Electron", type := "energy", time := 1e-13 / u.refTime
         bins := 400, minBin := 0, maxBin := 5000 }] }

end QED
