import Verif.Model.Particle
import Verif.Model.Fields

set_option autoImplicit false

/-!
# `Source/Physics/ParticlePushers`
-/

namespace QED

open Dbl

variable {D : Type} [Dbl D]

/-- `PushMomentum` of a pusher: mass, charge, momentum, E, B to the force
(`ParticlePusher.hh:25-27`). -/
abbrev PushMom (D : Type) := D → D → V3 D → V3 D → V3 D → V3 D

/-- The Lorentz factor computed inside the pushers (`ParticlePusher.cpp:76`,
`LorentzPusher.cpp:11`, `LandauPusher.cpp:12`, `ModifiedLandauPusher.cpp:14`). -/
def pushGamma (mass : D) (p : V3 D) : D := sqrt (lit 1 +. p.mag2 /. (mass *. mass))

/-- `PushPosition` (`ParticlePusher.cpp:74-79`). -/
def pushPosition (mass : D) (p : V3 D) : V3 D := p.divs (mass *. pushGamma mass p)

/-- `LorentzPusher::PushMomentum` (`LorentzPusher.cpp:8-14`). -/
def lorentzForce : PushMom D := fun mass charge p e b =>
  (e.add ((p.cross b).divs (mass *. pushGamma mass p))).smul charge

/-- The parameter `eta` of the radiation-reaction pushers (`LandauPusher.cpp:12-21`,
`ModifiedLandauPusher.cpp:14-23`). -/
def pushEta (mass : D) (p e b : V3 D) : D :=
  let gamma := pushGamma mass p
  let beta := sqrt (lit 1 -. lit 1 /. (gamma *. gamma))
  let dir := p.norm
  let ePara := dir.smul (e.dot dir)
  let ePerp := e.sub ePara
  sqrt ((ePerp.add ((dir.cross b).smul beta)).mag2
    +. pow (dir.dot e) (lit 2) /. (gamma *. gamma)) *. gamma

/-- `radReaction` of the Landau pusher (`LandauPusher.cpp:23`). -/
def landauReaction (mass : D) (p e b : V3 D) : V3 D :=
  let eta := pushEta mass p e b
  p.norm.smul (lit (-2) /. lit 3 *. Units.alpha *. eta *. eta)

/-- `LandauPusher::PushMomentum` (`LandauPusher.cpp:9-29`). -/
def landauForce : PushMom D := fun mass charge p e b =>
  (lorentzForce mass charge p e b).add (landauReaction mass p e b)

/-- `ModifiedLandauPusher::gaunt` (`ModifiedLandauPusher.cpp:34-38`). -/
def gaunt (eta : D) : D :=
  pow (lit 1 +. lit 4.8 *. (lit 1 +. eta) *. log (lit 1 +. lit 1.7 *. eta)
    +. lit 2.44 *. eta *. eta) (lit (-2) /. lit 3)

/-- `radReaction` of the modified Landau pusher (`ModifiedLandauPusher.cpp:25-26`). -/
def modLandauReaction (mass : D) (p e b : V3 D) : V3 D :=
  let eta := pushEta mass p e b
  p.norm.smul (lit (-2) /. lit 3 *. Units.alpha *. eta *. eta *. gaunt eta)

/-- `ModifiedLandauPusher::PushMomentum` (`ModifiedLandauPusher.cpp:10-32`). -/
def modLandauForce : PushMom D := fun mass charge p e b =>
  (lorentzForce mass charge p e b).add (modLandauReaction mass p e b)

/-- The new position and momentum of one Runge-Kutta step
(`ParticlePusher.cpp:23-60`). -/
def rk4 (push : PushMom D) (field : Field D) (dt : D) (mass charge time : D) (pos mom : V3 D) :
    V3 D × V3 D :=
  let f1 := field time pos
  let posK1 := pushPosition mass mom
  let momK1 := push mass charge mom f1.1 f1.2
  let f2 := field (time +. dt /. lit 2) (pos.add ((posK1.muls dt).divs (lit 2)))
  let mom2 := mom.add ((momK1.muls dt).divs (lit 2))
  let posK2 := pushPosition mass mom2
  let momK2 := push mass charge mom2 f2.1 f2.2
  let f3 := field (time +. dt /. lit 2) (pos.add ((posK2.muls dt).divs (lit 2)))
  let mom3 := mom.add ((momK2.muls dt).divs (lit 2))
  let posK3 := pushPosition mass mom3
  let momK3 := push mass charge mom3 f3.1 f3.2
  let f4 := field (time +. dt) (pos.add (posK3.muls dt))
  let mom4 := mom.add (momK3.muls dt)
  let posK4 := pushPosition mass mom4
  let momK4 := push mass charge mom4 f4.1 f4.2
  (pos.add ((((posK1.add (posK2.smul (lit 2))).add (posK3.smul (lit 2))).add posK4).smul
      (dt /. lit 6)),
   mom.add ((((momK1.add (momK2.smul (lit 2))).add (momK3.smul (lit 2))).add momK4).smul
      (dt /. lit 6)))

/-- `ParticlePusher::PushParticle` (`ParticlePusher.cpp:12-64`). -/
def pushParticle (push : PushMom D) (field : Field D) (dt : D) (part : Particle D) : Particle D :=
  if part.isAlive = false then part
  else if part.mass ==. lit 0 then
    let positionNew := part.position.add (part.momentum.smul (dt /. part.momentum.mag))
    (part.updateTrack positionNew part.momentum).updateTime dt
  else
    let r := rk4 push field dt part.mass part.charge part.time part.position part.momentum
    (part.updateTrack r.1 r.2).updateTime dt

/-- `PushParticleList` (`ParticlePusher.cpp:66-72`). -/
def pushParticleList (push : PushMom D) (field : Field D) (dt : D) (l : PList D) : PList D :=
  { l with items := l.items.map (pushParticle push field dt) }

end QED
