import Verif.Lemmas.Motions
import Verif.Lemmas.Witness
import Verif.Lemmas.Draws
import Mathlib.Analysis.SpecialFunctions.Trigonometric.Basic

set_option autoImplicit false

/-!
# C108: results do not depend on the choice of axes, origin and clock

An experiment described with other axes, another origin and another zero of time
gives the same results described in that way, draw by draw. Arithmetic is that
of real numbers.
-/

namespace QED

open Dbl MCTools

/-- Turning or reflecting the axes, displacing the origin and shifting the clock turns,
reflects, displaces and shifts all particles and recorded tracks of an event and changes
nothing else: the same draws are used, and energies, weights, optical depths and histograms
are the same. -/
theorem C108_event {m : Motion} {cfg cfg' : SimCfg ℝ} (h : m.Sims cfg cfg') (l : PList ℝ)
    (r : Rng ℝ) (hists : List (Hist ℝ)) (n : Nat) (l' : PList ℝ) (r' : Rng ℝ)
    (hists' : List (Hist ℝ)) (he : Event cfg l r hists n l' r' hists') :
    Event cfg' (m.list l) r hists n (m.list l') r' hists' := by
  cases he with
  | mk hr hf =>
    have hr' := Motion.run_moved h hr
    rw [Res.ok_bind] at hr'
    exact Event.mk hr' (by rw [show (m.state _).list = m.list _ from rfl, m.fillRest_moved]
                           exact hf)

/-- Conversely every event of the moved experiment arises in this way. -/
theorem C108_event_only {m : Motion} {cfg cfg' : SimCfg ℝ} (h : m.Sims cfg cfg') (l : PList ℝ)
    (r : Rng ℝ) (hists : List (Hist ℝ)) (n : Nat) (l₁ : PList ℝ) (r' : Rng ℝ)
    (hists' : List (Hist ℝ)) (he : Event cfg' (m.list l) r hists n l₁ r' hists') :
    ∃ l', l₁ = m.list l' ∧ Event cfg l r hists n l' r' hists' := by
  cases he with
  | mk hr hf =>
    obtain ⟨o, ho, heq⟩ := Motion.run_moved_inv h hr (.init l r hists) rfl
    cases o with
    | exit c => cases heq
    | throw w => cases heq
    | ub w => cases heq
    | ok s =>
      obtain rfl := Res.ok.inj heq
      refine ⟨s.list, rfl, Event.mk ho ?_⟩
      rw [show (m.state s).list = m.list s.list from rfl, m.fillRest_moved] at hf
      exact hf

/-- An event that ends the program, or runs into undefined behaviour, does so after the
same number of time steps with any axes, origin and clock. -/
theorem C108_abort {m : Motion} {cfg cfg' : SimCfg ℝ} (h : m.Sims cfg cfg') (l : PList ℝ)
    (r : Rng ℝ) (hists : List (Hist ℝ)) (n : Nat) (o : Res (EvState ℝ))
    (ho : ∀ s, o ≠ .ok s) :
    Run cfg (.init l r hists) n o ↔ Run cfg' (.init (m.list l) r hists) n o := by
  have hmap : ∀ o : Res (EvState ℝ), (∀ s, o ≠ .ok s) → (o >>= fun s => .ok (m.state s)) = o := by
    intro o ho
    cases o with
    | ok s => exact absurd rfl (ho s)
    | exit c => rfl
    | throw w => rfl
    | ub w => rfl
  constructor
  · intro hr
    have := Motion.run_moved h hr
    rw [hmap o ho] at this
    exact this
  · intro hr
    obtain ⟨o₁, ho₁, heq⟩ := Motion.run_moved_inv h hr (.init l r hists) rfl
    have : ∀ s, o₁ ≠ .ok s := by
      rintro s rfl
      exact ho _ heq
    rw [hmap o₁ this] at heq
    rw [heq]; exact ho₁

/-- Energies, Lorentz factors, weights, kinds and optical depths are the same with any
axes, origin and clock. -/
theorem C108_scalars (m : Motion) (p : Particle ℝ) :
    (m.part p).energy = p.energy ∧ (m.part p).gamma = p.gamma ∧
      (m.part p).weight = p.weight ∧ (m.part p).name = p.name ∧
      (m.part p).opticalDepth = p.opticalDepth ∧ (m.part p).isAlive = p.isAlive ∧
      (m.part p).gammaHistory = p.gammaHistory :=
  ⟨m.energy_part p, m.gamma_part p, rfl, rfl, rfl, rfl, rfl⟩

/-- Every orthogonal matrix, displacement and delay is such a change of axes, and every field
can be described with the new ones. -/
theorem C108_orthogonal (M : M3 ℝ) (hM : M.toMat.transpose * M.toMat = 1) (shift : V3 ℝ)
    (delay : ℝ) :
    ∃ m : Motion, m.lin = M.mulVec ∧ m.shift = shift ∧ m.delay = delay ∧
      m.parity = M.toMat.det ∧ ∀ f, ∃ f', m.Fields f f' :=
  ⟨.ofMatrix M hM shift delay, rfl, rfl, rfl, rfl,
    fun f => ⟨_, Motion.matrixField_moved hM shift delay f⟩⟩

/-- With new axes a static field is the static field with turned components; a reflection
reverses the magnetic field. -/
theorem C108_static (m : Motion) (e b : V3 ℝ) :
    m.Fields (staticField e b) (staticField (m.lin e) ((m.lin b).smul m.parity)) :=
  fun _ _ => rfl

/-- A plane wave looks the same from an origin displaced by any `v` when the clock is shifted
by the distance the wave covers on the way, the component of `v` along its direction. -/
theorem C108_plane (maxE wl phi : ℝ) (d v : V3 ℝ) :
    (Motion.translation v ((d.rotateToAxis V3.ez).mulVec v).z).Fields
      (PlaneField.new maxE wl phi d).getField (PlaneField.new maxE wl phi d).getField := by
  have ha : ∀ t x, (PlaneField.new maxE wl phi d).amplitude
      (t + ((d.rotateToAxis V3.ez).mulVec v).z) (x.add v) =
      (PlaneField.new maxE wl phi d).amplitude t x := by
    intro t x
    unfold PlaneField.amplitude PlaneField.new
    dsimp only
    generalize d.rotateToAxis V3.ez = R
    have : (R.mulVec (x.add v)).z -. (t + (R.mulVec v).z) = (R.mulVec x).z -. t := by
      simp only [M3.mulVec, M3.acc3, V3.add, real_add, real_sub, real_mul, real_lit]
      push_cast; ring
    rw [this]
  intro t x
  have hp : (Motion.translation v ((d.rotateToAxis V3.ez).mulVec v).z).point x = x.add v := rfl
  have hd : (Motion.translation v ((d.rotateToAxis V3.ez).mulVec v).z).delay =
    ((d.rotateToAxis V3.ez).mulVec v).z := rfl
  have h1 : ∀ b : V3 ℝ, b.smul (1 : ℝ) = b := fun b => by ext <;> simp [V3.smul]
  rw [hp, hd]
  unfold PlaneField.getField
  dsimp only
  rw [ha]
  simp only [Motion.translation, id, h1]

/-- The quarter turn about the z axis. -/
def quarterTurn : M3 ℝ := ⟨0, -1, 0, 1, 0, 0, 0, 0, 1⟩

theorem quarterTurn_orthogonal : quarterTurn.toMat.transpose * quarterTurn.toMat = 1 := by
  ext i j
  fin_cases i <;> fin_cases j <;>
    simp [quarterTurn, M3.toMat, Matrix.mul_apply, Fin.sum_univ_three, Matrix.transpose]

/-- Turning the polarisation of a plane wave along z is not turning the wave: a quarter turn
of the axes should change polarisation angle 0 into `π/2`, but the program's magnetic field
then has the wrong sign. -/
theorem C108_polarisation_is_no_turn :
    ¬ (Motion.ofMatrix quarterTurn quarterTurn_orthogonal ⟨0, 0, 0⟩ 0).Fields
      (PlaneField.new 1 1 0 ⟨0, 0, 1⟩).getField
      (PlaneField.new 1 1 (Real.pi / 2) ⟨0, 0, 1⟩).getField := by
  intro h
  have hR : (⟨0, 0, 1⟩ : V3 ℝ).rotateToAxis V3.ez = ⟨1, 0, 0, 0, 1, 0, 0, 0, 1⟩ := by
    have hn : (⟨0, 0, 1⟩ : V3 ℝ).norm = ⟨0, 0, 1⟩ := Witness.norm_z 1 one_pos
    rw [V3.ez_real, rotateToAxis_eq_rodrigues]
    · rw [hn]
      ext <;> simp [rodrigues, V3.cross, skewMat, M3.zeros, M3.ideneity, M3.add, M3.mul, M3.muls,
        M3.acc3]
    · rw [hn]; simp [V3.add, V3.mag2, V3.dot]; norm_num
  have h0 := congrArg (fun y => y.2.x) (h 0 ⟨0, 0, 0⟩)
  simp only [PlaneField.getField, PlaneField.new, PlaneField.amplitude, hR] at h0
  simp [Motion.ofMatrix, Motion.point, quarterTurn, M3.mulVec, M3.acc3, M3.inverse, M3.det,
    M3.muls, V3.add, V3.smul, M3.toMat, Matrix.det_fin_three] at h0
  norm_num at h0

/-- A quarter turn, a displacement and a delay of the event in which a photon converts. -/
example : ∃ (m : Motion) (cfg' : SimCfg ℝ) (l' : PList ℝ) (r' : Rng ℝ) (h' : List (Hist ℝ)),
    m.lin ⟨1, 0, 0⟩ = ⟨0, 1, 0⟩ ∧ m.shift = ⟨5, 6, 7⟩ ∧ m.delay = 3 ∧
      m.Sims Witness.cfg cfg' ∧ Event Witness.cfg Witness.start Witness.rng [] 1 l' r' h' ∧
      Event cfg' (m.list Witness.start) Witness.rng [] 1 (m.list l') r' h' ∧
      l'.nPart = 3 := by
  obtain ⟨ph, pos, ele, hs, -⟩ := Witness.step_eq
  have hf := Motion.matrixField_moved quarterTurn_orthogonal ⟨5, 6, 7⟩ 3 Witness.field
  have hsim : (Motion.ofMatrix quarterTurn quarterTurn_orthogonal ⟨5, 6, 7⟩ 3).Sims Witness.cfg
      { Witness.cfg with
        field := Motion.matrixField quarterTurn ⟨5, 6, 7⟩ 3 Witness.field
        procs := [.breitWheeler { Witness.bwCfg 1 with
          field := Motion.matrixField quarterTurn ⟨5, 6, 7⟩ 3 Witness.field }] } :=
    { push := rfl, pusher := .inl rfl, field := hf, dt := rfl, timeEnd := rfl
      procs := .cons (.breitWheeler _ _ hf) .nil }
  have he : Event Witness.cfg Witness.start Witness.rng [] 1 ⟨"0", 10, [ph, pos, ele]⟩
      ⟨fun _ => 1 / 2, 3⟩ [] := by
    refine Event.mk (s := ⟨⟨"0", 10, [ph, pos, ele]⟩, ⟨fun _ => 1 / 2, 3⟩, 1, 0, []⟩)
      (.step ?_ hs (.done ?_)) rfl
    · simp [EvState.init, Witness.cfg]
    · simp [Witness.cfg]
  refine ⟨_, _, _, _, _, ?_, rfl, rfl, hsim, he, C108_event hsim _ _ _ _ _ _ _ he, rfl⟩
  ext <;> simp [Motion.ofMatrix, quarterTurn, M3.mulVec, M3.acc3]

/-- An event that runs into undefined behaviour: a photon and an empty table of rates. -/
example : ∃ (m : Motion) (cfg cfg' : SimCfg ℝ) (l : PList ℝ) (r : Rng ℝ) (w : String),
    m.Sims cfg cfg' ∧ Run cfg (.init l r []) 1 (.ub w) := by
  refine ⟨.translation ⟨1, 2, 3⟩ 0,
    ⟨lorentzForce, Witness.field, 1, 1, [.breitWheeler { Witness.bwCfg 1 with tAxis := [] }]⟩,
    ⟨lorentzForce, Witness.field, 1, 1, [.breitWheeler { Witness.bwCfg 1 with tAxis := [] }]⟩,
    Witness.start, Witness.rng, "out-of-bounds read", ?_, ?_⟩
  · have hf : (Motion.translation ⟨1, 2, 3⟩ 0).Fields Witness.field Witness.field := by
      intro t x
      simp [Witness.field, staticField, Motion.translation, V3.smul]
    exact { push := rfl, pusher := .inl rfl, field := hf, dt := rfl, timeEnd := rfl
            procs := .cons (.breitWheeler _ _ hf) .nil }
  · refine .abort (by simp [EvState.init]) ?_ (by simp)
    have hi : ∀ q : ℝ, Numerics.interpolate1D [] [0, 0] q = .ub "out-of-bounds read" := by
      intro q; rfl
    have hb : ∀ (p : Particle ℝ) (l : PList ℝ) (r : Rng ℝ), p.kind = .photon → p.isAlive = true →
        bwInteract { Witness.bwCfg 1 with tAxis := [] } p l r = .ub "out-of-bounds read" := by
      intro p l r hk ha
      unfold bwInteract
      rw [if_neg (by simp [Particle.typeName, hk, ha])]
      dsimp only
      rw [show (Witness.bwCfg 1).tData = [0, 0] from rfl, hi]
      rfl
    have hq := push_identity lorentzForce Witness.field 1 Witness.photon
    have hst : Witness.start = ⟨"0", 10, [Witness.photon]⟩ := rfl
    unfold timeStep
    rw [histStep_nil rfl]
    simp only [Res.ok_bind, EvState.init]
    unfold advance
    rw [hst]
    dsimp only
    unfold particleLoop
    rw [if_pos (by simp [PList.nPart])]
    unfold visit
    rw [show PList.get ⟨"0", 10, [Witness.photon]⟩ 0 = .ok Witness.photon from rfl]
    simp only [Res.ok_bind]
    unfold interactAll interactAt
    generalize pushParticle lorentzForce Witness.field 1 Witness.photon = q at hq
    rw [show (PList.set ⟨"0", 10, [Witness.photon]⟩ 0 q).get 0 = .ok q from rfl]
    simp only [Res.ok_bind]
    rw [Proc.interact, hb q _ _ (hq.1.trans rfl) (hq.2.2.2.2.2.1.trans rfl)]
    rfl

/-- A reflection has parity -1. -/
example : ∃ m : Motion, m.parity = -1 := by
  have h : (⟨1, 0, 0, 0, 1, 0, 0, 0, -1⟩ : M3 ℝ).toMat.transpose *
      (⟨1, 0, 0, 0, 1, 0, 0, 0, -1⟩ : M3 ℝ).toMat = 1 := by
    ext i j
    fin_cases i <;> fin_cases j <;>
      simp [M3.toMat, Matrix.mul_apply, Fin.sum_univ_three, Matrix.transpose]
  obtain ⟨m, -, -, -, hp, -⟩ := C108_orthogonal ⟨1, 0, 0, 0, 1, 0, 0, 0, -1⟩ h ⟨0, 0, 0⟩ 0
  exact ⟨m, by rw [hp]; simp [M3.toMat, Matrix.det_fin_three]⟩

end QED
