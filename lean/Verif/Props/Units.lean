import Verif.Props.RunResults
import Verif.Props.Pushers
import Mathlib.Analysis.Real.Pi.Bounds

set_option autoImplicit false

/-!
# Property C74: unit conversion

The reference values are the exact quotients of the code's constants, over the reals. The constants
themselves are decimal approximations; `C74_schwinger` and `C74_pi` say how good two of them are.
-/

namespace QED

open Dbl MCTools RunMgr _root_.QED.Units
open scoped Matrix

/-- The unit system in use. -/
noncomputable abbrev si : UnitsSystem ℝ := unitsSI

/-- Speed of light, electron mass, elementary charge and reduced Planck constant of the code. -/
noncomputable abbrev cSI : ℝ := SI_c
noncomputable abbrev meSI : ℝ := SI_me
noncomputable abbrev qeSI : ℝ := SI_qe
noncomputable abbrev hbarSI : ℝ := SI_hBar

theorem consts_pos : 0 < cSI ∧ 0 < meSI ∧ 0 < qeSI ∧ 0 < hbarSI ∧ (0 : ℝ) < SI_eSchw := by
  simp only [cSI, meSI, qeSI, hbarSI, SI_c, SI_me, SI_qe, SI_hBar, SI_eSchw, real_lit]
  norm_num

/-- C74: dividing by a reference value and multiplying by it again gives back the quantity. -/
theorem C74_round_trip (x : ℝ) :
    x /. si.refTime *. si.refTime = x ∧ x /. si.refLength *. si.refLength = x ∧
    x /. si.refEField *. si.refEField = x ∧ x /. si.refBField *. si.refBField = x ∧
    x /. si.refMomentum *. si.refMomentum = x ∧ x /. si.refEnergy *. si.refEnergy = x := by
  obtain ⟨h1, h2, h3, h4, h5⟩ := si_pos
  have h6 : (0 : ℝ) < si.refMomentum := by
    simp only [si, unitsSI, real_mul]
    exact mul_pos consts_pos.2.1 consts_pos.1
  simp only [real_div, real_mul]
  refine ⟨?_, ?_, ?_, ?_, ?_, ?_⟩ <;> exact div_mul_cancel₀ _ (by positivity)

/-- C74: the relations between the reference values: light covers the reference length in the reference
time, a photon of the reference momentum has the reference energy, the electric and the magnetic
reference fields belong together, and the reference field changes the momentum of an elementary charge
by the reference momentum in the reference time. -/
theorem C74_relations :
    si.refLength = cSI * si.refTime ∧ si.refEnergy = cSI * si.refMomentum ∧
    si.refEField = cSI * si.refBField ∧ si.refMomentum = meSI * cSI ∧
    qeSI * si.refEField * si.refTime = si.refMomentum ∧ si.refFreq * si.refTime = 1 := by
  obtain ⟨h1, h2, h3, h4, h5⟩ := consts_pos
  have hc := h1.ne'
  have hm := h2.ne'
  have hq := h3.ne'
  have he := h5.ne'
  simp only [si, unitsSI, real_mul, real_div, real_lit, Rat.cast_one]
  refine ⟨?_, ?_, ?_, trivial, ?_, ?_⟩
  · ring
  · ring
  · field_simp
  · field_simp
  · field_simp

/-! ## The equations of motion -/

/-- Lorentz factor of a particle of mass `M` and momentum `P`. -/
noncomputable def gammaSI (M : ℝ) (P : Fin 3 → ℝ) : ℝ := Real.sqrt (1 + (len P / (M * cSI)) ^ 2)

/-- Its velocity. -/
noncomputable def velocitySI (M : ℝ) (P : Fin 3 → ℝ) : Fin 3 → ℝ := (M * gammaSI M P)⁻¹ • P

/-- The Lorentz force on a charge `q`. -/
noncomputable def forceSI (q : ℝ) (v E B : Fin 3 → ℝ) : Fin 3 → ℝ := q • (E + crossProduct v B)

theorem si_gamma (mass : ℝ) (hm : 0 < mass) (P : V3 ℝ) :
    pushGamma mass (P.divs si.refMomentum) = gammaSI (mass * meSI) P.toVec := by
  obtain ⟨h1, h2, _⟩ := consts_pos
  unfold pushGamma gammaSI
  have hP : si.refMomentum = meSI * cSI := C74_relations.2.2.2.1
  rw [mag2_eq, toVec_divs, hP]
  have hlen : len ((meSI * cSI)⁻¹ • P.toVec) = (meSI * cSI)⁻¹ * len P.toVec := by
    unfold len
    have : 0 ≤ (meSI * cSI)⁻¹ := by positivity
    rw [← Real.sqrt_sq this, ← Real.sqrt_mul (by positivity), Real.sqrt_sq this]
    congr 1
    simp
    ring
  rw [hlen]
  simp only [real_sqrt, real_add, real_lit, real_div, real_mul, Rat.cast_one]
  congr 1
  field_simp

/-- C74: the dimensionless velocity of the code, in units of reference length over reference time, is
the velocity of the particle. -/
theorem C74_velocity (mass : ℝ) (hm : 0 < mass) (P : V3 ℝ) :
    (si.refLength / si.refTime) • (pushPosition mass (P.divs si.refMomentum)).toVec =
      velocitySI (mass * meSI) P.toVec := by
  obtain ⟨h1, h2, _⟩ := consts_pos
  obtain ⟨r1, r2, r3, r4, r5, r6⟩ := C74_relations
  have ht := si_pos.1.ne'
  unfold pushPosition velocitySI
  rw [toVec_divs, toVec_divs, si_gamma mass hm, r1, r4, smul_smul, smul_smul]
  congr 1
  have hg : 0 < gammaSI (mass * meSI) P.toVec := by unfold gammaSI; positivity
  simp only [real_mul]
  field_simp

/-- C74: the dimensionless force of the code, in units of reference momentum over reference time, is the
Lorentz force, for momentum and fields in SI units divided by the reference values. -/
theorem C74_force (mass charge : ℝ) (hm : 0 < mass) (P E B : V3 ℝ) :
    (si.refMomentum / si.refTime) • (lorentzForce mass charge (P.divs si.refMomentum)
      (E.divs si.refEField) (B.divs si.refBField)).toVec =
      forceSI (charge * qeSI) (velocitySI (mass * meSI) P.toVec) E.toVec B.toVec := by
  obtain ⟨h1, h2, h3, _⟩ := consts_pos
  obtain ⟨r1, r2, r3, r4, r5, r6⟩ := C74_relations
  have ht := si_pos.1
  have hb := si_pos.2.2.2.1
  have hg : 0 < gammaSI (mass * meSI) P.toVec := by unfold gammaSI; positivity
  unfold lorentzForce forceSI velocitySI
  rw [si_gamma mass hm]
  simp only [toVec_smul, toVec_add, toVec_divs, toVec_cross, map_smul, LinearMap.smul_apply, smul_add,
    smul_smul]
  rw [← r5]
  have e1 : qeSI * si.refEField * si.refTime / si.refTime * (charge * si.refEField⁻¹) = charge * qeSI := by
    have := si_pos.2.2.1.ne'
    field_simp
  rw [e1]
  congr 2
  simp only [real_mul]
  rw [r3]
  have := r5
  rw [r3, r4] at this
  have hme : qeSI * si.refBField * si.refTime = meSI := by
    apply mul_right_cancel₀ h1.ne'
    rw [← this]
    ring
  field_simp
  rw [← hme]
  ring

/-- The Schwinger field of the code is that of its other constants, to 3 parts in 10⁸. With it the
reference time is the Compton time `ħ/mc²` to the same accuracy. -/
theorem C74_schwinger :
    |(SI_eSchw : ℝ) / (meSI ^ 2 * cSI ^ 3 / (qeSI * hbarSI)) - 1| < 3e-8 ∧
    |si.refTime / (hbarSI / (meSI * cSI ^ 2)) - 1| < 3e-8 := by
  simp only [si, unitsSI, cSI, meSI, qeSI, hbarSI, SI_c, SI_me, SI_qe, SI_hBar, SI_eSchw, real_lit,
    real_div, real_mul]
  constructor <;> rw [abs_lt] <;> constructor <;> norm_num

/-- The value of π in the code. -/
theorem C74_pi : |(Units.pi : ℝ) - Real.pi| < 3e-12 := by
  have h1 := Real.pi_gt_d20
  have h2 := Real.pi_lt_d20
  simp only [Units.pi, real_lit]
  rw [abs_lt]
  constructor <;> norm_num <;> linarith

/-! ## The way through the run manager -/

theorem history_beam {D : Type} [Dbl D] {m m' : Mgr D} {h : List (Call D × Outcome D)}
    (hh : History m h m') : (lastOf asBeam h = none → m'.genArgs = m.genArgs) ∧
      ∀ a, lastOf asBeam h = some a → m'.genArgs = a.convert := by
  have step : ∀ {m : Mgr D} {c : Call D} {o : Outcome D}, Does m c o →
      o.mgr.genArgs = (asBeam c).elim m.genArgs GenArgs.convert := by
    intro m c o h
    cases h with
    | setTime => rfl
    | setField => simp only [Outcome.mgr, RunMgr.setField, asBeam, Option.elim]; split <;> rfl
    | setPhysics => simp only [Outcome.mgr, RunMgr.setPhysics, asBeam, Option.elim]; split <;> rfl
    | setGenerator => rfl
    | setSampleFraction =>
      simp only [Outcome.mgr, RunMgr.setSampleFraction, asBeam, Option.elim]; split <;> rfl
    | usePairProduction => rfl
    | beamOn hb => exact (beamOn_config hb).genArgs
  induction hh with
  | nil => exact ⟨fun _ => rfl, fun a ha => by cases ha⟩
  | @cons m c o h m' hd hh ih =>
    rw [lastOf_cons]
    refine ⟨?_, ?_⟩
    · intro hn
      rw [Option.or_eq_none_iff] at hn
      rw [ih.1 hn.1, step hd, hn.2]
      rfl
    · intro a ha
      rw [Option.or_eq_some_iff] at ha
      rcases ha with ha | ⟨ha, hq⟩
      · exact ih.2 a ha
      · rw [ih.1 ha, step hd, hq]
        rfl

/-- The particle a source makes, in terms of its samples. -/
theorem generateList_sample {s s' : Source ℝ} {r r' : Rng ℝ} {l : PList ℝ}
    (h : s.generateList r = .ok (l, s', r')) : ∃ p x y z theta phi energy, l.items = [p] ∧
      x ∈ s.xPos ∧ y ∈ s.yPos ∧ z ∈ s.zPos ∧ energy ∈ s.energy ∧
      p.position = (s.rotation.mulVec ⟨x, y, z⟩).add s.position ∧
      p.momentum = (s.rotation.mulVec (Source.sphere theta phi)).norm.smul energy := by
  unfold Source.generateList at h
  split at h
  · cases h
  · obtain ⟨x, hx, h⟩ := bind_eq_ok.1 h
    obtain ⟨y, hy, h⟩ := bind_eq_ok.1 h
    obtain ⟨z, hz, h⟩ := bind_eq_ok.1 h
    obtain ⟨theta, ht, h⟩ := bind_eq_ok.1 h
    obtain ⟨phi, hp, h⟩ := bind_eq_ok.1 h
    obtain ⟨energy, he, h⟩ := bind_eq_ok.1 h
    obtain ⟨p, hpart, h⟩ := bind_eq_ok.1 h
    cases h
    rw [rd_eq_ok] at hx hy hz he
    refine ⟨p, x, y, z, theta, phi, energy, by simp [PList.add, PList.new, PList.defaultMax],
      List.mem_of_getElem? hx, List.mem_of_getElem? hy, List.mem_of_getElem? hz,
      List.mem_of_getElem? he, ?_⟩
    unfold Source.mkParticle at hpart
    split at hpart
    · cases hpart; exact ⟨rfl, rfl⟩
    · split at hpart
      · cases hpart; exact ⟨rfl, rfl⟩
      · split at hpart
        · cases hpart; exact ⟨rfl, rfl⟩
        · cases hpart

/-- A run of the run manager uses the source of its last `setGenerator`. -/
theorem beamOn_source {e : Env ℝ} {n t : Int} {m m' : Mgr ℝ} {ls : List (PList ℝ × PList ℝ)}
    (hb : BeamOn e n t m (.ok (.ran m' ls))) : ∃ s, sourceOf n e.raw m = .ok s ∧
      ∀ l ∈ ls, ∃ k r s' r', ({ s with partCount := k } : Source ℝ).generateList r = .ok (l.1, s', r') := by
  by_cases hp : Passes e t
  swap
  · have := beamOn_gate hb hp
    cases this
  obtain ⟨m1, h1, ⟨_, ho⟩ | ⟨_, _, ho⟩ | ⟨_, _, s, ls', rs, r, hsrc, hev, ho⟩⟩ := beamOn_cases hb hp
  · cases ho
  · cases ho
  cases ho
  obtain ⟨_, _, hall⟩ := events_spec hev _ _ _ rfl
  have hga : (makeObjects m1).genArgs = m.genArgs :=
    ((freeOld_config h1).1.trans (made_config m1).1).genArgs
  refine ⟨s, ?_, ?_⟩
  · rw [← hsrc]
    unfold sourceOf
    rw [hga]
  · intro l hl
    obtain ⟨k, r, r', s', _, _, h4, _⟩ := hall l hl
    exact ⟨k, r, s', r', h4⟩

theorem sourceOf_spec {n : Int} {raw : RawDraws ℝ} {m : Mgr ℝ} {s : Source ℝ}
    (h : sourceOf n raw m = .ok s) :
    (∀ x ∈ s.xPos, ∃ g, x = m.genArgs.radius * g) ∧ (∀ x ∈ s.yPos, ∃ g, x = m.genArgs.radius * g) ∧
    (∀ x ∈ s.zPos, ∃ g, x = m.genArgs.duration * g) ∧ s.position = m.genArgs.position ∧
    s.rotation = m.genArgs.direction.norm.rotateToAxis V3.ez ∧
    Source.sampleEnergy m.genArgs.energyDist m.genArgs.energyParam1 m.genArgs.energyParam2 raw.rawE =
      .ok s.energy := by
  obtain ⟨phi, energy, _, he, rfl⟩ := build_spec ⟨m.genArgs.particleType, m.genArgs.energyDist,
    RunMgr.u32 n, m.genArgs.energyParam1, m.genArgs.energyParam2, m.genArgs.radius, m.genArgs.duration,
    m.genArgs.divergence, m.genArgs.position, m.genArgs.direction, false⟩ raw s h
  refine ⟨?_, ?_, ?_, rfl, rfl, he⟩ <;> intro x hx <;> simp [sampleNorm] at hx <;>
    obtain ⟨g, _, rfl⟩ := hx
  · exact ⟨g, by ring⟩
  · exact ⟨g, by ring⟩
  · exact ⟨g, by ring⟩

/-- C74 through the run manager, lengths: with a source of no extent, the position columns of the input
array contain the position given to `setGenerator`. -/
theorem C74_position (fa : FieldArgs ℝ) (ga : GenArgs ℝ) (h : List (Call ℝ × Outcome ℝ)) (m : Mgr ℝ)
    (hh : History (RunMgr.new fa ga) h m) (a : GenArgs ℝ) (ha : lastOf asBeam h = some a)
    (hr : a.radius = 0) (hd : a.duration = 0)
    (e : Env ℝ) (n t : Int) (m' : Mgr ℝ) (ls : List (PList ℝ × PList ℝ))
    (hb : BeamOn e n t m (.ok (.ran m' ls))) :
    ∀ l ∈ ls, ∀ p ∈ l.1.items, (PythonRows.primaryCells p).drop 3 = [a.position.x, a.position.y, a.position.z] := by
  obtain ⟨s, hs, hall⟩ := beamOn_source hb
  have hga := (history_beam hh).2 a ha
  obtain ⟨hx, hy, hz, hpos, _, _⟩ := sourceOf_spec hs
  rw [hga] at hx hy hz hpos
  intro l hl p hp
  obtain ⟨k, r, s', r', hg⟩ := hall l hl
  obtain ⟨q, x, y, z, _, _, _, hq, hx', hy', hz', _, hqp, _⟩ := generateList_sample hg
  rw [hq, List.mem_singleton] at hp
  subst hp
  obtain ⟨gx, rfl⟩ := hx x hx'
  obtain ⟨gy, rfl⟩ := hy y hy'
  obtain ⟨gz, rfl⟩ := hz z hz'
  dsimp only at hqp
  rw [hpos] at hqp
  have hL := (C74_round_trip a.position.x).2.1
  have hL' := (C74_round_trip a.position.y).2.1
  have hL'' := (C74_round_trip a.position.z).2.1
  have e1 : p.position = a.position.divs si.refLength := by
    rw [hqp]
    ext <;> simp [GenArgs.convert, hr, hd, M3.mulVec, M3.acc3, V3.add, V3.divs] <;> rfl
  simp only [primaryCells_eq, inputRow, List.drop_succ_cons, List.drop_zero, e1, V3.divs]
  change [a.position.x /. si.refLength *. si.refLength, a.position.y /. si.refLength *. si.refLength,
    a.position.z /. si.refLength *. si.refLength] = _
  rw [hL, hL', hL'']

/-- C74 through the run manager, energies: with a source of a single energy, the momentum columns of the
input array contain a momentum of that energy divided by the speed of light. -/
theorem C74_energy (fa : FieldArgs ℝ) (ga : GenArgs ℝ) (h : List (Call ℝ × Outcome ℝ)) (m : Mgr ℝ)
    (hh : History (RunMgr.new fa ga) h m) (a : GenArgs ℝ) (ha : lastOf asBeam h = some a)
    (he : a.energyParam2 = a.energyParam1) (he0 : 0 ≤ a.energyParam1)
    (hg1 : a.energyDist ≠ "gaussian") (hg2 : a.energyDist ≠ "Gaussian") (hd : a.direction.toVec ≠ 0)
    (e : Env ℝ) (n t : Int) (m' : Mgr ℝ) (ls : List (PList ℝ × PList ℝ))
    (hb : BeamOn e n t m (.ok (.ran m' ls))) :
    ∀ l ∈ ls, ∀ p ∈ l.1.items, ∃ P : V3 ℝ, (PythonRows.primaryCells p).take 3 = [P.x, P.y, P.z] ∧
      len P.toVec * cSI = a.energyParam1 := by
  obtain ⟨s, hs, hall⟩ := beamOn_source hb
  have hga := (history_beam hh).2 a ha
  obtain ⟨_, _, _, _, hrot, hen⟩ := sourceOf_spec hs
  rw [hga] at hrot hen
  intro l hl p hp
  obtain ⟨k, r, s', r', hg⟩ := hall l hl
  obtain ⟨q, _, _, _, theta, phi, energy, hq, _, _, _, he', _, hqm⟩ := generateList_sample hg
  rw [hq, List.mem_singleton] at hp
  subst hp
  dsimp only at he' hqm
  have hE : energy = a.energyParam1 / si.refEnergy := by
    unfold Source.sampleEnergy at hen
    rw [if_neg (by simp [GenArgs.convert, hg1, hg2])] at hen
    have hu : sampleUniform (a.energyParam1 / si.refEnergy) (a.energyParam1 / si.refEnergy) e.raw.rawE =
        .ok s.energy := by
      simp only [GenArgs.convert, he] at hen
      split at hen <;> exact hen
    unfold sampleUniform at hu
    split at hu
    · have := Res.ok.inj hu
      rw [← this] at he'
      simp only [List.mem_map] at he'
      obtain ⟨w, _, rfl⟩ := he'
      simp
    · cases hu
  have hd0 : a.direction ≠ ⟨0, 0, 0⟩ := by
    rintro hz
    apply hd
    rw [hz]
    ext i
    fin_cases i <;> simp [V3.toVec]
  have hn0 : a.direction.norm ≠ ⟨0, 0, 0⟩ := by
    intro hz
    have := V3.norm_dot_self hd0
    rw [hz] at this
    simp [V3.dot] at this
  have hR : IsRotation s.rotation.toMat := by
    rw [hrot]
    exact rotateToAxis_isRotation hn0 (by simp)
  have hdir : s.rotation.mulVec (Source.sphere theta phi) ≠ ⟨0, 0, 0⟩ := by
    intro hz
    have h0 : s.rotation.toMat.mulVec (Source.sphere theta phi).toVec = 0 := by
      rw [← toVec_mulVec, hz]
      ext i
      fin_cases i <;> simp [V3.toVec]
    have h1 : (Source.sphere theta phi).toVec = 0 := by
      have := congrArg s.rotation.toMat.transpose.mulVec h0
      rwa [Matrix.mulVec_mulVec, hR.1, Matrix.one_mulVec, Matrix.mulVec_zero] at this
    have hx := congrFun h1 0
    have hy := congrFun h1 1
    have hz := congrFun h1 2
    simp only [V3.toVec, Source.sphere, real_mul, real_sin, real_cos, Matrix.cons_val_zero,
      Matrix.cons_val_one, Matrix.cons_val_two, Pi.zero_apply, Matrix.head_cons, Matrix.tail_cons] at hx hy hz
    have c1 := Real.sin_sq_add_cos_sq theta
    have c2 := Real.sin_sq_add_cos_sq phi
    have hc : Real.cos theta = 0 := by simpa using hz
    have : Real.sin theta ^ 2 * (Real.sin phi ^ 2 + Real.cos phi ^ 2) = 0 := by
      have e1 : (Real.sin theta * Real.cos phi) ^ 2 + (Real.sin theta * Real.sin phi) ^ 2 = 0 := by
        rw [hx, hy]; ring
      linarith
    rw [c2, hc] at *
    nlinarith
  have hunit := V3.norm_dot_self hdir
  refine ⟨p.momentum.muls si.refMomentum, rfl, ?_⟩
  have hm0 : 0 < si.refMomentum := by
    rw [C74_relations.2.2.2.1]
    exact mul_pos consts_pos.2.1 consts_pos.1
  have hen0 : 0 ≤ energy := by
    rw [hE]
    exact div_nonneg he0 si_pos.2.2.2.2.le
  have hlen : len (p.momentum.muls si.refMomentum).toVec = energy * si.refMomentum := by
    rw [hqm]
    generalize (s.rotation.mulVec (Source.sphere theta phi)).norm = d at hunit
    simp only [V3.dot, real_add, real_mul] at hunit
    unfold len
    rw [show energy * si.refMomentum = Real.sqrt ((energy * si.refMomentum) ^ 2) from
      (Real.sqrt_sq (by positivity)).symm]
    congr 1
    simp [V3.toVec, V3.smul, V3.muls]
    linear_combination (energy * si.refMomentum) ^ 2 * hunit
  rw [hlen, hE]
  have hEn := si_pos.2.2.2.2.ne'
  have := C74_relations.2.1
  calc a.energyParam1 / si.refEnergy * si.refMomentum * cSI
      = a.energyParam1 / si.refEnergy * (cSI * si.refMomentum) := by ring
    _ = a.energyParam1 := by rw [← this]; exact div_mul_cancel₀ _ hEn

open RunWitness in
/-- The run of the witness shows the given energy of 1 J or more; here the range of energies is one to
two joules, so `C74_position` applies and `C74_energy` applies to the same settings with equal bounds. -/
example : lastOf asBeam settings = some genArgs ∧ genArgs.radius = 0 ∧ genArgs.duration = 0 ∧
    genArgs.direction.toVec ≠ 0 ∧ genArgs.energyDist ≠ "gaussian" := by
  refine ⟨rfl, rfl, rfl, ?_, by simp [genArgs]⟩
  intro h
  have := congrFun h 2
  simp [genArgs, V3.toVec] at this

end QED
