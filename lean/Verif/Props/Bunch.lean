import Verif.Lemmas.Bunch
import Verif.Props.Source
import Mathlib.Analysis.Real.Pi.Bounds

set_option autoImplicit false

/-!
# Property C130: a bunch has the place, size, length and spread asked for
-/

namespace QED

open MeasureTheory ProbabilityTheory WithLp Bunch Dbl MCTools
open scoped Matrix

/-- A Gaussian energy spectrum is asked for. -/
abbrev SourceConf.gaussian (c : SourceConf ℝ) : Prop := c.distro = "gaussian" ∨ c.distro = "Gaussian"

namespace Bunch

/-- The random numbers of all particles, sorted by what they are used for. -/
def rawOf {n : ℕ} (ω : Fin n → Raw) : RawDraws ℝ :=
  { zx := List.ofFn fun i => (ω i).1 0, zy := List.ofFn fun i => (ω i).1 1, zz := List.ofFn fun i => (ω i).1 2
    zTheta := List.ofFn fun i => (ω i).2.1, uPhi := List.ofFn fun i => (ω i).2.2.1
    rawE := List.ofFn fun i => (ω i).2.2.2 }

/-- With the random numbers `ω`, the source started with all its particles gives particle `p` in its event
number `i`. -/
def Emits (c : SourceConf ℝ) (ω : Fin c.n → Raw) (i : Fin c.n) (p : Particle ℝ) : Prop :=
  ∃ (s : Source ℝ) (r : Rng ℝ) (ls : List (PList ℝ)) (s' : Source ℝ) (r' : Rng ℝ) (l : PList ℝ),
    c.build (rawOf ω) = .ok s ∧ s.calls c.n r = .ok (ls, s', r') ∧ ls[i.1]? = some l ∧ p ∈ l.items

/-- The random numbers of different particles are independent. -/
noncomputable def drawLaw (c : SourceConf ℝ) : Measure (Fin c.n → Raw) :=
  Measure.pi fun _ : Fin c.n => rawLaw c.gaussian

end Bunch

/-- The source gives one bunch of independent particles about the axis `a`: places with the configured centre,
width across the axis and length along it, momenta with the configured divergence about the axis, all azimuths
alike (to the twelve digits of the program's constants), and the configured spectrum as sizes. -/
def GivesBunch (c : SourceConf ℝ) (a : Fin 3 → ℝ) : Prop :=
  (∀ ω i, ∃ p, Emits c ω i p) ∧
  ∃ e₁ e₂ : Fin 3 → ℝ, Frame e₁ e₂ a ∧ ∃ F : (Fin c.n → Raw) → Fin c.n → Space × ℝ × ℝ × ℝ, Measurable F ∧
    (drawLaw c).map F = (Measure.pi fun _ : Fin c.n =>
      particleLaw c.position.toVec c.deltaPos c.deltaTau c.deltaDir a
        (energyLaw c.gaussian c.energy1 c.energy2)) ∧
    ∀ ω i p, Emits c ω i p → toLp 2 p.position.toVec = (F ω i).1 ∧
      p.momentum.toVec = aimed e₁ e₂ a (F ω i).2.1 (F ω i).2.2.1 (F ω i).2.2.2

namespace Bunch

/-- The axis of the bunch is the image of `z`. -/
theorem axis_eq {c : SourceConf ℝ} (hd : c.direction ≠ ⟨0, 0, 0⟩) {a : V3 ℝ} (ha : MirroredBeam c a) :
    (c.direction.norm.rotateToAxis V3.ez).mulVec V3.ez = a := by
  have hu := V3.norm_dot_self hd
  have hun := V3.norm_of_unit hu
  have hez : (V3.ez : V3 ℝ).norm = V3.ez := V3.norm_of_unit (by simp [V3.dot])
  by_cases h : (c.direction.norm.add V3.ez).mag2 ≤ 1e-10
  · rw [ha.2 h, rotate_ez_anti (by rw [hun, hez]; exact h)]
  · rw [ha.1 (not_le.mp h), rotate_ez hu (by rw [hun, hez]; exact h)]

theorem rawOf_sized {n : ℕ} (ω : Fin n → Raw) : (rawOf ω).Sized n := by simp [RawDraws.Sized, rawOf]

theorem rawOf_energy {n : ℕ} (ω : Fin n → Raw) (c : SourceConf ℝ) (h : c.gaussian ∨ c.energy1 ≤ c.energy2) :
    Source.sampleEnergy c.distro c.energy1 c.energy2 (rawOf ω).rawE =
      .ok (List.ofFn fun i => energyOf c.gaussian c.energy1 c.energy2 (ω i).2.2.2) := by
  unfold Source.sampleEnergy sampleUniform sampleNorm rawOf
  by_cases hg : c.gaussian
  · rw [if_pos hg]
    simp [energyOf, hg, Function.comp_def]
  · have h' : (c.energy1 <=. c.energy2) = true := by simpa using h.resolve_left hg
    rw [if_neg hg, ite_self, if_pos h']
    simp [energyOf, hg, Function.comp_def]

theorem frame_col (R : Matrix (Fin 3) (Fin 3) ℝ) (hR : IsRotation R) :
    Frame (fun i => R i 0) (fun i => R i 1) (fun i => R i 2) := by
  unfold Frame
  convert hR
  ext i j
  fin_cases j <;> rfl

/-- What is emitted, in terms of the raw numbers. -/
theorem emits_spec (c : SourceConf ℝ) (hd : c.direction ≠ ⟨0, 0, 0⟩) (sp : Kind)
    (hk : speciesOf c.type = some sp) (hE : c.gaussian ∨ c.energy1 ≤ c.energy2) (ω : Fin c.n → Raw)
    (i : Fin c.n) (p : Particle ℝ) (hp : Emits c ω i p) (R : Matrix (Fin 3) (Fin 3) ℝ)
    (hR : R = (c.direction.norm.rotateToAxis V3.ez).toMat) :
    toLp 2 p.position.toVec = (madeOf R c.position.toVec c.deltaPos c.deltaTau c.deltaDir c.gaussian c.energy1
        c.energy2 (ω i)).1 ∧
      p.momentum.toVec = aimed (fun i => R i 0) (fun i => R i 1) (fun i => R i 2)
        (madeOf R c.position.toVec c.deltaPos c.deltaTau c.deltaDir c.gaussian c.energy1 c.energy2 (ω i)).2.1
        (madeOf R c.position.toVec c.deltaPos c.deltaTau c.deltaDir c.gaussian c.energy1 c.energy2 (ω i)).2.2.1
        (madeOf R c.position.toVec c.deltaPos c.deltaTau c.deltaDir c.gaussian c.energy1 c.energy2
          (ω i)).2.2.2 := by
  obtain ⟨s, r, ls, s', r', l, hb, hc, hl, hpl⟩ := hp
  obtain ⟨ls2, s2, r2, h1, _, h3⟩ := C17_events saneReal c _ s sp hb (rawOf_sized ω) hk r c.n le_rfl
  rw [hc] at h1
  cases h1
  obtain ⟨q, hq, -, -, -, -, -, x, y, z, theta, phi, e, hx, hy, hz, ht, hph, he, hpos, hmom⟩ :=
    (h3 i l hl).single
  rw [hq] at hpl
  obtain rfl : p = q := by simpa using hpl
  obtain ⟨phis, es, hphi, hes, rfl⟩ := build_spec c _ s hb
  rw [rawOf_energy ω c hE] at hes
  cases hes
  unfold sampleUniform at hphi
  rw [if_pos SourceWitness.two_pi] at hphi
  cases hphi
  have hu := V3.norm_dot_self hd
  have hd' : c.direction.norm ≠ ⟨0, 0, 0⟩ := by
    intro h; rw [h] at hu; simp [V3.dot] at hu
  have hlt := i.2
  simp [sampleNorm, rawOf, hlt] at hx hy hz ht hph he
  dsimp only at hpos hmom
  have hunit := V3.norm_of_unit (rotation_unit hd' (sphere_unit theta phi))
  rw [show (⟨sin theta *. cos phi, sin theta *. sin phi, cos theta⟩ : V3 ℝ) = Source.sphere theta phi from rfl,
    hunit] at hmom
  constructor
  · rw [hpos, toVec_add, toVec_mulVec, ← hR]
    simp only [madeOf, Prod.map_fst]
    congr 1
    rw [add_comm, ← Matrix.mulVec_mulVec]
    congr 2
    ext j
    rw [Matrix.mulVec_diagonal]
    fin_cases j <;> simp [V3.toVec, ← hx, ← hy, ← hz, mul_comm]
  · rw [hmom, toVec_smul, toVec_mulVec, ← hR]
    have hth : theta = (madeOf R c.position.toVec c.deltaPos c.deltaTau c.deltaDir c.gaussian c.energy1
        c.energy2 (ω i)).2.1 := by simp [madeOf, ← ht]
    have hphe : phi = (madeOf R c.position.toVec c.deltaPos c.deltaTau c.deltaDir c.gaussian c.energy1
        c.energy2 (ω i)).2.2.1 := by simp [madeOf, ← hph, Units.pi, turn]
    have hee : e = (madeOf R c.position.toVec c.deltaPos c.deltaTau c.deltaDir c.gaussian c.energy1
        c.energy2 (ω i)).2.2.2 := by simp [madeOf, ← he]
    rw [← hth, ← hphe, ← hee]
    ext j
    simp [aimed, Matrix.mulVec, dotProduct, Fin.sum_univ_three, V3.toVec, Source.sphere]
    left
    ring

/-- Every event has its particle. -/
theorem emits_total (c : SourceConf ℝ) (sp : Kind) (hk : speciesOf c.type = some sp)
    (hE : c.gaussian ∨ c.energy1 ≤ c.energy2) (ω : Fin c.n → Raw) (i : Fin c.n) : ∃ p, Emits c ω i p := by
  obtain ⟨s, hs⟩ := SourceWitness.build_ok c (rawOf ω) ⟨_, rawOf_energy ω c hE⟩
  obtain ⟨ls, s', r', h1, h2, h3⟩ := C17_events saneReal c _ s sp hs (rawOf_sized ω) hk ⟨fun _ => 0, 0⟩ c.n le_rfl
  have hi : i.1 < ls.length := by rw [h2]; exact i.2
  obtain ⟨p, hp, -⟩ := (h3 i.1 ls[i.1] (List.getElem?_eq_getElem hi)).single
  exact ⟨p, s, _, ls, s', r', _, hs, h1, List.getElem?_eq_getElem hi, by rw [hp]; simp⟩

end Bunch

/-- C130: what the source really gives. The bunch is the configured one about the mirrored axis, for every
configuration. -/
theorem C130_bunch (c : SourceConf ℝ) (hd : c.direction.toVec ≠ 0) (sp : Kind)
    (hk : speciesOf c.type = some sp) (hE : c.gaussian ∨ c.energy1 ≤ c.energy2) (a : V3 ℝ)
    (ha : MirroredBeam c a) : GivesBunch c a.toVec := by
  have hd' : c.direction ≠ ⟨0, 0, 0⟩ := by
    intro h; apply hd; rw [h]; ext j; fin_cases j <;> simp [V3.toVec]
  have hn' : c.direction.norm ≠ ⟨0, 0, 0⟩ := by
    intro h
    have hu := V3.norm_dot_self hd'
    rw [h] at hu; simp [V3.dot] at hu
  obtain ⟨R, hR⟩ : ∃ R, R = (c.direction.norm.rotateToAxis V3.ez).toMat := ⟨_, rfl⟩
  have hrot : IsRotation R := by rw [hR]; exact rotateToAxis_isRotation hn' (by simp)
  have haR : a.toVec = fun i => R i 2 := by
    rw [← axis_eq hd' ha, toVec_mulVec, ← hR]
    ext j
    simp [Matrix.mulVec, dotProduct, Fin.sum_univ_three, V3.toVec]
  refine ⟨emits_total c sp hk hE, fun i => R i 0, fun i => R i 1, haR ▸ frame_col R hrot,
    fun ω i => madeOf R c.position.toVec c.deltaPos c.deltaTau c.deltaDir c.gaussian c.energy1 c.energy2 (ω i),
    ?_, ?_, ?_⟩
  · exact measurable_pi_lambda _ fun i => (measurable_madeOf ..).comp (measurable_pi_apply i)
  · have hl := madeOf_law R hrot c.position.toVec c.deltaPos c.deltaTau c.deltaDir c.gaussian hE
    have hpm : IsProbabilityMeasure ((rawLaw c.gaussian).map (madeOf R c.position.toVec c.deltaPos c.deltaTau
        c.deltaDir c.gaussian c.energy1 c.energy2)) := by rw [hl]; infer_instance
    unfold drawLaw
    rw [haR, ← hl]
    exact Measure.pi_map_pi (fun _ => (measurable_madeOf ..).aemeasurable)
  · intro ω i p hp
    rw [haR]
    exact emits_spec c hd' sp hk hE ω i p hp R hR

namespace Bunch

theorem mean_momentum {c : SourceConf ℝ} {a e₁ e₂ : Fin 3 → ℝ} (h1 : 0 < c.energy1)
    {F : (Fin c.n → Raw) → Fin c.n → Space × ℝ × ℝ × ℝ} (hF : Measurable F)
    (hl : (drawLaw c).map F = (Measure.pi fun _ : Fin c.n =>
      particleLaw c.position.toVec c.deltaPos c.deltaTau c.deltaDir a
        (energyLaw c.gaussian c.energy1 c.energy2))) (i : Fin c.n) (k : Fin 3) :
    ∫ ω, aimed e₁ e₂ a (F ω i).2.1 (F ω i).2.2.1 (F ω i).2.2.2 k ∂drawLaw c =
      (∫ e, e ∂energyLaw c.gaussian c.energy1 c.energy2) *
        Real.exp (-(Real.toNNReal (c.deltaDir ^ 2) : ℝ) / 2) * a k := by
  have hm : Measurable fun q : Space × ℝ × ℝ × ℝ => aimed e₁ e₂ a q.2.1 q.2.2.1 q.2.2.2 k := by
    unfold aimed
    simp only [Pi.smul_apply, Pi.add_apply, smul_eq_mul]
    fun_prop
  have hm' : Measurable fun x : Fin c.n → Space × ℝ × ℝ × ℝ =>
      aimed e₁ e₂ a (Function.eval i x).2.1 (Function.eval i x).2.2.1 (Function.eval i x).2.2.2 k :=
    hm.comp (measurable_pi_apply i)
  have h2 := mean_aimed c.position.toVec c.deltaPos c.deltaTau c.deltaDir a e₁ e₂
    (energyLaw c.gaussian c.energy1 c.energy2) (energyLaw_mean _ h1).1 k
  have h3 := (measurePreserving_eval (fun _ : Fin c.n => particleLaw c.position.toVec c.deltaPos c.deltaTau
    c.deltaDir a (energyLaw c.gaussian c.energy1 c.energy2)) i).map_eq
  rw [← h2, ← h3, ← hl, integral_map (measurable_pi_apply i).aemeasurable hm.aestronglyMeasurable,
    integral_map hF.aemeasurable hm'.aestronglyMeasurable]

/-- The axis of a bunch of positive energy is determined by what the source gives. -/
theorem axis_unique {c : SourceConf ℝ} {a b : Fin 3 → ℝ} (hn : 1 ≤ c.n) (h1 : 0 < c.energy1)
    (ha : GivesBunch c a) (hb : GivesBunch c b) : a = b := by
  obtain ⟨ht, e₁, e₂, -, F, hF, hl, hp⟩ := ha
  obtain ⟨-, f₁, f₂, -, G, hG, hm, hq⟩ := hb
  ext k
  have i : Fin c.n := ⟨0, hn⟩
  have h2 := mean_momentum (e₁ := e₁) (e₂ := e₂) h1 hF hl i k
  have h3 := mean_momentum (e₁ := f₁) (e₂ := f₂) h1 hG hm i k
  have h4 : ∀ ω, aimed e₁ e₂ a (F ω i).2.1 (F ω i).2.2.1 (F ω i).2.2.2 k =
      aimed f₁ f₂ b (G ω i).2.1 (G ω i).2.2.1 (G ω i).2.2.2 k := by
    intro ω
    obtain ⟨p, h⟩ := ht ω i
    rw [← (hp ω i p h).2, ← (hq ω i p h).2]
  simp only [h4] at h2
  rw [h3] at h2
  have h5 := (energyLaw_mean c.gaussian (b := c.energy2) h1).2
  have h6 := Real.exp_pos (-(Real.toNNReal (c.deltaDir ^ 2) : ℝ) / 2)
  exact (mul_left_cancel₀ (mul_pos h5 h6).ne' h2).symm

end Bunch

theorem mirrored_exists (c : SourceConf ℝ) : ∃ a, MirroredBeam c a := by
  by_cases h : (c.direction.norm.add V3.ez).mag2 ≤ 1e-10
  · exact ⟨⟨0, 0, -1⟩, fun h' => absurd h (not_le.mpr h'), fun _ => rfl⟩
  · exact ⟨⟨-c.direction.norm.x, -c.direction.norm.y, c.direction.norm.z⟩, fun _ => rfl, fun h' => absurd h' h⟩

/-- C130: the bunch is the one asked for, about the configured direction, exactly for directions parallel or
antiparallel to `z`. -/
theorem C130_asked_iff (c : SourceConf ℝ) (hd : c.direction.toVec ≠ 0) (sp : Kind)
    (hk : speciesOf c.type = some sp) (hn : 1 ≤ c.n) (hE : 0 < c.energy1)
    (hE2 : c.gaussian ∨ c.energy1 ≤ c.energy2) (u : Fin 3 → ℝ) (hu : IsUnitAlong u c.direction.toVec) :
    GivesBunch c u ↔ c.direction.x = 0 ∧ c.direction.y = 0 := by
  have hd' : c.direction ≠ ⟨0, 0, 0⟩ := by
    intro h; apply hd; rw [h]; ext j; fin_cases j <;> simp [V3.toVec]
  have hmag := V3.mag_pos hd'
  have hun := V3.norm_dot_self hd'
  have hnr := V3.norm_real c.direction
  have huv : u = c.direction.norm.toVec := by
    obtain ⟨h1, k, hk0, h2⟩ := hu
    have h3 : c.direction.mag = k := by
      rw [mag_eq, h2]
      have : len (k • u) = k * len u := by
        unfold len
        simp only [Pi.smul_apply, smul_eq_mul]
        rw [show (k * u 0) ^ 2 + (k * u 1) ^ 2 + (k * u 2) ^ 2 = k ^ 2 * (u 0 ^ 2 + u 1 ^ 2 + u 2 ^ 2) by ring,
          Real.sqrt_mul (sq_nonneg k), Real.sqrt_sq hk0.le]
      rw [this, h1, mul_one]
    ext j
    have h4 := congrFun h2 j
    rw [hnr, h3]
    simp only [Pi.smul_apply, smul_eq_mul] at h4
    fin_cases j <;> simp [V3.toVec] at h4 ⊢ <;> rw [h4] <;> field_simp
  obtain ⟨a, ha⟩ := mirrored_exists c
  have hb := C130_bunch c hd sp hk hE2 a ha
  have key : MirroredBeam c c.direction.norm ↔ c.direction.x = 0 ∧ c.direction.y = 0 := by
    constructor
    · intro hm
      by_cases hc : (c.direction.norm.add V3.ez).mag2 ≤ 1e-10
      · have e := hm.2 hc
        rw [hnr] at e
        have ex := congrArg V3.x e
        have ey := congrArg V3.y e
        simp [hmag.ne'] at ex ey
        exact ⟨ex, ey⟩
      · have e := hm.1 (not_le.mp hc)
        have ex := congrArg V3.x e
        have ey := congrArg V3.y e
        rw [hnr] at ex ey
        simp only at ex ey
        constructor
        · field_simp at ex; linarith
        · field_simp at ey; linarith
    · rintro ⟨hx, hy⟩
      have hun' := hun
      rw [hnr, hx, hy] at hun'
      simp [V3.dot] at hun'
      refine ⟨fun h => ?_, fun h => ?_⟩
      · rw [hnr, hx, hy]; simp
      · rw [hnr, hx, hy] at h ⊢
        simp [V3.add, V3.mag2, V3.dot] at h
        have : c.direction.z / c.direction.mag = -1 := by
          have h2 : (c.direction.z / c.direction.mag - 1) * (c.direction.z / c.direction.mag + 1) = 0 := by
            linarith
          rcases mul_eq_zero.mp h2 with h' | h'
          · rw [sub_eq_zero] at h'
            rw [h'] at h; norm_num at h
          · linarith
        rw [this]; simp
  rw [← key, huv]
  constructor
  · intro h
    have := toVec_injective (axis_unique hn hE hb h)
    rwa [this] at ha
  · intro h
    exact C130_bunch c hd sp hk hE2 _ h

/-- What holds of C130: directions along `z`. Missing: every other direction. -/
theorem C130_along_z_partial (c : SourceConf ℝ) (w : ℝ) (hw : w ≠ 0) (hd : c.direction = ⟨0, 0, w⟩)
    (sp : Kind) (hk : speciesOf c.type = some sp) (hn : 1 ≤ c.n) (hE : 0 < c.energy1)
    (hE2 : c.gaussian ∨ c.energy1 ≤ c.energy2) (u : Fin 3 → ℝ) (hu : IsUnitAlong u c.direction.toVec) :
    GivesBunch c u := by
  refine (C130_asked_iff c ?_ sp hk hn hE hE2 u hu).mpr (by rw [hd]; simp)
  rw [hd]; intro h
  exact hw (by simpa [V3.toVec] using congrFun h 2)

/-- The full statement is false: a bunch asked for along `x` has another axis. -/
theorem C130_refuted : ¬ ∀ (c : SourceConf ℝ) (u : Fin 3 → ℝ), c.direction.toVec ≠ 0 →
    IsUnitAlong u c.direction.toVec → 1 ≤ c.n → 0 < c.energy1 → c.energy1 ≤ c.energy2 →
    (∃ sp, speciesOf c.type = some sp) → GivesBunch c u := by
  intro h
  have hd : (⟨1, 0, 0⟩ : V3 ℝ).toVec ≠ 0 := by
    intro h; simpa [V3.toVec] using congrFun h 0
  have hu : IsUnitAlong (⟨1, 0, 0⟩ : V3 ℝ).toVec (⟨1, 0, 0⟩ : V3 ℝ).toVec :=
    ⟨by simp [len, V3.toVec], 1, one_pos, (one_smul ℝ _).symm⟩
  have := (C130_asked_iff { SourceWitness.conf with direction := ⟨1, 0, 0⟩ } hd .electron (by decide)
    (by simp [SourceWitness.conf]) (by simp [SourceWitness.conf]) (.inr (by simp [SourceWitness.conf])) _
    hu).mp (h _ _ hd hu (by simp [SourceWitness.conf]) (by simp [SourceWitness.conf])
      (by simp [SourceWitness.conf]) ⟨.electron, by decide⟩)
  simp at this

/-- The turn that the azimuths cover is a full one up to a part in a million million. -/
theorem C130_turn : 2 * Real.pi < turn ∧ turn < 2 * Real.pi * (1 + 1e-12) := by
  have h1 := Real.pi_gt_d20
  have h2 := Real.pi_lt_d20
  unfold turn
  constructor <;> nlinarith

namespace Bunch

theorem normal_open_pos {s v : ℝ} (hv : v ≠ 0) {U : Set ℝ} (hU : IsOpen U) (hne : U.Nonempty) :
    0 < gaussianReal s (Real.toNNReal (v ^ 2)) U := by
  have hv' : Real.toNNReal (v ^ 2) ≠ 0 := by simp [hv]
  rw [pos_iff_ne_zero]
  intro h
  exact hU.measure_ne_zero volume hne (gaussianReal_absolutelyContinuous' s hv' h)

theorem half_open : IsOpen {θ : ℝ | 0 < Real.cos θ} ∧ IsOpen {θ : ℝ | Real.cos θ < 0} :=
  ⟨isOpen_lt continuous_const Real.continuous_cos, isOpen_lt Real.continuous_cos continuous_const⟩

end Bunch

/-- The bunch also contains particles that fly backwards: this has a positive chance for every particle as soon as
there is a divergence, however small, or a width of a Gaussian spectrum, however small. -/
theorem C130_backwards (c : SourceConf ℝ) (hE : 0 < c.energy1)
    (h : c.deltaDir ≠ 0 ∨ (c.gaussian ∧ c.energy2 ≠ 0)) (a : Fin 3 → ℝ)
    (hb : GivesBunch c a) (i : Fin c.n) :
    0 < drawLaw c {ω | ∀ p, Emits c ω i p → p.momentum.toVec ⬝ᵥ a < 0} := by
  obtain ⟨-, e₁, e₂, hfr, F, hF, hl, hp⟩ := hb
  have hdot : ∀ θ φ e, aimed e₁ e₂ a θ φ e ⬝ᵥ a = e * Real.cos θ := by
    intro θ φ e
    have h0 := congrFun (congrFun hfr.1 0) 2
    have h1 := congrFun (congrFun hfr.1 1) 2
    have h2 := congrFun (congrFun hfr.1 2) 2
    simp [Matrix.mul_apply, Fin.sum_univ_three] at h0 h1 h2
    simp [aimed, dotProduct, Fin.sum_univ_three]
    linear_combination e * Real.sin θ * Real.cos φ * h0 + e * Real.sin θ * Real.sin φ * h1 + e * Real.cos θ * h2
  have key : ∃ A B : Set ℝ, 0 < gaussianReal 0 (Real.toNNReal (c.deltaDir ^ 2)) A ∧
      0 < energyLaw c.gaussian c.energy1 c.energy2 B ∧ MeasurableSet A ∧ MeasurableSet B ∧
      ∀ θ ∈ A, ∀ e ∈ B, e * Real.cos θ < 0 := by
    by_cases hd : c.deltaDir = 0
    · obtain ⟨hg, h2⟩ := h.resolve_left (not_not.mpr hd)
      refine ⟨{θ | 0 < Real.cos θ}, Set.Iio 0, ?_, ?_, half_open.1.measurableSet, measurableSet_Iio, ?_⟩
      · rw [hd]; simp
      · unfold energyLaw
        rw [if_pos hg]
        exact normal_open_pos h2 isOpen_Iio ⟨-1, by simp⟩
      · intro θ hθ e he
        exact mul_neg_of_neg_of_pos he hθ
    · refine ⟨{θ | Real.cos θ < 0}, Set.Ioi 0, ?_, ?_, half_open.2.measurableSet, measurableSet_Ioi, ?_⟩
      · exact normal_open_pos hd half_open.2 ⟨Real.pi, by simp⟩
      · rw [pos_iff_ne_zero]
        intro h0
        have h1 := (energyLaw_mean c.gaussian (b := c.energy2) hE).2
        have h2 : ∫ e, e ∂energyLaw c.gaussian c.energy1 c.energy2 ≤ 0 := by
          apply integral_nonpos_of_ae
          have : ∀ᵐ e ∂energyLaw c.gaussian c.energy1 c.energy2, e ∉ Set.Ioi (0 : ℝ) := by
            rw [ae_iff]
            simp only [not_not]
            exact h0
          exact this.mono fun e he => not_lt.mp he
        linarith
      · intro θ hθ e he
        exact mul_neg_of_pos_of_neg he hθ
  obtain ⟨A, B, hA, hB, mA, mB, hAB⟩ := key
  have hset : MeasurableSet ((Set.univ : Set Space) ×ˢ (A ×ˢ ((Set.univ : Set ℝ) ×ˢ B))) :=
    MeasurableSet.univ.prod (mA.prod (MeasurableSet.univ.prod mB))
  have h1 : 0 < particleLaw c.position.toVec c.deltaPos c.deltaTau c.deltaDir a
      (energyLaw c.gaussian c.energy1 c.energy2) ((Set.univ : Set Space) ×ˢ (A ×ˢ ((Set.univ : Set ℝ) ×ˢ B))) := by
    unfold particleLaw
    rw [Measure.prod_prod, Measure.prod_prod, Measure.prod_prod, measure_univ, measure_univ, one_mul, one_mul]
    exact ENNReal.mul_pos hA.ne' hB.ne'
  have h3 := (measurePreserving_eval (fun _ : Fin c.n => particleLaw c.position.toVec c.deltaPos c.deltaTau
    c.deltaDir a (energyLaw c.gaussian c.energy1 c.energy2)) i).map_eq
  rw [← h3, ← hl, Measure.map_apply (measurable_pi_apply i) hset,
    Measure.map_apply hF ((measurable_pi_apply i) hset)] at h1
  refine h1.trans_le (measure_mono fun ω hω p hpe => ?_)
  rw [(hp ω i p hpe).2, hdot]
  obtain ⟨-, hθ, -, he⟩ := hω
  exact hAB _ hθ _ he

open SourceWitness in
/-- The hypotheses of the C130 theorems can be met. -/
example : conf.direction.toVec ≠ 0 ∧ speciesOf conf.type = some .electron ∧ 1 ≤ conf.n ∧ 0 < conf.energy1 ∧
    (conf.gaussian ∨ conf.energy1 ≤ conf.energy2) ∧ (∃ a, MirroredBeam conf a) ∧
    ∃ u, IsUnitAlong u conf.direction.toVec := by
  refine ⟨?_, by decide, by simp [conf], by simp [conf], .inr (by simp [conf]), mirrored_exists _,
    ![0, 0, 1], ?_, 4, by norm_num, ?_⟩
  · intro h
    simpa [conf, V3.toVec] using congrFun h 2
  · simp [len]
  · ext j; fin_cases j <;> simp [conf, V3.toVec]

open SourceWitness in
/-- A source with the smallest divergence meets the hypotheses of the last theorem. -/
example : ∃ c : SourceConf ℝ, 0 < c.energy1 ∧ c.deltaDir ≠ 0 ∧ 1 ≤ c.n ∧ ∃ a, GivesBunch c a := by
  obtain ⟨a, ha⟩ := mirrored_exists { conf with deltaDir := 1e-9 }
  refine ⟨{ conf with deltaDir := 1e-9 }, by simp [conf], by norm_num, by simp [conf], a.toVec,
    C130_bunch _ ?_ .electron (by decide) (.inr (by simp [conf])) a ha⟩
  intro h
  simpa [conf, V3.toVec] using congrFun h 2

end QED
