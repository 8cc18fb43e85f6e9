import Verif.Props.FramesRates
import Verif.Props.FramesReaction

set_option autoImplicit false

/-!
# Cases that meet the hypotheses of C140
-/

namespace QED

open Dbl Matrix Set Filter Topology Frames

/-- An electron in a constant electric field, seen from two frames, meets the hypotheses of `C140_tracks_partial`. -/
example : ∃ C, ∀ dt dt' : ℝ, 0 ≤ dt → 0 ≤ dt' → ∀ n n' : Nat, n * dt ≤ 1 → n' * dt' ≤ 1 →
    let r := (pushParticle lorentzForce OrderWitness.field dt)^[n] (alongZ (5 / 12))
    let r' := (pushParticle lorentzForce OrderWitness.field dt')^[n'] (alongZ (-7 / 24))
    let between := |r'.time - boostZ.mulVec (fourPosition r) 0|
    ‖fourPosition r' - boostZ.mulVec (fourPosition r)‖ ≤ C * (dt + dt' + between) ∧
    ‖fourMomentum r' - boostZ.mulVec (fourMomentum r)‖ ≤ C * (dt + dt' + between) := by
  obtain ⟨F, hF⟩ : ∃ F, SmoothField OrderWitness.field F 0 := C104_static _ _
  have hp : SameParticle boostZ (alongZ (5 / 12)) (alongZ (-7 / 24)) := alongZ_same (k := 5 / 12) (k' := -7 / 24) (e := 13 / 12) (e' := 25 / 24)
    (by norm_num) (by norm_num) (by norm_num) (by norm_num) (by norm_num) (by norm_num)
  refine C140_tracks_partial boostZ_frame field_same hF hF hp rfl ?_ ?_ (T := 1) (T' := 1) zero_le_one zero_le_one
  · simp [alongZ, Particle.newLepton, Particle.new]
  · simp [alongZ, Particle.newLepton, Particle.new, Particle.leptonKind]

namespace Frames

/-- A run with stochastic emission and pair production. -/
noncomputable def emissionCfg (field : Field ℝ) (T : ℝ) (n : Nat) : SimCfg ℝ :=
  ⟨lorentzForce, field, T / (n + 1), T,
    [.stochastic { Witness.emCfg 1 1 0 with field := field, dt := T / (n + 1), hAxis := [-1, 1], hData := [0, 0] },
      .breitWheeler (Witness.bwCfg 1)]⟩

theorem emissionCfg_run (field : Field ℝ) (T : ℝ) (n : Nat) :
    EmissionRun field [-1, 1] [0, 0] T n (emissionCfg field T n) := by
  refine ⟨rfl, rfl, rfl, le_rfl, [], _, [.breitWheeler (Witness.bwCfg 1)], rfl, ?_, rfl, rfl, rfl, rfl⟩
  intro y hy
  simp only [List.nil_append, List.mem_singleton] at hy
  exact ⟨_, hy⟩

theorem etaOf_one (t k F : ℝ) : etaOf 1 OrderWitness.field t (trackZ k F t) = 1 := by
  have hE : ∀ t x, electric OrderWitness.field t x = ![0, 0, -1] := by intro t x; rfl
  have hB : ∀ t x, magnetic OrderWitness.field t x = ![0, 0, 0] := by intro t x; rfl
  unfold etaOf
  rw [hE, hB, quantumParameter_eq]
  simp only [V3.ofVec, trackZ, gammaOf]
  norm_num
  simp only [Matrix.cons_val]
  rw [mul_pow, Real.sq_sqrt (by positivity)]
  norm_num
  ring

end Frames

/-- An electron accelerated along its motion, seen from two frames, meets the hypotheses of `C140_emission_partial`. -/
example (T : ℝ) (hT : 0 < T) : ∃ T' l,
    Tendsto (fun n => chance (Untouched (emissionCfg OrderWitness.field T n) (alongZ (12 / 5)) "0" 10 Witness.rng
      (n + 1))) atTop (𝓝 l) ∧
    Tendsto (fun n => chance (Untouched (emissionCfg OrderWitness.field T' n) (alongZ (21 / 20)) "0" 10 Witness.rng
      (n + 1))) atTop (𝓝 l) := by
  obtain ⟨F, hF⟩ : ∃ F, SmoothField OrderWitness.field F 0 := C104_static _ _
  have hmass : ∀ k, (alongZ k).mass = (1 : ℝ) := fun k => by simp [alongZ, Particle.newLepton, Particle.new]
  have hcharge : ∀ k, (alongZ k).charge = (-1 : ℝ) := fun k => by simp [alongZ, Particle.newLepton, Particle.new]
  have hne : ∀ k s : ℝ, 0 < k → 0 ≤ s → (trackZ k 1 s).2 ≠ 0 := fun k s hk hs h0 => by
    have : k + 1 * s = 0 := congrFun h0 2
    linarith
  have hy : ∀ k T : ℝ, ∀ t ∈ Icc (alongZ k).time ((alongZ k).time + T), HasDerivWithinAt (trackZ k 1)
      (motion (alongZ k).mass (lorentz (alongZ k).mass (alongZ k).charge OrderWitness.field) t (trackZ k 1 t))
      (Icc (alongZ k).time ((alongZ k).time + T)) t := by
    intro k T t _
    rw [hmass, hcharge]
    exact trackZ_deriv one_pos t (fun x => OrderWitness.lorentz_one t x _) _
  refine ⟨boostZ.mulVec (fourVector ((alongZ (12 / 5)).time + T)
    (V3.ofVec (trackZ (12 / 5) 1 ((alongZ (12 / 5)).time + T)).1)) 0, ?_⟩
  refine C140_emission_partial boostZ_frame field_same hF hF (s := [-1, 1]) (d := [0, 0]) ⟨rfl, by simp, by simp, by norm_num⟩
    (alongZ_same (k := 12 / 5) (k' := 21 / 20) (e := 13 / 5) (e' := 29 / 20) (by norm_num) (by norm_num) (by norm_num) (by norm_num) (by norm_num)
    (by norm_num)) rfl (by rw [hmass]; norm_num)
    (by simp [alongZ, Particle.newLepton, Particle.new, Particle.leptonKind]) hT (trackZ_start _ 1) (hy _ _)
    (trackZ_start _ 1) (hy _ _) ?_ (fun t ht => hne _ _ (by norm_num) ht.1) (fun t ht => hne _ _ (by norm_num) ht.1)
    (fun t _ => ?_) _ _ (fun n => emissionCfg_run _ _ n) (fun n => emissionCfg_run _ _ n) "0" "0" (by norm_num)
    (by norm_num) _ _
  · rw [show (alongZ (21 / 20)).time = 0 from rfl, zero_add]
  · rw [hmass, etaOf_one]
    refine ⟨by norm_num, by simp, ?_⟩
    simp

namespace Frames

/-- A run with pair production and stochastic emission. -/
noncomputable def pairCfg (field : Field ℝ) (T : ℝ) (n : Nat) : SimCfg ℝ :=
  ⟨lorentzForce, field, T / (n + 1), T,
    [.breitWheeler { Witness.bwCfg (T / (n + 1)) with field := field, tAxis := [-1, 1], tData := [0, 0] },
      .stochastic (Witness.emCfg 1 1 0)]⟩

theorem pairCfg_run (field : Field ℝ) (T : ℝ) (n : Nat) :
    PairRun field [-1, 1] [0, 0] T n (pairCfg field T n) := by
  refine ⟨rfl, le_rfl, [], _, [.stochastic (Witness.emCfg 1 1 0)], rfl, ?_, rfl, rfl, rfl, rfl⟩
  intro y hy
  simp only [List.nil_append, List.mem_singleton] at hy
  exact Or.inl ⟨_, hy⟩

/-- A photon that goes against x. -/
noncomputable def photonX (k : ℝ) : Particle ℝ := .newPhoton ⟨0, 0, 0⟩ ⟨-k, 0, 0⟩ 1 0 false 0

theorem photonX_energy {k : ℝ} (hk : 0 < k) : (photonX k).energy = k := by
  show (⟨-k, 0, 0⟩ : V3 ℝ).mag = k
  simp only [V3.mag, V3.dot, real_add, real_mul, real_sqrt, mul_zero, add_zero, Real.sqrt_mul_self_eq_abs, abs_neg,
    abs_of_pos hk]

end Frames

/-- A photon across an electric field, seen from two frames, meets the hypotheses of `C140_conversion_partial`. -/
example (T : ℝ) (hT : 0 < T) : ∃ T' l,
    Tendsto (fun n => chance (Untouched (pairCfg (staticField ⟨0, 1, 0⟩ ⟨0, 0, 0⟩) T n) (photonX 2) "0" 10 Witness.rng
      (n + 1))) atTop (𝓝 l) ∧
    Tendsto (fun n => chance (Untouched (pairCfg (staticField ⟨0, 5 / 4, 0⟩ ⟨0, 0, -3 / 4⟩) T' n) (photonX 4) "0" 10
      Witness.rng (n + 1))) atTop (𝓝 l) := by
  have hL : IsFrameChange !![5 / 4, -3 / 4, 0, 0; -3 / 4, 5 / 4, 0, 0; 0, 0, 1, 0; 0, 0, 0, 1] :=
    ⟨boost_lorentz, by norm_num⟩
  have hs : SameField !![5 / 4, -3 / 4, 0, 0; -3 / 4, 5 / 4, 0, 0; 0, 0, 1, 0; 0, 0, 0, 1]
      (staticField ⟨0, 1, 0⟩ ⟨0, 0, 0⟩) (staticField ⟨0, 5 / 4, 0⟩ ⟨0, 0, -3 / 4⟩) := by
    intro t x t' x' _
    ext i j
    fin_cases i <;> fin_cases j <;>
      simp [fieldTensor, staticField, Matrix.mul_apply, Fin.sum_univ_succ]
  have hp : SameParticle !![5 / 4, -3 / 4, 0, 0; -3 / 4, 5 / 4, 0, 0; 0, 0, 1, 0; 0, 0, 0, 1] (photonX 2)
      (photonX 4) := by
    refine ⟨rfl, rfl, rfl, rfl, ?_, ?_⟩
    · funext i
      fin_cases i <;> simp [fourPosition, fourVector, photonX, Particle.newPhoton, Particle.new, Matrix.mulVec,
        dotProduct, Fin.sum_univ_succ]
    · unfold fourMomentum
      rw [photonX_energy (by norm_num), photonX_energy (by norm_num)]
      funext i
      fin_cases i <;> simp [fourVector, photonX, Particle.newPhoton, Particle.new, Matrix.mulVec,
        dotProduct, Fin.sum_univ_succ] <;> norm_num
  have hmom : ∀ k, (photonX k).momentum.toVec = ![-k, 0, 0] := fun k => rfl
  have hu : ∀ k, 0 < k → IsUnitAlong ![-1, 0, 0] (photonX k).momentum.toVec := by
    intro k hk
    refine ⟨by simp [len], k, hk, ?_⟩
    rw [hmom]
    funext i
    fin_cases i <;> simp
  have hchi : ∀ t x, chiOf (staticField ⟨0, 1, 0⟩ ⟨0, 0, 0⟩) t x ![-2, 0, 0] = 1 := by
    intro t x
    unfold chiOf
    rw [show electric (staticField ⟨0, 1, 0⟩ ⟨0, 0, 0⟩) t x = ![0, 1, 0] from rfl,
      show magnetic (staticField ⟨0, 1, 0⟩ ⟨0, 0, 0⟩) t x = ![0, 0, 0] from rfl, quantumParameter_eq]
    simp only [V3.ofVec]
    norm_num
    simp only [Matrix.cons_val]
    norm_num
    rw [show (4:ℝ) = 2 ^ 2 by norm_num, Real.sqrt_sq (by norm_num)]
    norm_num
  refine ⟨!![5 / 4, -3 / 4, 0, 0; -3 / 4, 5 / 4, 0, 0; 0, 0, 1, 0; 0, 0, 0, 1].mulVec
    (fourVector ((photonX 2).time + T) (V3.ofVec ((photonX 2).position.toVec + T • ![-1, 0, 0]))) 0, ?_⟩
  refine C140_conversion_partial hL hs (s := [-1, 1]) (d := [0, 0]) ⟨rfl, by simp, by simp, by norm_num⟩ hp rfl
    (by simp [photonX, Particle.newPhoton, Particle.new]) rfl hT (hu 2 (by norm_num)) (hu 4 (by norm_num)) ?_
    (continuousOn_const (c := ![0, 1, 0])) (continuousOn_const (c := ![0, 0, 0]))
    (continuousOn_const (c := ![0, 5 / 4, 0])) (continuousOn_const (c := ![0, 0, -3 / 4])) (fun t _ => ?_) _ _
    (fun n => pairCfg_run _ _ n) (fun n => pairCfg_run _ _ n) "0" "0" (by norm_num) (by norm_num) _ _
  · rw [show (photonX 4).time = 0 from rfl, zero_add]
  · rw [hmom, hchi]
    refine ⟨by norm_num, by simp, ?_⟩
    simp

end QED
