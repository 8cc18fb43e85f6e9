import Verif.Props.Motion
import Mathlib.Analysis.ODE.ExistUnique
import Mathlib.Analysis.SpecialFunctions.Trigonometric.Bounds

set_option autoImplicit false

/-!
# Property C104: trajectories converge to the solution of the equations of motion
-/

namespace QED

open Dbl Matrix

/-- Fields of at most `F` whose values at two times and places differ by at most `K` times their distance. -/
structure SmoothField (field : Field ℝ) (F K : ℝ) : Prop where
  electric_le : ∀ t x, ‖electric field t x‖ ≤ F
  magnetic_le : ∀ t x, ‖magnetic field t x‖ ≤ F
  electric_lip : ∀ t s x y, ‖electric field t x - electric field s y‖ ≤ K * (|t - s| + ‖x - y‖)
  magnetic_lip : ∀ t s x y, ‖magnetic field t x - magnetic field s y‖ ≤ K * (|t - s| + ‖x - y‖)

theorem cross_le (a b : Fin 3 → ℝ) : ‖a ⨯₃ b‖ ≤ 2 * ‖a‖ * ‖b‖ := by
  rw [pi_norm_le_iff_of_nonneg (by positivity), cross_apply]
  have key : ∀ i j k l : Fin 3, ‖a i * b j - a k * b l‖ ≤ 2 * ‖a‖ * ‖b‖ := by
    intro i j k l
    refine (norm_sub_le _ _).trans ?_
    rw [norm_mul, norm_mul]
    have h1 := mul_le_mul (norm_le_pi_norm a i) (norm_le_pi_norm b j) (norm_nonneg _) (norm_nonneg _)
    have h2 := mul_le_mul (norm_le_pi_norm a k) (norm_le_pi_norm b l) (norm_nonneg _) (norm_nonneg _)
    linarith
  intro i
  fin_cases i
  · exact key 1 2 2 1
  · exact key 2 0 0 2
  · exact key 0 1 1 0

theorem comp_le_root (m : ℝ) (p : Fin 3 → ℝ) (i : Fin 3) : |p i| ≤ Real.sqrt (m ^ 2 + p ⬝ᵥ p) := by
  refine Real.abs_le_sqrt ?_
  have h : p ⬝ᵥ p = p 0 ^ 2 + p 1 ^ 2 + p 2 ^ 2 := by
    simp [dotProduct, Fin.sum_univ_succ]; ring
  rw [h]
  fin_cases i <;> simp <;> nlinarith [sq_nonneg m, sq_nonneg (p 0), sq_nonneg (p 1), sq_nonneg (p 2)]

theorem velocity_le {m : ℝ} (hm : 0 < m) (p : Fin 3 → ℝ) : ‖velocity m p‖ ≤ 1 := by
  have hd : 0 ≤ p ⬝ᵥ p := by
    simp [dotProduct, Fin.sum_univ_succ]
    nlinarith [mul_self_nonneg (p 0), mul_self_nonneg (p 1), mul_self_nonneg (p 2)]
  have hs : 0 < Real.sqrt (m ^ 2 + p ⬝ᵥ p) := Real.sqrt_pos.2 (by positivity)
  rw [pi_norm_le_iff_of_nonneg zero_le_one]
  intro i
  rw [velocity, Pi.smul_apply, smul_eq_mul, norm_mul, norm_inv, Real.norm_eq_abs, Real.norm_eq_abs,
    abs_of_pos hs, inv_mul_le_one₀ hs]
  exact comp_le_root m p i

theorem velocity_lip {m : ℝ} (hm : 0 < m) (p q : Fin 3 → ℝ) :
    ‖velocity m p - velocity m q‖ ≤ 4 / m * ‖p - q‖ := by
  have hd : ∀ p : Fin 3 → ℝ, 0 ≤ p ⬝ᵥ p := by
    intro p
    simp [dotProduct, Fin.sum_univ_succ]
    nlinarith [mul_self_nonneg (p 0), mul_self_nonneg (p 1), mul_self_nonneg (p 2)]
  obtain ⟨s, hs⟩ : ∃ s, s = Real.sqrt (m ^ 2 + p ⬝ᵥ p) := ⟨_, rfl⟩
  obtain ⟨r, hr⟩ : ∃ r, r = Real.sqrt (m ^ 2 + q ⬝ᵥ q) := ⟨_, rfl⟩
  have hdp := hd p
  have hdq := hd q
  have sm : m ≤ s := by rw [hs]; exact Real.le_sqrt_of_sq_le (by linarith)
  have rm : m ≤ r := by rw [hr]; exact Real.le_sqrt_of_sq_le (by linarith)
  have s0 : 0 < s := by linarith
  have r0 : 0 < r := by linarith
  have s2 : s ^ 2 = m ^ 2 + p ⬝ᵥ p := by rw [hs]; exact Real.sq_sqrt (by positivity)
  have r2 : r ^ 2 = m ^ 2 + q ⬝ᵥ q := by rw [hr]; exact Real.sq_sqrt (by positivity)
  have cp : ∀ i, |p i| ≤ s := fun i => by rw [hs]; exact comp_le_root m p i
  have cq : ∀ i, |q i| ≤ r := fun i => by rw [hr]; exact comp_le_root m q i
  have hc : ∀ i, |p i - q i| ≤ ‖p - q‖ := fun i => by
    have := norm_le_pi_norm (p - q) i
    rwa [Pi.sub_apply, Real.norm_eq_abs] at this
  have hN : 0 ≤ ‖p - q‖ := norm_nonneg _
  have hsr : |s - r| ≤ 3 * ‖p - q‖ := by
    have h1 : (s - r) * (s + r) = (p 0 - q 0) * (p 0 + q 0) + (p 1 - q 1) * (p 1 + q 1) +
        (p 2 - q 2) * (p 2 + q 2) := by
      have e : ∀ v : Fin 3 → ℝ, v ⬝ᵥ v = v 0 ^ 2 + v 1 ^ 2 + v 2 ^ 2 := by
        intro v; simp [dotProduct, Fin.sum_univ_succ]; ring
      rw [e] at s2 r2
      nlinarith
    have h2 : ∀ i, |(p i - q i) * (p i + q i)| ≤ ‖p - q‖ * (s + r) := by
      intro i
      rw [abs_mul]
      refine mul_le_mul (hc i) ((abs_add_le _ _).trans (add_le_add (cp i) (cq i))) (abs_nonneg _) hN
    have h3 : |s - r| * (s + r) ≤ 3 * ‖p - q‖ * (s + r) := by
      rw [← abs_of_pos (by linarith : 0 < s + r), ← abs_mul, h1, abs_of_pos (by linarith : 0 < s + r)]
      refine (abs_add_three _ _ _).trans ?_
      have := h2 0
      have := h2 1
      have := h2 2
      linarith
    exact le_of_mul_le_mul_right h3 (by linarith)
  rw [pi_norm_le_iff_of_nonneg (by positivity)]
  intro i
  rw [Pi.sub_apply, velocity, velocity, Pi.smul_apply, Pi.smul_apply, smul_eq_mul, smul_eq_mul, ← hs, ← hr,
    Real.norm_eq_abs]
  have e : s⁻¹ * p i - r⁻¹ * q i = (p i - q i) / s + q i / r * ((r - s) / s) := by
    field_simp
    ring
  rw [e]
  refine (abs_add_le _ _).trans ?_
  rw [abs_div, abs_mul, abs_div, abs_div, abs_of_pos s0, abs_of_pos r0, abs_sub_comm r s]
  have b1 : |p i - q i| / s ≤ ‖p - q‖ / m := div_le_div₀ hN (hc i) hm sm
  have b2 : |q i| / r ≤ 1 := (div_le_one r0).2 (cq i)
  have b3 : |s - r| / s ≤ 3 * ‖p - q‖ / m := div_le_div₀ (by positivity) hsr hm sm
  have b4 : |q i| / r * (|s - r| / s) ≤ 1 * (3 * ‖p - q‖ / m) :=
    mul_le_mul b2 b3 (by positivity) zero_le_one
  calc _ ≤ ‖p - q‖ / m + 1 * (3 * ‖p - q‖ / m) := add_le_add b1 b4
    _ = 4 / m * ‖p - q‖ := by ring

/-- The Lipschitz constant of the equations of motion. -/
noncomputable def motionConst (m q F K : ℝ) : ℝ := 4 / m + |q| * (3 * K + 8 * F / m)

theorem smooth_nonneg {field : Field ℝ} {F K : ℝ} (h : SmoothField field F K) : 0 ≤ F ∧ 0 ≤ K := by
  refine ⟨(norm_nonneg _).trans (h.electric_le 0 0), ?_⟩
  have := (norm_nonneg _).trans (h.electric_lip 1 0 0 0)
  simpa using this

theorem motion_lipschitz {field : Field ℝ} {F K : ℝ} (h : SmoothField field F K) {m : ℝ} (hm : 0 < m) (q : ℝ) :
    LipschitzRHS (motion m (lorentz m q field)) (motionConst m q F K) := by
  obtain ⟨hF, hK⟩ := smooth_nonneg h
  intro t s y z
  obtain ⟨x, p⟩ := y
  obtain ⟨x', p'⟩ := z
  have d1 : ‖x - x'‖ ≤ ‖((x, p) : Phase) - (x', p')‖ := norm_fst_le (((x, p) : Phase) - (x', p'))
  have d2 : ‖p - p'‖ ≤ ‖((x, p) : Phase) - (x', p')‖ := norm_snd_le (((x, p) : Phase) - (x', p'))
  obtain ⟨D, hD⟩ : ∃ D, D = |t - s| + ‖((x, p) : Phase) - (x', p')‖ := ⟨_, rfl⟩
  rw [← hD]
  have ht := abs_nonneg (t - s)
  have dx : |t - s| + ‖x - x'‖ ≤ D := by linarith
  have dp : ‖p - p'‖ ≤ D := by linarith
  have D0 : 0 ≤ D := (norm_nonneg _).trans dp
  have v1 : ‖velocity m p - velocity m p'‖ ≤ 4 / m * D :=
    (velocity_lip hm p p').trans (by gcongr)
  have a1 : ‖electric field t x - electric field s x'‖ ≤ K * D := (h.electric_lip _ _ _ _).trans (by gcongr)
  have a2 : ‖magnetic field t x - magnetic field s x'‖ ≤ K * D := (h.magnetic_lip _ _ _ _).trans (by gcongr)
  have c1 : ‖(velocity m p - velocity m p') ⨯₃ magnetic field t x‖ ≤ 2 * (4 / m * D) * F := by
    refine (cross_le _ _).trans ?_
    have := h.magnetic_le t x
    gcongr
  have c2 : ‖velocity m p' ⨯₃ (magnetic field t x - magnetic field s x')‖ ≤ 2 * 1 * (K * D) := by
    refine (cross_le _ _).trans ?_
    have := velocity_le hm p'
    gcongr
  rw [Prod.norm_def]
  refine max_le ?_ ?_
  · refine v1.trans ?_
    unfold motionConst
    have : 0 ≤ |q| * (3 * K + 8 * F / m) := by positivity
    nlinarith
  · show ‖lorentz m q field t x p - lorentz m q field s x' p'‖ ≤ _
    unfold lorentz
    rw [← smul_sub, norm_smul, Real.norm_eq_abs]
    have e : electric field t x + velocity m p ⨯₃ magnetic field t x -
        (electric field s x' + velocity m p' ⨯₃ magnetic field s x') =
        (electric field t x - electric field s x') +
          (velocity m p - velocity m p') ⨯₃ magnetic field t x +
          velocity m p' ⨯₃ (magnetic field t x - magnetic field s x') := by
      rw [map_sub, map_sub, LinearMap.sub_apply]
      abel
    rw [e]
    have n := (norm_add_le (electric field t x - electric field s x' +
      (velocity m p - velocity m p') ⨯₃ magnetic field t x)
      (velocity m p' ⨯₃ (magnetic field t x - magnetic field s x'))).trans
      (add_le_add_left (norm_add_le _ _) _)
    have n2 : _ ≤ K * D + 2 * (4 / m * D) * F + 2 * 1 * (K * D) :=
      n.trans (by linarith)
    calc _ ≤ |q| * (K * D + 2 * (4 / m * D) * F + 2 * 1 * (K * D)) :=
          mul_le_mul_of_nonneg_left n2 (abs_nonneg q)
      _ = |q| * (3 * K + 8 * F / m) * D := by ring
      _ ≤ motionConst m q F K * D := by
          unfold motionConst
          have : 0 ≤ 4 / m * D := by positivity
          linarith

theorem motion_le {field : Field ℝ} {F K : ℝ} (h : SmoothField field F K) {m : ℝ} (hm : 0 < m) (q t : ℝ)
    (y : Phase) : ‖motion m (lorentz m q field) t y‖ ≤ 1 + 3 * |q| * F := by
  obtain ⟨hF, -⟩ := smooth_nonneg h
  rw [Prod.norm_def]
  refine max_le ((velocity_le hm y.2).trans ?_) ?_
  · have : 0 ≤ 3 * |q| * F := by positivity
    linarith
  · show ‖lorentz m q field t y.1 y.2‖ ≤ _
    unfold lorentz
    rw [norm_smul, Real.norm_eq_abs]
    have c : ‖velocity m y.2 ⨯₃ magnetic field t y.1‖ ≤ 2 * 1 * F := by
      refine (cross_le _ _).trans ?_
      have := velocity_le hm y.2
      have := h.magnetic_le t y.1
      gcongr
    have n := norm_add_le (electric field t y.1) (velocity m y.2 ⨯₃ magnetic field t y.1)
    have := h.electric_le t y.1
    have : ‖electric field t y.1 + velocity m y.2 ⨯₃ magnetic field t y.1‖ ≤ 3 * F := by linarith
    have := mul_le_mul_of_nonneg_left this (abs_nonneg q)
    linarith

/-- C104: if `y` solves the equations of motion with the Lorentz force from the start of a living particle
with mass over a time `T`, then after `n` pushes of `dt`, with `n dt` at most `T`, no component of the
position or momentum is off by more than a constant times `dt`. The constant depends only on the mass,
the charge, the fields and `T`. -/
theorem C104_converges {field : Field ℝ} {F K : ℝ} (hf : SmoothField field F K) (p : Particle ℝ)
    (ha : p.isAlive = true) (hm : 0 < p.mass) {T : ℝ} {y : ℝ → Phase}
    (hy0 : y p.time = (p.position.toVec, p.momentum.toVec))
    (hy : ∀ s ∈ Set.Icc p.time (p.time + T),
      HasDerivWithinAt y (motion p.mass (lorentz p.mass p.charge field) s (y s))
        (Set.Icc p.time (p.time + T)) s)
    {dt : ℝ} (hdt : 0 ≤ dt) (n : Nat) (hn : n * dt ≤ T) :
    let r := (pushParticle lorentzForce field dt)^[n] p
    let C := 3 / 2 * motionConst p.mass p.charge F K * (2 + 3 * |p.charge| * F) * T *
      Real.exp (2 * motionConst p.mass p.charge F K * T)
    r.time = p.time + n * dt ∧
    ∀ i, |r.position.toVec i - (y r.time).1 i| ≤ C * dt ∧ |r.momentum.toVec i - (y r.time).2 i| ≤ C * dt := by
  intro r C
  obtain ⟨h1, h2, -⟩ := C103_pushes lorentzForce field dt p ha hm n
  refine ⟨h2, ?_⟩
  obtain ⟨hF, hK⟩ := smooth_nonneg hf
  have hL : 0 ≤ motionConst p.mass p.charge F K := by unfold motionConst; positivity
  have hrhs : (motion p.mass fun s y k => (lorentzForce p.mass p.charge (V3.ofVec k) (field s (V3.ofVec y)).1
      (field s (V3.ofVec y)).2).toVec) = motion p.mass (lorentz p.mass p.charge field) := by
    funext s z
    unfold motion
    dsimp only
    rw [C103_lorentz hm p.charge field s (V3.ofVec z.1) (V3.ofVec z.2), toVec_ofVec, toVec_ofVec]
  rw [hrhs, ← hy0] at h1
  have hconv := rk_converges hL (motion_lipschitz hf hm p.charge) hy
    (fun s _ => motion_le hf hm p.charge s (y s)) hdt n hn
  rw [← h1, ← h2] at hconv
  have hC : 3 / 2 * motionConst p.mass p.charge F K * (1 + (1 + 3 * |p.charge| * F)) * T *
      Real.exp (2 * motionConst p.mass p.charge F K * T) * dt = C * dt := by
    show _ = 3 / 2 * motionConst p.mass p.charge F K * (2 + 3 * |p.charge| * F) * T *
      Real.exp (2 * motionConst p.mass p.charge F K * T) * dt
    ring
  rw [hC] at hconv
  intro i
  have f1 := (norm_fst_le _).trans hconv
  have f2 := (norm_snd_le _).trans hconv
  exact ⟨(norm_le_pi_norm _ i).trans f1, (norm_le_pi_norm _ i).trans f2⟩

/-- The equations of motion have a solution from any start, over any time. -/
theorem motion_solution {field : Field ℝ} {F K : ℝ} (h : SmoothField field F K) {m : ℝ} (hm : 0 < m) (q t : ℝ)
    (y0 : Phase) {T : ℝ} (hT : 0 ≤ T) :
    ∃ y : ℝ → Phase, y t = y0 ∧ ∀ s ∈ Set.Icc t (t + T),
      HasDerivWithinAt y (motion m (lorentz m q field) s (y s)) (Set.Icc t (t + T)) s := by
  obtain ⟨hF, hK⟩ := smooth_nonneg h
  have hL : 0 ≤ motionConst m q F K := by unfold motionConst; positivity
  have hM : 0 ≤ 1 + 3 * |q| * F := by positivity
  have hlip := motion_lipschitz h hm q
  have hpl : IsPicardLindelof (motion m (lorentz m q field)) (tmin := t) (tmax := t + T) ⟨t, le_rfl, by linarith⟩
      y0 ⟨(1 + 3 * |q| * F) * T, by positivity⟩ 0 ⟨1 + 3 * |q| * F, hM⟩ ⟨motionConst m q F K, hL⟩ := by
    refine ⟨?_, ?_, ?_, ?_⟩
    · intro s _
      refine LipschitzOnWith.of_dist_le_mul fun a _ b _ => ?_
      rw [dist_eq_norm, dist_eq_norm]
      have := hlip s s a b
      rwa [sub_self, abs_zero, zero_add] at this
    · intro a _
      have : LipschitzWith ⟨motionConst m q F K, hL⟩ fun s => motion m (lorentz m q field) s a := by
        refine LipschitzWith.of_dist_le_mul fun s r => ?_
        rw [dist_eq_norm, Real.dist_eq]
        have := hlip s r a a
        rwa [sub_self, norm_zero, add_zero] at this
      exact this.continuous.continuousOn
    · intro s _ a _
      exact motion_le h hm q s a
    · show (1 + 3 * |q| * F) * max (t + T - t) (t - t) ≤ (1 + 3 * |q| * F) * T - 0
      rw [add_sub_cancel_left, sub_self, max_eq_left hT, sub_zero]
  exact hpl.exists_eq_forall_mem_Icc_hasDerivWithinAt₀

/-- C104 without supposing a solution: in smooth fields the equations of motion have a solution from the start
of the particle, and as the step `T / n` goes to zero, the computed position and momentum at the end go to those
of the solution. -/
theorem C104_limit {field : Field ℝ} {F K : ℝ} (hf : SmoothField field F K) (p : Particle ℝ)
    (ha : p.isAlive = true) (hm : 0 < p.mass) {T : ℝ} (hT : 0 ≤ T) :
    ∃ y : ℝ → Phase, y p.time = (p.position.toVec, p.momentum.toVec) ∧
      (∀ s ∈ Set.Icc p.time (p.time + T),
        HasDerivWithinAt y (motion p.mass (lorentz p.mass p.charge field) s (y s))
          (Set.Icc p.time (p.time + T)) s) ∧
      Filter.Tendsto (fun n : Nat => ((pushParticle lorentzForce field (T / (n + 1)))^[n + 1] p).position.toVec)
        Filter.atTop (nhds (y (p.time + T)).1) ∧
      Filter.Tendsto (fun n : Nat => ((pushParticle lorentzForce field (T / (n + 1)))^[n + 1] p).momentum.toVec)
        Filter.atTop (nhds (y (p.time + T)).2) := by
  obtain ⟨y, hy0, hy⟩ := motion_solution hf hm p.charge p.time (p.position.toVec, p.momentum.toVec) hT
  refine ⟨y, hy0, hy, ?_⟩
  obtain ⟨C, hC⟩ : ∃ C, C = 3 / 2 * motionConst p.mass p.charge F K * (2 + 3 * |p.charge| * F) * T *
      Real.exp (2 * motionConst p.mass p.charge F K * T) := ⟨_, rfl⟩
  have hlim : Filter.Tendsto (fun n : Nat => C * (T / ((n : ℝ) + 1))) Filter.atTop (nhds 0) := by
    have := (tendsto_one_div_add_atTop_nhds_zero_nat (𝕜 := ℝ)).const_mul (C * T)
    rw [mul_zero] at this
    refine this.congr fun n => ?_
    ring
  have key : ∀ n : Nat, ∀ i,
      |((pushParticle lorentzForce field (T / (n + 1)))^[n + 1] p).position.toVec i - (y (p.time + T)).1 i| ≤
        C * (T / ((n : ℝ) + 1)) ∧
      |((pushParticle lorentzForce field (T / (n + 1)))^[n + 1] p).momentum.toVec i - (y (p.time + T)).2 i| ≤
        C * (T / ((n : ℝ) + 1)) := by
    intro n
    have hn : ((n + 1 : Nat) : ℝ) * (T / (n + 1)) = T := by
      push_cast
      field_simp
    obtain ⟨k1, k2⟩ := C104_converges hf p ha hm hy0 hy (dt := T / (n + 1)) (by positivity) (n + 1) hn.le
    rw [k1, hn, ← hC] at k2
    exact k2
  constructor
  · rw [tendsto_pi_nhds]
    intro i
    rw [tendsto_iff_dist_tendsto_zero]
    exact squeeze_zero (fun _ => dist_nonneg) (fun n => (key n i).1) hlim
  · rw [tendsto_pi_nhds]
    intro i
    rw [tendsto_iff_dist_tendsto_zero]
    exact squeeze_zero (fun _ => dist_nonneg) (fun n => (key n i).2) hlim

/-! ## Fields of the program that are smooth -/

/-- C104 applies to all static fields. -/
theorem C104_static (e b : V3 ℝ) : ∃ F, SmoothField (staticField e b) F 0 := by
  refine ⟨max ‖e.toVec‖ ‖b.toVec‖, fun _ _ => le_max_left _ _, fun _ _ => le_max_right _ _, ?_, ?_⟩ <;>
    · intro t s x y
      simp [electric, magnetic, staticField]

/-- C104 applies to all plane waves. -/
theorem C104_plane (f : PlaneField ℝ) : ∃ F K, SmoothField f.getField F K := by
  have amp : ∀ t x, |f.amplitude t x| ≤ |f.maxE| := by
    intro t x
    simp only [PlaneField.amplitude, real_mul, real_cos, abs_mul]
    exact mul_le_of_le_one_right (abs_nonneg _) (Real.abs_cos_le_one _)
  obtain ⟨R, hR⟩ : ∃ R, R = |f.rotation.m20| + |f.rotation.m21| + |f.rotation.m22| := ⟨_, rfl⟩
  have R0 : 0 ≤ R := by rw [hR]; positivity
  have lip : ∀ t s (x y : Fin 3 → ℝ), |f.amplitude t (V3.ofVec x) - f.amplitude s (V3.ofVec y)| ≤
      |f.maxE| * |f.waveNum| * (1 + R) * (|t - s| + ‖x - y‖) := by
    intro t s x y
    have hc : ∀ i, |x i - y i| ≤ ‖x - y‖ := fun i => by
      have := norm_le_pi_norm (x - y) i
      rwa [Pi.sub_apply, Real.norm_eq_abs] at this
    simp only [PlaneField.amplitude, real_mul, real_cos, real_sub]
    rw [← mul_sub, abs_mul]
    have h1 := Real.abs_cos_sub_cos_le (((f.rotation.mulVec (V3.ofVec x)).z - t) * f.waveNum)
      (((f.rotation.mulVec (V3.ofVec y)).z - s) * f.waveNum)
    have h2 : |((f.rotation.mulVec (V3.ofVec x)).z - t) * f.waveNum -
        ((f.rotation.mulVec (V3.ofVec y)).z - s) * f.waveNum| ≤
        |f.waveNum| * ((1 + R) * (|t - s| + ‖x - y‖)) := by
      rw [← sub_mul, abs_mul, mul_comm]
      refine mul_le_mul_of_nonneg_left ?_ (abs_nonneg _)
      have e : (f.rotation.mulVec (V3.ofVec x)).z - t - ((f.rotation.mulVec (V3.ofVec y)).z - s) =
          f.rotation.m20 * (x 0 - y 0) + f.rotation.m21 * (x 1 - y 1) + f.rotation.m22 * (x 2 - y 2) +
            (s - t) := by
        simp only [M3.mulVec, M3.acc3, V3.ofVec, real_add, real_mul, real_lit, Rat.cast_zero]
        ring
      rw [e]
      refine (abs_add_le _ _).trans ?_
      have a0 := abs_add_three (f.rotation.m20 * (x 0 - y 0)) (f.rotation.m21 * (x 1 - y 1))
        (f.rotation.m22 * (x 2 - y 2))
      rw [abs_mul, abs_mul, abs_mul] at a0
      have b0 := mul_le_mul_of_nonneg_left (hc 0) (abs_nonneg f.rotation.m20)
      have b1 := mul_le_mul_of_nonneg_left (hc 1) (abs_nonneg f.rotation.m21)
      have b2 := mul_le_mul_of_nonneg_left (hc 2) (abs_nonneg f.rotation.m22)
      have c0 : R * ‖x - y‖ = |f.rotation.m20| * ‖x - y‖ + |f.rotation.m21| * ‖x - y‖ +
          |f.rotation.m22| * ‖x - y‖ := by rw [hR]; ring
      rw [abs_sub_comm s t]
      have d0 := abs_nonneg (t - s)
      have d1 := norm_nonneg (x - y)
      nlinarith [mul_nonneg R0 d0]
    calc |f.maxE| * _ ≤ |f.maxE| * (|f.waveNum| * ((1 + R) * (|t - s| + ‖x - y‖))) :=
          mul_le_mul_of_nonneg_left (h1.trans h2) (abs_nonneg _)
      _ = _ := by ring
  obtain ⟨u, hu⟩ : ∃ u, u = (f.rotationInv.mulVec ⟨Real.cos f.polAngle, Real.sin f.polAngle, 0⟩).toVec := ⟨_, rfl⟩
  obtain ⟨w, hw⟩ : ∃ w, w = (f.rotationInv.mulVec ⟨Real.sin f.polAngle, Real.cos f.polAngle, 0⟩).toVec := ⟨_, rfl⟩
  have hE : ∀ t x, electric f.getField t x = f.amplitude t (V3.ofVec x) • u := by
    intro t x
    rw [hu]
    funext i
    fin_cases i <;> simp [electric, PlaneField.getField, M3.mulVec, M3.acc3, V3.toVec] <;> ring
  have hB : ∀ t x, magnetic f.getField t x = f.amplitude t (V3.ofVec x) • w := by
    intro t x
    rw [hw]
    funext i
    fin_cases i <;> simp [magnetic, PlaneField.getField, M3.mulVec, M3.acc3, V3.toVec] <;> ring
  have u0 := norm_nonneg u
  have w0 := norm_nonneg w
  refine ⟨|f.maxE| * (‖u‖ + ‖w‖), |f.maxE| * |f.waveNum| * (1 + R) * (‖u‖ + ‖w‖), ?_, ?_, ?_, ?_⟩
  · intro t x
    rw [hE, norm_smul, Real.norm_eq_abs]
    exact mul_le_mul (amp _ _) (by linarith) u0 (abs_nonneg _)
  · intro t x
    rw [hB, norm_smul, Real.norm_eq_abs]
    exact mul_le_mul (amp _ _) (by linarith) w0 (abs_nonneg _)
  · intro t s x y
    rw [hE, hE, ← sub_smul, norm_smul, Real.norm_eq_abs]
    refine (mul_le_mul (lip t s x y) (by linarith : ‖u‖ ≤ ‖u‖ + ‖w‖) u0 (by positivity)).trans (le_of_eq (by ring))
  · intro t s x y
    rw [hB, hB, ← sub_smul, norm_smul, Real.norm_eq_abs]
    refine (mul_le_mul (lip t s x y) (by linarith : ‖w‖ ≤ ‖u‖ + ‖w‖) w0 (by positivity)).trans (le_of_eq (by ring))

/-- A particle that meets the hypotheses of `C104_converges` and `C104_limit`, in a magnetic field. -/
example : ∃ (field : Field ℝ) (F K : ℝ) (p : Particle ℝ), SmoothField field F K ∧ p.isAlive = true ∧ 0 < p.mass ∧
    p.charge = -1 ∧ p.momentum ≠ ⟨0, 0, 0⟩ ∧ ∃ y : ℝ → Phase, y p.time = (p.position.toVec, p.momentum.toVec) ∧
      ∀ s ∈ Set.Icc p.time (p.time + 1), HasDerivWithinAt y
        (motion p.mass (lorentz p.mass p.charge field) s (y s)) (Set.Icc p.time (p.time + 1)) s := by
  obtain ⟨F, hF⟩ := C104_static ⟨0, 0, 0⟩ ⟨0, 1, 0⟩
  refine ⟨_, F, 0, Witness.electron, hF, ?_, ?_, ?_, ?_,
    motion_solution hF ?_ _ _ _ zero_le_one⟩ <;>
  simp [Witness.electron, Particle.newLepton, Particle.new]

end QED
