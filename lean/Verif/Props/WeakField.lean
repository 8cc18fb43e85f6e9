import Verif.Props.OrderFields
import Verif.Props.Convergence
import Mathlib.Analysis.ODE.Gronwall

set_option autoImplicit false

/-!
# Property C163: semiclassical radiation reaction is classical in weak fields

The reaction force of the modified Landau pusher is that of the Landau pusher times a factor that is at least `1 - 8 eta`
and at most 1 (C163_weak): in weak fields they are the same. In strong fields the factor falls like `eta^(-4/3)`
(C163_strong). So the computed tracks of classical and semiclassical simulations differ by what a force of
`16/3 alpha eta³` can do, and the error of fourth order of the pushers (C163_motion).
-/

namespace QED

open Set Matrix

/-! ## The factor -/

theorem gauntFactor_base {η : ℝ} (h : 0 ≤ η) : 1 + 2.44 * η ^ 2 ≤ 1 + 4.8 * (1 + η) * Real.log (1 + 1.7 * η) + 2.44 * η ^ 2 ∧
    1 + 4.8 * (1 + η) * Real.log (1 + 1.7 * η) + 2.44 * η ^ 2 ≤ 1 + 8.16 * η + 10.6 * η ^ 2 := by
  have h0 : 0 ≤ Real.log (1 + 1.7 * η) := Real.log_nonneg (by linarith)
  have h1 : Real.log (1 + 1.7 * η) ≤ 1.7 * η := by
    have := Real.log_le_sub_one_of_pos (show 0 < 1 + 1.7 * η by linarith)
    linarith
  have h2 : 0 ≤ 4.8 * (1 + η) := by linarith
  have h3 := mul_nonneg h2 h0
  have h4 := mul_le_mul_of_nonneg_left h1 h2
  constructor
  · linarith
  · nlinarith

theorem gauntFactor_weak {η : ℝ} (h : 0 ≤ η) : 1 - 8 * η ≤ gauntFactor η ∧ 0 < gauntFactor η ∧ gauntFactor η ≤ 1 := by
  obtain ⟨h1, h2⟩ := gauntFactor_base h
  unfold gauntFactor
  set x := 1 + 4.8 * (1 + η) * Real.log (1 + 1.7 * η) + 2.44 * η ^ 2
  have hx : 1 ≤ x := by nlinarith
  have hpos : 0 < x ^ (-2 / 3 : ℝ) := Real.rpow_pos_of_pos (by linarith) _
  refine ⟨?_, hpos, Real.rpow_le_one_of_one_le_of_nonpos hx (by norm_num)⟩
  by_cases hη : 1 / 8 ≤ η
  · linarith
  · rw [Real.rpow_def_of_pos (by linarith)]
    have h3 := Real.add_one_le_exp (Real.log x * (-2 / 3))
    have h4 := Real.log_le_sub_one_of_pos (show 0 < x by linarith)
    nlinarith

theorem gauntFactor_strong {η : ℝ} (h : 0 < η) :
    1 / 5 * (1 + η) ^ (-4 / 3 : ℝ) ≤ gauntFactor η ∧ gauntFactor η ≤ η ^ (-4 / 3 : ℝ) := by
  obtain ⟨h1, h2⟩ := gauntFactor_base h.le
  unfold gauntFactor
  set x := 1 + 4.8 * (1 + η) * Real.log (1 + 1.7 * η) + 2.44 * η ^ 2
  have e : ∀ y : ℝ, 0 ≤ y → (y ^ 2) ^ (-2 / 3 : ℝ) = y ^ (-4 / 3 : ℝ) := by
    intro y hy
    rw [← Real.rpow_natCast, ← Real.rpow_mul hy]
    norm_num
  constructor
  · have h3 : x ≤ 11 * (1 + η) ^ 2 := by nlinarith
    refine le_trans ?_ (Real.rpow_le_rpow_of_nonpos (by nlinarith) h3 (by norm_num))
    rw [Real.mul_rpow (by norm_num) (by positivity), e _ (by linarith)]
    refine mul_le_mul_of_nonneg_right ?_ (Real.rpow_nonneg (by linarith) _)
    rw [show (11 : ℝ) ^ (-2 / 3 : ℝ) = ((11 : ℝ) ^ (2 / 3 : ℝ))⁻¹ by
      rw [← Real.rpow_neg (by norm_num)]; norm_num, one_div]
    refine inv_anti₀ (by positivity) ?_
    have : (11 : ℝ) ^ (2 / 3 : ℝ) ≤ (125 : ℝ) ^ (1 / 3 : ℝ) := by
      rw [show (2 / 3 : ℝ) = 2 * (1 / 3) by norm_num, Real.rpow_mul (by norm_num)]
      exact Real.rpow_le_rpow (by positivity) (by norm_num) (by norm_num)
    rwa [show (125 : ℝ) = 5 ^ (3 : ℝ) by norm_num, ← Real.rpow_mul (by norm_num), show (3 : ℝ) * (1 / 3) = 1 by norm_num,
      Real.rpow_one] at this
  · rw [← e η h.le]
    exact Real.rpow_le_rpow_of_nonpos (by positivity) (by nlinarith) (by norm_num)

/-! ## The forces -/

/-- **C163**: the modified Landau pusher adds to the Lorentz force what the Landau pusher adds, times a factor between
`1 - 8 eta` and 1; eta is the invariant quantum parameter. -/
theorem C163_weak {m : ℝ} (hm : 0 < m) (q : ℝ) (p e b : V3 ℝ) (hp : p ≠ ⟨0, 0, 0⟩) :
    ∃ g : ℝ, 1 - 8 * quantumParameter (fieldTensor e b) (fourVector (lorentzFactor m p) ⟨p.x / m, p.y / m, p.z / m⟩) ≤ g ∧
      0 < g ∧ g ≤ 1 ∧
      (modLandauForce m q p e b).toVec - (lorentzForce m q p e b).toVec =
        g • ((landauForce m q p e b).toVec - (lorentzForce m q p e b).toVec) := by
  obtain ⟨eta, n, h1, -, h3, h4, h5⟩ := C103_reaction hm q p e b hp
  rw [← h1]
  have h0 : 0 ≤ eta := h1 ▸ Real.sqrt_nonneg _
  obtain ⟨g1, g2, g3⟩ := gauntFactor_weak h0
  refine ⟨gauntFactor eta, g1, g2, g3, ?_⟩
  rw [h4, h5, sub_sub_cancel_left, sub_sub_cancel_left, smul_neg, smul_smul]
  unfold gauntFactor
  congr 2
  ring

/-- **C163** in strong fields: the factor falls like `eta^(-4/3)`, so that the force grows like `eta^(2/3)`. -/
theorem C163_strong {m : ℝ} (hm : 0 < m) (q : ℝ) (p e b : V3 ℝ) (hp : p ≠ ⟨0, 0, 0⟩) {eta : ℝ}
    (heta : eta = quantumParameter (fieldTensor e b) (fourVector (lorentzFactor m p) ⟨p.x / m, p.y / m, p.z / m⟩))
    (hpos : 0 < eta) :
    ∃ g : ℝ, 1 / 5 * (1 + eta) ^ (-4 / 3 : ℝ) ≤ g ∧ g ≤ eta ^ (-4 / 3 : ℝ) ∧
      (modLandauForce m q p e b).toVec - (lorentzForce m q p e b).toVec =
        g • ((landauForce m q p e b).toVec - (lorentzForce m q p e b).toVec) := by
  obtain ⟨eta', n, h1, -, h3, h4, h5⟩ := C103_reaction hm q p e b hp
  rw [← heta] at h1
  subst h1
  obtain ⟨g1, g2⟩ := gauntFactor_strong hpos
  refine ⟨gauntFactor eta', g1, g2, ?_⟩
  rw [h4, h5, sub_sub_cancel_left, sub_sub_cancel_left, smul_neg, smul_smul]
  unfold gauntFactor
  congr 2
  ring

/-! ## The motions -/

/-- The two forces of motion differ by at most `16/3 alpha eta³`. -/
theorem reaction_near (m q : ℝ) (field : Field ℝ) (t : ℝ) (x p : Fin 3 → ℝ) :
    ‖reactionForce gauntFactor m q field t x p - reactionForce (fun _ => 1) m q field t x p‖ ≤
      16 / 3 * (Units.alpha : ℝ) * etaAt m field t x p ^ 3 := by
  have h0 : 0 ≤ etaAt m field t x p := Real.sqrt_nonneg _
  obtain ⟨g1, g2, g3⟩ := gauntFactor_weak h0
  have ha : (0 : ℝ) < Units.alpha := by rw [OrderWitness.alpha_eq]; norm_num
  unfold reactionForce
  rw [sub_sub_sub_cancel_left, ← sub_smul, norm_smul, ← sub_div, Real.norm_eq_abs]
  have hn : ‖p‖ ≤ Real.sqrt (p ⬝ᵥ p) := by
    rw [pi_norm_le_iff_of_nonneg (Real.sqrt_nonneg _)]
    intro i
    rw [Real.norm_eq_abs]
    refine Real.abs_le_sqrt ?_
    simp only [dotProduct, Fin.sum_univ_three]
    have h : ∀ j, p j ^ 2 = p j * p j := fun j => pow_two _
    rw [h]
    have := mul_self_nonneg (p 0)
    have := mul_self_nonneg (p 1)
    have := mul_self_nonneg (p 2)
    match i with
    | 0 => linarith
    | 1 => linarith
    | 2 => linarith
  set η := etaAt m field t x p
  set s := Real.sqrt (p ⬝ᵥ p)
  have hs : 0 ≤ s := Real.sqrt_nonneg _
  have hc : 0 ≤ 2 / 3 * (Units.alpha : ℝ) * η ^ 2 * (1 - gauntFactor η) := by
    have : 0 ≤ 1 - gauntFactor η := by linarith
    positivity
  have h8 : 2 / 3 * (Units.alpha : ℝ) * η ^ 2 * (1 - gauntFactor η) ≤ 16 / 3 * (Units.alpha : ℝ) * η ^ 3 := by
    have : 2 / 3 * (Units.alpha : ℝ) * η ^ 2 * (1 - gauntFactor η) ≤ 2 / 3 * (Units.alpha : ℝ) * η ^ 2 * (8 * η) :=
      mul_le_mul_of_nonneg_left (by linarith) (by positivity)
    refine this.trans (le_of_eq ?_)
    ring
  rw [mul_one, show 2 / 3 * (Units.alpha : ℝ) * η ^ 2 - 2 / 3 * (Units.alpha : ℝ) * η ^ 2 * gauntFactor η =
    2 / 3 * (Units.alpha : ℝ) * η ^ 2 * (1 - gauntFactor η) by ring, abs_of_nonneg (div_nonneg hc hs)]
  refine le_trans ?_ h8
  rcases hs.eq_or_lt with h | h
  · rw [← h, div_zero, zero_mul]
    exact hc
  · rw [div_mul_eq_mul_div, div_le_iff₀ h]
    exact mul_le_mul_of_nonneg_left hn hc

/-- **C163**, the tracks: let `y` and `z` be the classical and the semiclassical motion of a living particle with mass,
and let `K` be a Lipschitz constant of the classical equations of motion in a region `S` that contains both. If eta is at
most `ε` along `z`, the computed classical and semiclassical tracks differ, in every component and up to errors of fourth
order in the time step, by no more than a difference of `16/3 alpha ε³` between the forces can do. -/
theorem C163_motion {field : Field ℝ} {U : Set (ℝ × (Fin 3 → ℝ))} (hU : IsOpen U) (hf : FieldC4 field U)
    (p : Particle ℝ) (ha : p.isAlive = true) (hm : 0 < p.mass) {T : ℝ} {y z : ℝ → Phase}
    (hy0 : y p.time = (p.position.toVec, p.momentum.toVec)) (hz0 : z p.time = (p.position.toVec, p.momentum.toVec))
    (hy : ∀ s ∈ Icc p.time (p.time + T), HasDerivWithinAt y
      (motion p.mass (reactionForce (fun _ => 1) p.mass p.charge field) s (y s)) (Icc p.time (p.time + T)) s)
    (hz : ∀ s ∈ Icc p.time (p.time + T), HasDerivWithinAt z
      (motion p.mass (reactionForce gauntFactor p.mass p.charge field) s (z s)) (Icc p.time (p.time + T)) s)
    (hym : ∀ s ∈ Icc p.time (p.time + T), (s, (y s).1) ∈ U ∧ (y s).2 ≠ 0)
    (hzm : ∀ s ∈ Icc p.time (p.time + T), (s, (z s).1) ∈ U ∧ (z s).2 ≠ 0 ∧ etaAt p.mass field s (z s).1 (z s).2 ≠ 0)
    {S : Set Phase} {K : NNReal} (hK : ∀ s ∈ Icc p.time (p.time + T), y s ∈ S ∧ z s ∈ S ∧
      LipschitzOnWith K (motion p.mass (reactionForce (fun _ => 1) p.mass p.charge field) s) S)
    {ε : ℝ} (hε : ∀ s ∈ Icc p.time (p.time + T), etaAt p.mass field s (z s).1 (z s).2 ≤ ε) :
    ∃ C δ : ℝ, 0 < δ ∧ ∀ dt : ℝ, 0 ≤ dt → dt ≤ δ → ∀ n : Nat, n * dt ≤ T →
      let r := (pushParticle landauForce field dt)^[n] p
      let r' := (pushParticle modLandauForce field dt)^[n] p
      ∀ i, |r.position.toVec i - r'.position.toVec i| ≤
          gronwallBound 0 K (16 / 3 * (Units.alpha : ℝ) * ε ^ 3) (n * dt) + C * dt ^ 4 ∧
        |r.momentum.toVec i - r'.momentum.toVec i| ≤
          gronwallBound 0 K (16 / 3 * (Units.alpha : ℝ) * ε ^ 3) (n * dt) + C * dt ^ 4 := by
  obtain ⟨C1, δ1, hδ1, h1⟩ := C121_landau hU hf p ha hm hy0 hy hym
  obtain ⟨C2, δ2, hδ2, h2⟩ := C121_modified hU hf p ha hm hz0 hz hzm
  have hal : (0 : ℝ) < Units.alpha := by rw [OrderWitness.alpha_eq]; norm_num
  have right : ∀ {f : ℝ → Phase} {f' : Phase} {t : ℝ}, t ∈ Ico p.time (p.time + T) →
      HasDerivWithinAt f f' (Icc p.time (p.time + T)) t → HasDerivWithinAt f f' (Ici t) t := by
    intro f f' t ht h
    refine (h.mono (Icc_subset_Icc_left ht.1)).mono_of_mem_nhdsWithin ?_
    exact Icc_mem_nhdsGE ht.2
  have key := dist_le_of_approx_trajectories_ODE_of_mem (δ := 0) (εf := 0)
    (εg := 16 / 3 * (Units.alpha : ℝ) * ε ^ 3) (a := p.time) (b := p.time + T) (s := fun _ => S) (K := K)
    (v := motion p.mass (reactionForce (fun _ => 1) p.mass p.charge field))
    (fun t ht => (hK t (Ico_subset_Icc_self ht)).2.2)
    (fun t ht => (hy t ht).continuousWithinAt) (fun t ht => right ht (hy t (Ico_subset_Icc_self ht)))
    (fun t _ => (dist_self _).le) (fun t ht => (hK t (Ico_subset_Icc_self ht)).1)
    (fun t ht => (hz t ht).continuousWithinAt) (fun t ht => right ht (hz t (Ico_subset_Icc_self ht)))
    (fun t ht => by
      have hn := reaction_near p.mass p.charge field t (z t).1 (z t).2
      rw [dist_eq_norm]
      unfold motion
      rw [Prod.mk_sub_mk, sub_self, Prod.norm_def, norm_zero]
      refine max_le ?_ (hn.trans ?_)
      · have := (Real.sqrt_nonneg _).trans (hε t (Ico_subset_Icc_self ht))
        positivity
      · exact mul_le_mul_of_nonneg_left (pow_le_pow_left₀ (Real.sqrt_nonneg _) (hε t (Ico_subset_Icc_self ht)) 3)
          (by positivity))
    (fun t ht => (hK t (Ico_subset_Icc_self ht)).2.1) (by rw [hy0, hz0, dist_self])
  rw [zero_add] at key
  refine ⟨C1 + C2, min δ1 δ2, lt_min hδ1 hδ2, fun dt h0 hdt n hn => ?_⟩
  obtain ⟨a1, a2⟩ := h1 dt h0 (hdt.trans (min_le_left _ _)) n hn
  obtain ⟨b1, b2⟩ := h2 dt h0 (hdt.trans (min_le_right _ _)) n hn
  intro r r' i
  have ht : p.time + n * dt ∈ Icc p.time (p.time + T) := ⟨by have : 0 ≤ n * dt := by positivity
                                                             linarith, by linarith⟩
  have hd := key _ ht
  rw [add_sub_cancel_left, dist_eq_norm, Prod.norm_def, max_le_iff] at hd
  have c1 := (norm_le_pi_norm _ i).trans hd.1
  have c2 := (norm_le_pi_norm _ i).trans hd.2
  rw [Real.norm_eq_abs] at c1 c2
  have d1 := a2 i
  have d2 := b2 i
  rw [a1] at d1
  rw [b1] at d2
  simp only [Prod.fst_sub, Prod.snd_sub, Pi.sub_apply] at c1 c2
  rw [abs_le] at c1 c2
  obtain ⟨d11, d12⟩ := d1
  obtain ⟨d21, d22⟩ := d2
  rw [abs_le] at d11 d12 d21 d22 ⊢
  rw [abs_le]
  refine ⟨⟨?_, ?_⟩, ?_, ?_⟩ <;> linarith [c1.1, c1.2, c2.1, c2.2]

/-! ## The hypotheses are satisfiable -/

open OrderWitness in
/-- An electron accelerated along its motion, with eta = 1. -/
example : ∃ C δ : ℝ, 0 < δ ∧ ∀ dt : ℝ, 0 ≤ dt → dt ≤ δ → ∀ n : Nat, n * dt ≤ 1 →
    let r := (pushParticle landauForce OrderWitness.field dt)^[n] electron
    let r' := (pushParticle modLandauForce OrderWitness.field dt)^[n] electron
    ∀ i, |r.position.toVec i - r'.position.toVec i| ≤
        gronwallBound 0 (4 : NNReal) (16 / 3 * (Units.alpha : ℝ) * 1 ^ 3) (n * dt) + C * dt ^ 4 ∧
      |r.momentum.toVec i - r'.momentum.toVec i| ≤
        gronwallBound 0 (4 : NNReal) (16 / 3 * (Units.alpha : ℝ) * 1 ^ 3) (n * dt) + C * dt ^ 4 := by
  have hm : (0 : ℝ) < electron.mass := by simp [electron, Particle.newLepton, Particle.new]
  have h1 : (0 : ℝ) < 1 - 2 / 3 * (Units.alpha : ℝ) * (fun _ : ℝ => (1 : ℝ)) 1 := by
    rw [alpha_eq]
    norm_num
  have h2 : (0 : ℝ) < 1 - 2 / 3 * (Units.alpha : ℝ) * gauntFactor 1 := by
    rw [alpha_eq]
    have := gaunt_one.2
    linarith
  have hne : ∀ F : ℝ, 0 < F → ∀ s : ℝ, 0 ≤ s → (track F s).2 ≠ 0 := by
    intro F hF s hs h
    have := congrFun h 2
    simp only [track, Matrix.cons_val, Pi.zero_apply] at this
    nlinarith [mul_nonneg hF.le hs]
  refine C163_motion (field := OrderWitness.field) (T := 1) (K := 4) (ε := 1) (S := {w | ∃ a : ℝ, 0 < a ∧ w.2 = ![0, 0, a]}) isOpen_univ (C121_static _ _) electron rfl hm
    (track_start _) (track_start _) (fun s hs => track_deriv h1 (reaction_one _) s hs.1 _)
    (fun s hs => track_deriv h2 (reaction_one _) s hs.1 _) (fun s hs => ⟨mem_univ _, hne _ h1 s hs.1⟩)
    (fun s hs => ⟨mem_univ _, hne _ h2 s hs.1, ?_⟩) (fun s hs => ⟨?_, ?_, ?_⟩) (fun s hs => ?_)
  · exact (show etaAt electron.mass OrderWitness.field s _ _ = 1 from eta_one s _ _).symm ▸ one_ne_zero
  · exact ⟨_, by have := mul_nonneg h1.le hs.1; linarith, rfl⟩
  · exact ⟨_, by have := mul_nonneg h2.le hs.1; linarith, rfl⟩
  · refine LipschitzOnWith.of_dist_le_mul ?_
    rintro w ⟨a, ha, hw⟩ w' ⟨a', ha', hw'⟩
    have e : ∀ (v : Phase) (b : ℝ), 0 < b → v.2 = ![0, 0, b] →
        motion electron.mass (reactionForce (fun _ => 1) electron.mass electron.charge OrderWitness.field) s v =
          (velocity 1 v.2, ![0, 0, 1 - 2 / 3 * (Units.alpha : ℝ) * 1]) := by
      intro v b hb hv
      unfold motion
      rw [hv]
      exact congrArg (Prod.mk _) (reaction_one (fun _ => 1) s v.1 b hb)
    rw [e w a ha hw, e w' a' ha' hw', dist_eq_norm, dist_eq_norm, Prod.mk_sub_mk, sub_self, Prod.norm_def, norm_zero]
    have hv := velocity_lip (m := 1) one_pos w.2 w'.2
    refine max_le ?_ (by positivity)
    refine hv.trans ?_
    have : ‖w.2 - w'.2‖ ≤ ‖w - w'‖ := norm_snd_le (w - w')
    simpa using this
  · exact (show etaAt electron.mass OrderWitness.field s _ _ = 1 from eta_one s _ _).le

/-- The same electron for the forces. -/
example : (⟨0, 0, 1⟩ : V3 ℝ) ≠ ⟨0, 0, 0⟩ ∧ quantumParameter (fieldTensor ⟨0, 0, -1⟩ ⟨0, 0, 0⟩)
    (fourVector (lorentzFactor 1 ⟨0, 0, 1⟩) ⟨0 / 1, 0 / 1, 1 / 1⟩) = 1 := by
  refine ⟨fun h => one_ne_zero (congrArg V3.z h), ?_⟩
  refine Eq.trans ?_ (OrderWitness.eta_one 0 0 1)
  unfold etaAt lorentzFactor
  rw [show OrderWitness.field 0 (V3.ofVec 0) = (⟨0, 0, -1⟩, ⟨0, 0, 0⟩) from rfl]
  congr 2
  · simp [dotProduct, Fin.sum_univ_three]
  · simp [V3.ofVec]

end QED
