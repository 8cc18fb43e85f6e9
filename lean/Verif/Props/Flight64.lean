import Verif.Lemmas.F64Reaction

set_option autoImplicit false
set_option exponentiation.threshold 2000

/-!
# Property C143: straight flight in double precision
-/

namespace QED

open Dbl F64

/-- C143, photons: whatever the pusher and the field, a photon flies along its momentum with the speed of light, up
to the errors of rounding. -/
theorem C143_photon {push : PushMom F64} {field : Field F64} {dt : F64} {p : Particle F64} {a : Fin 3 → ℝ} {τ : ℝ}
    (ha : p.isAlive = true) (hm : p.mass = lit 0) (hp : p.momentum.At a) (ht : dt.1 = .fin τ)
    (lo : (1 / 2) ^ 400 ≤ len a) (hi : len a ≤ 2 ^ 500) (tlo : (1 / 2) ^ 400 ≤ τ) (thi : τ ≤ 2 ^ 500) :
    FliesStraight (pushParticle push field dt) p (fun i => a i / len a) τ := by
  obtain ⟨δ, hd, hδ⟩ := Flight.photon_step hp ht lo hi tlo thi
  have hl : 0 < len a := lt_of_lt_of_le (by positivity) lo
  refine Flight.flies ha ?_ hd hδ ?_ ht tlo
  · intro q hq hqm _ hqp
    have hz : (q.mass ==. (lit 0 : F64)) = true := by
      rw [hqm, hm]
      show ((lit 0 : F64).1 ==. (lit 0 : F64).1) = true
      rw [zero_val]
      simp
    unfold pushParticle
    rw [if_neg (by simp [hq]), if_pos hz]
    simp only [Particle.updateTrack, Particle.updateTime]
    rw [hqp]
    split_ifs <;> exact ⟨rfl, rfl⟩
  · intro i
    rw [abs_div, abs_of_pos hl]
    exact (div_le_one hl).mpr (Flight.comp_le a i)

/-- A lepton on which the computed force is zero flies straight. -/
theorem lepton_flies {push : PushMom F64} {field : Field F64} {dt : F64} {p : Particle F64} {a : Fin 3 → ℝ} {τ : ℝ}
    (ha : p.isAlive = true) (hm : p.mass = lit 1) (hp : p.momentum.At a)
    (hF : push (lit 1) p.charge p.momentum ⟨lit 0, lit 0, lit 0⟩ ⟨lit 0, lit 0, lit 0⟩ = ⟨lit 0, lit 0, lit 0⟩)
    (hf : ∀ t x, field t x = (⟨lit 0, lit 0, lit 0⟩, ⟨lit 0, lit 0, lit 0⟩)) (ht : dt.1 = .fin τ)
    (hi : len a ≤ 2 ^ 500) (tlo : (1 / 2) ^ 400 ≤ τ) (thi : τ ≤ 2 ^ 500) :
    FliesStraight (pushParticle push field dt) p (fun i => a i / Real.sqrt (1 + len a ^ 2)) τ := by
  obtain ⟨g, v, hg, g0, -, hv, hvn⟩ := Flight.velocity_near hp hi
  have hle : len a ≤ Real.sqrt (1 + len a ^ 2) := by
    apply Real.le_sqrt_of_sq_le
    linarith
  have hr0 : 0 < Real.sqrt (1 + len a ^ 2) := Real.sqrt_pos.mpr (by positivity)
  have unit : ∀ i, |a i / Real.sqrt (1 + len a ^ 2)| ≤ 1 := by
    intro i
    rw [abs_div, abs_of_pos hr0]
    exact (div_le_one hr0).mpr ((Flight.comp_le a i).trans hle)
  obtain ⟨d0, e0, b0⟩ := Flight.sum_near hv.1 ht (unit 0) (hvn 0) tlo thi
  obtain ⟨d1, e1, b1⟩ := Flight.sum_near hv.2.1 ht (unit 1) (hvn 1) tlo thi
  obtain ⟨d2, e2, b2⟩ := Flight.sum_near hv.2.2 ht (unit 2) (hvn 2) tlo thi
  have hB' : 2 * (2 : ℝ) ^ 500 ≤ 2 ^ 1010 := by
    rw [← pow_succ']
    exact pow_le_pow_right₀ (by norm_num) (by norm_num)
  have hτ : 0 < τ := lt_of_lt_of_le (by positivity) tlo
  have six : (lit 6 : F64).1 = .fin 6 := six_val
  have q6 := div_at ht six (by norm_num) (z := F64.round (τ / 6)) (Flight.big (by
    rw [abs_of_pos (by positivity)]
    have : τ / 6 ≤ 2 * 2 ^ 500 := by
      have : τ / 6 ≤ 2 * τ := by
        clear hB' thi tlo hi
        linarith
      exact this.trans (mul_le_mul_of_nonneg_left thi (by norm_num))
    exact this.trans hB')) rfl
  have hz : (⟨lit 0, lit 0, lit 0⟩ : V3 F64).At (fun _ => 0) := ⟨zero_val, zero_val, zero_val⟩
  have hmuls : ((⟨lit 0, lit 0, lit 0⟩ : V3 F64).muls dt) = ⟨lit 0, lit 0, lit 0⟩ := by
    show V3.mk _ _ _ = V3.mk _ _ _
    have e : (lit 0 : F64) *. dt = lit 0 := Flight.eq_of_val (zero_mul_at zero_val ht) zero_val
    rw [e]
  have hdivs : ((⟨lit 0, lit 0, lit 0⟩ : V3 F64).divs (lit 2)) = ⟨lit 0, lit 0, lit 0⟩ := by
    show V3.mk _ _ _ = V3.mk _ _ _
    have e : (lit 0 : F64) /. lit 2 = lit 0 := Flight.eq_of_val (zero_div_at zero_val two_val (by norm_num)) zero_val
    rw [e]
  have hsm : ((⟨lit 0, lit 0, lit 0⟩ : V3 F64).smul (lit 2)) = ⟨lit 0, lit 0, lit 0⟩ := by
    show V3.mk _ _ _ = V3.mk _ _ _
    have e : (lit 2 : F64) *. lit 0 = lit 0 := Flight.eq_of_val (mul_zero_at two_val zero_val) zero_val
    rw [e]
  have hsm6 : ((⟨lit 0, lit 0, lit 0⟩ : V3 F64).smul (dt /. lit 6)) = ⟨lit 0, lit 0, lit 0⟩ := by
    show V3.mk _ _ _ = V3.mk _ _ _
    have e : (dt /. lit 6 : F64) *. lit 0 = lit 0 := Flight.eq_of_val (mul_zero_at q6 zero_val) zero_val
    rw [e]
  have hadd := Flight.add_nothing hp hz
  have hadd0 := Flight.add_nothing hz hz
  have hd : ∀ s : V3 F64, s = pushPosition (lit 1) p.momentum →
      ((((s.add (s.smul (lit 2))).add (s.smul (lit 2))).add s).smul (dt /. lit 6)).At ![d0, d1, d2] := by
    intro s hs
    rw [hs]
    exact ⟨e0, e1, e2⟩
  refine Flight.flies ha (d := ((((pushPosition (lit 1) p.momentum).add ((pushPosition (lit 1) p.momentum).smul
    (lit 2))).add ((pushPosition (lit 1) p.momentum).smul (lit 2))).add (pushPosition (lit 1) p.momentum)).smul
      (dt /. lit 6)) ?_ (hd _ rfl) ?_ unit ht tlo
  · intro q hq hqm hqc hqp
    have hz : ¬ (q.mass ==. (lit 0 : F64)) = true := by
      rw [hqm, hm]
      show ¬ ((lit 1 : F64).1 ==. (lit 0 : F64).1) = true
      rw [zero_val, one_val]
      simp
    have hrk : rk4 push field dt q.mass q.charge q.time q.position q.momentum =
        (q.position.add ((((pushPosition (lit 1) p.momentum).add ((pushPosition (lit 1) p.momentum).smul
          (lit 2))).add ((pushPosition (lit 1) p.momentum).smul (lit 2))).add (pushPosition (lit 1) p.momentum)
            |>.smul (dt /. lit 6)), p.momentum) := by
      rw [hqm, hqc, hqp, hm]
      unfold rk4
      simp only [hf, hF, hmuls, hdivs, hadd, hsm, hadd0, hsm6]
    unfold pushParticle
    rw [if_neg (by simp [hq]), if_neg hz]
    simp only [hrk, Particle.updateTrack, Particle.updateTime]
    split_ifs <;> exact ⟨rfl, hqp.symm⟩
  · intro i
    fin_cases i
    · exact b0
    · exact b1
    · exact b2

/-- C143, leptons: where there is no field, an electron or a positron moved by the Lorentz pusher flies along its
momentum with the velocity `p / γ`, up to the errors of rounding. -/
theorem C143_lepton {field : Field F64} {dt : F64} {p : Particle F64} {a : Fin 3 → ℝ} {τ : ℝ}
    (ha : p.isAlive = true) (hm : p.mass = lit 1) (hc : p.charge = lit 1 ∨ p.charge = lit (-1)) (hp : p.momentum.At a)
    (hf : ∀ t x, field t x = (⟨lit 0, lit 0, lit 0⟩, ⟨lit 0, lit 0, lit 0⟩)) (ht : dt.1 = .fin τ)
    (hi : len a ≤ 2 ^ 500) (tlo : (1 / 2) ^ 400 ≤ τ) (thi : τ ≤ 2 ^ 500) :
    FliesStraight (pushParticle lorentzForce field dt) p (fun i => a i / Real.sqrt (1 + len a ^ 2)) τ := by
  obtain ⟨g, v, hg, g0, -, -, -⟩ := Flight.velocity_near hp hi
  obtain ⟨r, hr⟩ := Flight.charge_fin hc
  exact lepton_flies ha hm hp (Flight.no_force hp hr hg g0) hf ht hi tlo thi

/-- C143, leptons with radiation reaction: the same holds for the classical and the semiclassical pusher, unless the lepton is
at rest or almost. -/
theorem C143_reaction {push : PushMom F64} (hpush : push = landauForce ∨ push = modLandauForce) {field : Field F64} {dt : F64}
    {p : Particle F64} {a : Fin 3 → ℝ} {τ : ℝ}
    (ha : p.isAlive = true) (hm : p.mass = lit 1) (hc : p.charge = lit 1 ∨ p.charge = lit (-1)) (hp : p.momentum.At a)
    (hf : ∀ t x, field t x = (⟨lit 0, lit 0, lit 0⟩, ⟨lit 0, lit 0, lit 0⟩)) (ht : dt.1 = .fin τ)
    (lo : (1 / 2) ^ 400 ≤ len a) (hi : len a ≤ 2 ^ 500) (tlo : (1 / 2) ^ 400 ≤ τ) (thi : τ ≤ 2 ^ 500) :
    FliesStraight (pushParticle push field dt) p (fun i => a i / Real.sqrt (1 + len a ^ 2)) τ := by
  obtain ⟨r, hr⟩ := Flight.charge_fin hc
  refine lepton_flies ha hm hp ?_ hf ht hi tlo thi
  rcases hpush with rfl | rfl
  · exact Flight.no_landau hp hr lo hi
  · exact Flight.no_modLandau hp hr lo hi

open FlightWitness

/-- The error in proportion to the distance is real: far from the origin a photon does not move at all,
however many steps are made. -/
theorem C143_far (push : PushMom F64) (field : Field F64) (n : ℕ) :
    ((pushParticle push field (lit 1))^[n] (photon (lit (2 ^ 60)) (lit 1))).position.At ![2 ^ 60, 0, 0] := by
  have m2 : (V3.mk (lit 1) (lit 0) (lit 0) : V3 F64).mag2.1 = (lit 1 : F64).1 :=
    mag2_axis (by rw [one_val]; exact one_mul_at one_val one_val) (fun w hw => by
      rw [one_val]; exact add_zero_at one_val hw)
  rw [one_val] at m2
  have m1 : (V3.mk (lit 1) (lit 0) (lit 0) : V3 F64).mag.1 = .fin 1 :=
    sqrt_at m2 zero_le_one (lt_big (by norm_num)) (by
      rw [Real.sqrt_one]
      exact round_form_eq (form_of_val one_val))
  have q : (lit 1 /. (V3.mk (lit 1) (lit 0) (lit 0) : V3 F64).mag : F64).1 = .fin 1 := div_one_at one_val m1
  have hd : ((⟨lit 1, lit 0, lit 0⟩ : V3 F64).smul (lit 1 /. (⟨lit 1, lit 0, lit 0⟩ : V3 F64).mag)).At ![1, 0, 0] :=
    ⟨one_mul_at q one_val, one_mul_at q zero_val, one_mul_at q zero_val⟩
  induction n with
  | zero => exact ⟨two_pow_lit 60 (by norm_num), zero_val, zero_val⟩
  | succ n ih =>
    rw [axis_step rfl]
    refine ⟨add_at ih.1 hd.1 (lt_big (by norm_num)) ?_, zero_add_at ih.2.1 hd.2.1, zero_add_at ih.2.2 hd.2.2⟩
    show F64.round (2 ^ 60 + 1) = 2 ^ 60
    rw [round_normal (m := 2 ^ 52) (e := 8) (by norm_num) (by norm_num) (by norm_num)
      (.inl (by norm_num [abs_lt]))]
    norm_num

/-- The bound of `C143_photon` on small momenta is needed: the length of a very small momentum underflows and the photon is sent to infinity
by its first step. -/
theorem C143_tiny (push : PushMom F64) (field : Field F64) :
    (photon (lit 0) (lit ((1 / 2) ^ 600))).momentum.At ![(1 / 2) ^ 600, 0, 0] ∧
      (pushParticle push field (lit 1) (photon (lit 0) (lit ((1 / 2) ^ 600)))).position.x.1 = .pinf := by
  have hp := half_pow_lit 600 (by norm_num)
  refine ⟨⟨hp, zero_val, zero_val⟩, ?_⟩
  have hsq : (lit ((1 / 2) ^ 600) *. lit ((1 / 2) ^ 600) : F64).1 = (lit 0 : F64).1 := by
    rw [zero_val]
    have e : ((1 : ℝ) / 2) ^ 600 * (1 / 2) ^ 600 = 2 ^ (-1200 : ℤ) := by
      rw [← pow_add, zpow_neg, one_div, inv_pow]
      norm_cast
    refine mul_at hp hp (lt_big ?_) (round_tiny ?_)
    · rw [abs_of_pos (by positivity), ← pow_add]
      exact (pow_le_one₀ (by norm_num) (by norm_num)).trans (by norm_num)
    · rw [e, abs_of_pos (by positivity)]
      exact zpow_le_zpow_right₀ (by norm_num) (by norm_num)
  have m2 := mag2_axis hsq (fun w hw => by rw [zero_val]; exact zero_add_at zero_val hw)
  rw [zero_val] at m2
  have m1 : (V3.mk (lit ((1 / 2) ^ 600)) (lit 0) (lit 0) : V3 F64).mag.1 = .fin 0 :=
    sqrt_at m2 le_rfl (by simp) (by simp)
  have q : (lit 1 /. (V3.mk (lit ((1 / 2) ^ 600)) (lit 0) (lit 0) : V3 F64).mag : F64).1 = .pinf := by
    rw [div_val, one_val, m1, XR.div_zero]
    simp [XR.infSign, rnd]
  rw [(push_photon (p := lit ((1 / 2) ^ 600)) rfl rfl rfl).1]
  show (lit 0 +. (lit 1 /. (V3.mk (lit ((1 / 2) ^ 600)) (lit 0) (lit 0) : V3 F64).mag) *. lit ((1 / 2) ^ 600)).1 = _
  have w : ((lit 1 /. (V3.mk (lit ((1 / 2) ^ 600)) (lit 0) (lit 0) : V3 F64).mag) *. lit ((1 / 2) ^ 600) : F64).1 = .pinf := by
    rw [mul_val, q, hp]
    have h0 : (0 : ℝ) < (1 / 2) ^ 600 := by positivity
    generalize ((1 : ℝ) / 2) ^ 600 = c at h0
    show rnd (XR.mul .pinf (.fin c)) = _
    simp only [XR.mul, XR.infSign]
    rw [if_pos h0]
    rfl
  rw [add_val, w, zero_val]
  rfl

/-- So is the one on large momenta: the length overflows and the photon never moves. -/
theorem C143_huge (push : PushMom F64) (field : Field F64) (n : ℕ) :
    (photon (lit 0) (lit (2 ^ 600))).momentum.At ![2 ^ 600, 0, 0] ∧
      ((pushParticle push field (lit 1))^[n] (photon (lit 0) (lit (2 ^ 600)))).position.At ![0, 0, 0] := by
  have hp := two_pow_lit 600 (by norm_num)
  refine ⟨⟨hp, zero_val, zero_val⟩, ?_⟩
  have hov : rnd (.fin ((2 : ℝ) ^ 600 * 2 ^ 600)) = .pinf := by
    have h : (2 : ℝ) ^ 1024 ≤ F64.round (2 ^ 600 * 2 ^ 600) := by
      apply le_round
      · have := form_zpow (e := 1024) (by norm_num)
        rwa [zpow_ofNat] at this
      · rw [← pow_add]
        exact pow_le_pow_right₀ (by norm_num) (by norm_num)
    have h0 : (0 : ℝ) < 2 ^ 600 * 2 ^ 600 := by positivity
    generalize (2 : ℝ) ^ 600 * 2 ^ 600 = c at h h0
    simp only [rnd]
    rw [if_neg (not_lt.mpr (h.trans (le_abs_self _)))]
    unfold XR.infSign
    rw [if_pos h0]
  have hsq : (lit (2 ^ 600) *. lit (2 ^ 600) : F64).1 = XR.pinf := by
    rw [mul_val, hp, XR.mul_fin]
    exact hov
  have m2 := mag2_axis (p := lit (2 ^ 600)) rfl (fun w hw => by
    rw [add_val, hsq, hw]; rfl)
  rw [hsq] at m2
  have m1 : (V3.mk (lit (2 ^ 600)) (lit 0) (lit 0) : V3 F64).mag.1 = .pinf := by
    show rnd (Dbl.sqrt (V3.mk (lit (2 ^ 600)) (lit 0) (lit 0) : V3 F64).mag2.1) = _
    rw [m2]
    rfl
  have q : (lit 1 /. (V3.mk (lit (2 ^ 600)) (lit 0) (lit 0) : V3 F64).mag : F64).1 = .fin 0 := by
    rw [div_val, one_val, m1]
    show rnd (.fin 0) = _
    rw [rnd_fin (by simp), round_zero]
  have hd : ((⟨lit (2 ^ 600), lit 0, lit 0⟩ : V3 F64).smul (lit 1 /. (⟨lit (2 ^ 600), lit 0, lit 0⟩ : V3 F64).mag)).At ![0, 0, 0] :=
    ⟨zero_mul_at q hp, zero_mul_at q zero_val, zero_mul_at q zero_val⟩
  induction n with
  | zero => exact ⟨zero_val, zero_val, zero_val⟩
  | succ n ih =>
    rw [axis_step rfl]
    exact ⟨zero_add_at ih.1 hd.1, zero_add_at ih.2.1 hd.2.1, zero_add_at ih.2.2 hd.2.2⟩

/-- The hypotheses of `C143_photon` can be met. -/
example (push : PushMom F64) (field : Field F64) :
    FliesStraight (pushParticle push field (lit 1)) (photon (lit 2) (lit 1)) (fun i => ![1, 0, 0] i / len ![1, 0, 0]) 1 :=
  C143_photon (a := ![1, 0, 0]) rfl rfl ⟨one_val, zero_val, zero_val⟩ one_val
    (by rw [len_axis zero_le_one]; exact pow_le_one₀ (by norm_num) (by norm_num))
    (by rw [len_axis zero_le_one]; exact one_le_pow₀ (by norm_num))
    (pow_le_one₀ (by norm_num) (by norm_num)) (one_le_pow₀ (by norm_num))

/-- The hypotheses of `FliesStraight` can be met. -/
example : (photon (lit 2) (lit 1)).position.At ![2, 0, 0] ∧ (photon (lit 2) (lit 1)).time.1 = .fin 0 ∧
    1000000 ≤ 2 ^ 40 ∧ (∀ i, |(![2, 0, 0] : Fin 3 → ℝ) i| + (1000000 : ℕ) * 1 ≤ 1000002) ∧
      |(0 : ℝ)| + (1000000 : ℕ) * 1 ≤ 1000002 ∧ (1000002 : ℝ) ≤ 2 ^ 1000 := by
  refine ⟨⟨two_val, zero_val, zero_val⟩, zero_val, by norm_num, ?_, by norm_num, ?_⟩
  · intro i
    fin_cases i <;> norm_num
  · calc (1000002 : ℝ) ≤ 2 ^ 20 := by norm_num
      _ ≤ _ := pow_le_pow_right₀ (by norm_num) (by norm_num)

/-- The hypotheses of `C143_lepton` can be met. -/
example : FliesStraight
    (pushParticle lorentzForce (staticField ⟨lit 0, lit 0, lit 0⟩ ⟨lit 0, lit 0, lit 0⟩) (lit 1))
    (.newLepton (lit 1) (lit (-1)) ⟨lit 0, lit 0, lit 0⟩ ⟨lit 2, lit 0, lit 0⟩ (lit 1) (lit 0) false (lit 0))
    (fun i => ![2, 0, 0] i / Real.sqrt (1 + len ![2, 0, 0] ^ 2)) 1 :=
  C143_lepton (a := ![2, 0, 0]) rfl rfl (.inr rfl) ⟨two_val, zero_val, zero_val⟩ (fun _ _ => rfl) one_val
    (by
      rw [len_axis zero_le_two]
      calc (2 : ℝ) = 2 ^ 1 := by norm_num
        _ ≤ _ := pow_le_pow_right₀ (by norm_num) (by norm_num))
    (pow_le_one₀ (by norm_num) (by norm_num)) (one_le_pow₀ (by norm_num))

/-- The hypotheses of `C143_reaction` can be met. -/
example : FliesStraight
    (pushParticle landauForce (staticField ⟨lit 0, lit 0, lit 0⟩ ⟨lit 0, lit 0, lit 0⟩) (lit 1))
    (.newLepton (lit 1) (lit (-1)) ⟨lit 0, lit 0, lit 0⟩ ⟨lit 2, lit 0, lit 0⟩ (lit 1) (lit 0) false (lit 0))
    (fun i => ![2, 0, 0] i / Real.sqrt (1 + len ![2, 0, 0] ^ 2)) 1 :=
  C143_reaction (a := ![2, 0, 0]) (.inl rfl) rfl rfl (.inr rfl) ⟨two_val, zero_val, zero_val⟩ (fun _ _ => rfl) one_val
    (by
      rw [len_axis zero_le_two]
      exact (pow_le_one₀ (by norm_num) (by norm_num)).trans one_le_two)
    (by
      rw [len_axis zero_le_two]
      calc (2 : ℝ) = 2 ^ 1 := by norm_num
        _ ≤ _ := pow_le_pow_right₀ (by norm_num) (by norm_num))
    (pow_le_one₀ (by norm_num) (by norm_num)) (one_le_pow₀ (by norm_num))

end QED
