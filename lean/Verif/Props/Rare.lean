import Verif.Lemmas.Rare
import Verif.Lemmas.LargeNumbers
import Verif.Props.Tally

set_option autoImplicit false

/-!
# C155: two generations in a step are rare when the steps are short
-/

namespace QED

open MCTools MeasureTheory Rare

/-- C155 for short time steps: if in a step the lepton emits with a rate of at most `a`, and no photon has a rate of pair
production of more than `b`, the step makes a second generation with a probability of at most
`(1 - exp (-a)) (1 - exp (-b))`. Both rates are proportional to the time step.
Missing: that it never does, see `C155_refuted`. -/
theorem C155_rare_partial {cfg : SimCfg ℝ} {e : EmissionCfg ℝ} {w : BWCfg ℝ}
    (hc : cfg.procs = [.stochastic e, .breitWheeler w]) {p : Particle ℝ} (hp : p.kind ≠ .photon) {a b : ℝ} (ha0 : 0 ≤ a)
    (hb0 : 0 ≤ b)
    (ha : ∀ logh, emissionLogh e (calculateEta e.field (pushParticle cfg.push cfg.field cfg.dt p)) = .ok logh →
      emissionDelta e.dt (calculateEta e.field (pushParticle cfg.push cfg.field cfg.dt p)) logh
        (pushParticle cfg.push cfg.field cfg.dt p).gamma ≤ a)
    (hb : ∀ x : Particle ℝ, x.kind = .photon → ∀ logt,
      Numerics.interpolate1D w.tAxis w.tData (Dbl.log10 (bwChi w.field x)) = .ok logt →
      bwDelta w.dt (bwChi w.field x) logt x.energy ≤ b) (nm : String) (mx N : Nat) (hN : 4 ≤ N) :
    (likelihood N fun us => ∃ t, timeStep cfg (lonely p nm mx us) = .ok t ∧ 2 < t.list.items.length) ≤
        ENNReal.ofReal (1 - Real.exp (-a)) * ENNReal.ofReal (1 - Real.exp (-b)) ∧
      (likelihood N fun us => ∃ t, timeStep cfg (lonely p nm mx us) = .ok t ∧ 2 < t.list.items.length) ≤
        ENNReal.ofReal (a * b) := by
  have h : (likelihood N fun us => ∃ t, timeStep cfg (lonely p nm mx us) = .ok t ∧ 2 < t.list.items.length) ≤
      ENNReal.ofReal (1 - Real.exp (-a)) * ENNReal.ofReal (1 - Real.exp (-b)) := by
    rw [← two_depths ha0 hb0 N hN]
    refine LargeNumbers.average_mono fun us => ?_
    unfold indic
    split_ifs with h1 h2
    · exact le_rfl
    · obtain ⟨t, ht, hl⟩ := h1
      exact absurd (second_generation hc hp ha hb ht hl) h2
    · exact zero_le_one
    · exact le_rfl
  refine ⟨h, h.trans ?_⟩
  rw [ENNReal.ofReal_mul ha0]
  exact mul_le_mul' (ENNReal.ofReal_le_ofReal (by linarith [Real.add_one_le_exp (-a)]))
    (ENNReal.ofReal_le_ofReal (by linarith [Real.add_one_le_exp (-b)]))

namespace RareWitness

/-- Pair production in the field of the accelerated electron. -/
noncomputable def bw : BWCfg ℝ := { Witness.bwCfg 1 with field := staticField ⟨0, 0, -1⟩ ⟨0, 0, 0⟩ }

noncomputable def cfg : SimCfg ℝ :=
  { Witness.accelCfg 1 with procs := [.stochastic Witness.accelEm, .breitWheeler bw] }

theorem pair_rate (x : Particle ℝ) (hx : x.kind = .photon) (logt : ℝ)
    (h : Numerics.interpolate1D bw.tAxis bw.tData (Dbl.log10 (bwChi bw.field x)) = .ok logt) :
    bwDelta bw.dt (bwChi bw.field x) logt x.energy ≤ 1 / 100 := by
  have hl : logt = 0 := by
    have h : Numerics.interpolate1D [0, 1] [0, 0] (Dbl.log10 (bwChi bw.field x)) = .ok logt := h
    generalize Dbl.log10 (bwChi bw.field x) = q at h
    unfold Numerics.interpolate1D at h
    simp [Numerics.firstAbove, Numerics.usub, rd] at h
    by_cases h1 : q < 0
    · rw [if_pos h1] at h
      exact (Res.ok.inj h).symm
    · rw [if_neg h1] at h
      by_cases h2 : 1 < q
      · rw [if_pos h2] at h
        exact (Res.ok.inj h).symm
      · rw [if_neg h2] at h
        by_cases h3 : q < 1
        · rw [if_neg h1, if_pos h3] at h
          have h' : (Res.ok (0 + (q - 0) * (0 - 0) / (1 - 0)) : Res ℝ) = .ok logt := h
          have := Res.ok.inj h'
          simpa using this.symm
        · rw [if_neg h1, if_neg h3] at h
          exact (Res.ok.inj h).symm
  subst hl
  have he : x.energy = x.momentum.mag := by unfold Particle.energy; rw [hx]
  have hm : 0 ≤ x.momentum.mag := Real.sqrt_nonneg _
  by_cases h0 : x.momentum = ⟨0, 0, 0⟩
  · have : x.energy = 0 := by rw [he, h0]; simp [V3.mag, V3.dot]
    unfold bwDelta
    rw [this]
    simp
  · have hu := V3.norm_dot_self h0
    have hpos := V3.mag_pos h0
    have hc : bwChi bw.field x ≤ x.momentum.mag / 2 := by
      unfold bwChi Particle.direction
      rw [he]
      generalize x.momentum.norm = d at hu
      simp only [V3.dot, real_add, real_mul] at hu
      have hs : ((((bw.field x.time x.position).1.sub (d.smul ((bw.field x.time x.position).1.dot d))).add
          (d.cross (bw.field x.time x.position).2)).mag : ℝ) ≤ 1 := by
        simp only [bw, staticField, V3.mag, V3.dot, V3.smul, V3.sub, V3.add, V3.cross, real_add, real_mul, real_sub,
          real_sqrt]
        refine Real.sqrt_le_one.mpr ?_
        nlinarith [sq_nonneg d.z]
      simp only [real_mul, real_lit]
      push_cast
      nlinarith
    unfold bwDelta
    rw [he]
    simp only [real_mul, real_div, real_pow, real_lit, Units.alpha]
    rw [div_le_iff₀ hpos, Real.rpow_zero]
    have hdt : bw.dt = 1 := rfl
    rw [hdt]
    norm_num
    linarith

end RareWitness

open RareWitness in
/-- The accelerated electron makes a second generation in a step with a probability of at most `1 / 10000`. -/
example : (likelihood 4 fun us => ∃ t, timeStep cfg (lonely Witness.electron "0" 10 us) = .ok t ∧
    2 < t.list.items.length) ≤ ENNReal.ofReal (1 / 100 * (1 / 100)) := by
  have hf := (Witness.forward_push 1 Witness.electron_forward).1
  refine (C155_rare_partial (cfg := cfg) rfl (by rw [Witness.electron_forward.kind]; simp) (by norm_num) (by norm_num)
    (fun logh h => ?_) pair_rate "0" 10 4 le_rfl).2
  have h0 := (Witness.accel_lookups 1).rate _ Witness.electron_forward
  have h' : (Res.ok 0 : Res ℝ) = .ok logh := h0.symm.trans h
  cases h'
  exact (Witness.accel_rate hf).2

end QED
