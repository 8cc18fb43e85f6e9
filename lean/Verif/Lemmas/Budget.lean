import Verif.Spec.Budget
import Verif.Props.Emission
import Verif.Props.Gain
import Verif.Lemmas.Events

set_option autoImplicit false

/-!
The energy of a lepton before and after an emission or a push.
-/

namespace QED

open MCTools

theorem root_gt (x : ℝ) : |x| < Real.sqrt (1 + x ^ 2) := by
  rw [Real.lt_sqrt (abs_nonneg x), sq_abs]
  linarith

/-- An emission adds energy. -/
theorem excess_pos {p k : ℝ} (hk : 0 < k) : Real.sqrt (1 + p ^ 2) < k + Real.sqrt (1 + (p - k) ^ 2) := by
  have h1 := root_gt (p - k)
  have h2 := le_abs_self (p - k)
  have h3 : 0 ≤ Real.sqrt (1 + (p - k) ^ 2) := Real.sqrt_nonneg _
  rw [Real.sqrt_lt' (by linarith)]
  have h4 : Real.sqrt (1 + (p - k) ^ 2) ^ 2 = 1 + (p - k) ^ 2 := Real.sq_sqrt (by positivity)
  nlinarith

/-- How much, as long as the lepton is not turned around. -/
theorem excess_eq {p k : ℝ} (hp : 0 ≤ p) (hk : k ≤ p) : k + Real.sqrt (1 + (p - k) ^ 2) - Real.sqrt (1 + p ^ 2) =
    1 / (Real.sqrt (1 + (p - k) ^ 2) + (p - k)) - 1 / (Real.sqrt (1 + p ^ 2) + p) := by
  have key : ∀ x : ℝ, 0 ≤ x → 1 / (Real.sqrt (1 + x ^ 2) + x) = Real.sqrt (1 + x ^ 2) - x := by
    intro x hx
    have h0 : 0 < Real.sqrt (1 + x ^ 2) := Real.sqrt_pos.mpr (by positivity)
    have h1 : Real.sqrt (1 + x ^ 2) ^ 2 = 1 + x ^ 2 := Real.sq_sqrt (by positivity)
    rw [div_eq_iff (by positivity)]
    linear_combination -h1
  rw [key _ hp, key _ (sub_nonneg.mpr hk)]
  ring

/-- At most the rest energy times the root of two. -/
theorem excess_le {p k : ℝ} (hp : 0 ≤ p) (hk : k ≤ Real.sqrt (1 + p ^ 2)) :
    k + Real.sqrt (1 + (p - k) ^ 2) ≤ Real.sqrt (1 + p ^ 2) + Real.sqrt 2 := by
  have hs : Real.sqrt (1 + p ^ 2) ^ 2 = 1 + p ^ 2 := Real.sq_sqrt (by positivity)
  have hg := (le_abs_self p).trans_lt (root_gt p)
  rcases le_total k p with h | h
  · have h1 : 1 ≤ Real.sqrt 2 := Real.one_le_sqrt.mpr (by norm_num)
    have h2 : Real.sqrt (1 + (p - k) ^ 2) ≤ 1 + (p - k) :=
      Real.sqrt_le_iff.mpr ⟨by linarith, by nlinarith⟩
    linarith
  · have h3 : Real.sqrt (1 + p ^ 2) ≤ 1 + p := Real.sqrt_le_iff.mpr ⟨by linarith, by nlinarith⟩
    have h4 : Real.sqrt (1 + (p - k) ^ 2) ≤ Real.sqrt 2 := Real.sqrt_le_sqrt (by nlinarith)
    linarith

theorem root_lip {x y d : ℝ} (hx : 0 ≤ x) (hy : 0 ≤ y) (hd : 0 ≤ d) (h : y ≤ x + d) :
    Real.sqrt (1 + y ^ 2) ≤ Real.sqrt (1 + x ^ 2) + d := by
  have h0 := (le_abs_self x).trans (root_gt x).le
  have h1 : Real.sqrt (1 + x ^ 2) ^ 2 = 1 + x ^ 2 := Real.sq_sqrt (by positivity)
  exact Real.sqrt_le_iff.mpr ⟨by positivity, by nlinarith⟩

theorem lepton_energy {p : Particle ℝ} (hk : p.kind ≠ .photon) (hm : p.mass = 1) :
    p.energy = Real.sqrt (1 + len p.momentum.toVec ^ 2) := by
  have h := (C126_eta (fun _ _ => (⟨0, 0, 0⟩, ⟨0, 0, 0⟩)) p hk).2
  rw [hm] at h
  unfold Particle.energy
  split
  · exact absurd ‹_› hk
  · rw [hm, h]
    simp

theorem photon_energy {p : Particle ℝ} (hk : p.kind = .photon) : p.energy = len p.momentum.toVec := by
  unfold Particle.energy
  rw [hk]
  exact mag_eq _

theorem len_smul_unit {a : V3 ℝ} (ha : a ≠ ⟨0, 0, 0⟩) (c : ℝ) : len (a.norm.smul c).toVec = |c| := by
  rw [← mag_eq]
  exact V3.smul_unit_mag (V3.norm_dot_self ha) c

theorem emits_nonneg {cfg : EmissionCfg ℝ} {p : Particle ℝ} {u delta g : ℝ} (h : Emits cfg p u delta g) : 0 ≤ g := by
  obtain ⟨chi, hc, rfl⟩ := h.energy
  have hgpos : 0 ≤ p.gamma := by
    unfold Particle.gamma; split <;> exact Real.sqrt_nonneg _
  have hchi : 0 ≤ chi := by
    unfold calculateChi at hc
    simp only [Res.bind_eq_ok] at hc
    obtain ⟨_, _, _, _, _, _, _, _, _, _, _, _, _, _, hc⟩ := hc
    simp only [Res.ok.injEq, real_pow, real_lit] at hc
    rw [← hc]; positivity
  have heta : 0 ≤ calculateEta cfg.field p := by
    unfold calculateEta
    simp only [real_mul, real_sqrt]
    positivity
  simp only [real_lit, real_mul, real_div]
  push_cast
  positivity

theorem totalEnergy_append (a b : List (Particle ℝ)) : totalEnergy (a ++ b) = totalEnergy a + totalEnergy b := by
  simp [totalEnergy]

/-- What storing the photon adds. -/
theorem store_energy (cfg : EmissionCfg ℝ) (q : Particle ℝ) {g : ℝ} (hg : 0 ≤ g) (l : PList ℝ) (r : Rng ℝ) :
    ∃ new, (storePhoton cfg q g l r).1.items = l.items ++ new ∧
      (∀ x ∈ new, x.kind = .photon ∧ x.mass = 0 ∧ x.charge = 0 ∧ x.time = q.time) ∧ totalEnergy new ≤ g ∧
      (q.direction = ⟨0, 0, 0⟩ → totalEnergy new ≤ 0) ∧
      r.pos ≤ (storePhoton cfg q g l r).2.pos ∧ (storePhoton cfg q g l r).2.draw = r.draw := by
  unfold storePhoton
  split
  · split
    · refine ⟨_, PList.add_items l _, ?_, ?_, ?_, by simp [Rng.next]; omega, rfl⟩
      · intro x hx
        rw [List.mem_singleton.mp (List.mem_of_mem_take hx)]
        exact ⟨rfl, by simp [Particle.newPhotonE, Particle.new], by simp [Particle.newPhotonE, Particle.new], rfl⟩
      · have hle : (Particle.newPhotonE g q.position q.direction (q.weight /. cfg.sampleFrac) q.time cfg.track
            r.next.2.next.1).energy ≤ g := by
          rw [photon_energy rfl]
          show len (q.direction.norm.smul g).toVec ≤ g
          by_cases h0 : q.direction = ⟨0, 0, 0⟩
          · have : (q.direction.norm.smul g) = ⟨0, 0, 0⟩ := by
              rw [h0]
              simp [V3.norm, V3.divs, V3.smul]
            rw [this]
            simpa [len, V3.toVec] using hg
          · rw [len_smul_unit h0, abs_of_nonneg hg]
        rcases hn : l.maxParticles - l.items.length with _ | n
        · simpa [totalEnergy] using hg
        · simpa [totalEnergy] using hle
      · intro h0
        have : (Particle.newPhotonE g q.position q.direction (q.weight /. cfg.sampleFrac) q.time cfg.track
            r.next.2.next.1).energy = 0 := by
          rw [photon_energy rfl]
          show len (q.direction.norm.smul g).toVec = 0
          rw [h0]
          simp [V3.norm, V3.divs, V3.smul, len, V3.toVec]
        rcases hn : l.maxParticles - l.items.length with _ | n
        · simp [totalEnergy]
        · simpa [totalEnergy] using this.le
    · exact ⟨[], by simp, by simp, by simpa [totalEnergy] using hg, by simp [totalEnergy], by simp [Rng.next], rfl⟩
  · exact ⟨[], by simp, by simp, by simpa [totalEnergy] using hg, by simp [totalEnergy], le_rfl, rfl⟩

/-- The energy before and after a call of stochastic emission. Each emission takes at least two random numbers. -/
theorem emission_budget {em : EmissionCfg ℝ} (hO : NeverOverdraws em) {p p' : Particle ℝ} {l l' : PList ℝ}
    {r r' : Rng ℝ} (hr : r.Valid) (ho : Ordinary p) (h : stochasticInteract em p l r = .ok (p', l', r')) :
    ∃ new, l'.items = l.items ++ new ∧
      (∀ x ∈ new, x.kind = .photon ∧ x.mass = 0 ∧ x.charge = 0 ∧ x.time = p.time) ∧
      r.pos ≤ r'.pos ∧ r'.draw = r.draw ∧
      p'.energy + totalEnergy new ≤ p.energy + Real.sqrt 2 / 2 * (r'.pos - r.pos) ∧
      p'.kind = p.kind ∧ p'.mass = p.mass ∧ p'.charge = p.charge ∧ p'.time = p.time := by
  have h2 : 0 ≤ Real.sqrt 2 := Real.sqrt_nonneg 2
  rcases stochastic_cases h with ⟨_, rfl, rfl, rfl⟩ | ⟨⟨hm, ha⟩, delta, hrate, h'⟩
  · exact ⟨[], by simp, by simp, le_rfl, rfl, by simp [totalEnergy], rfl, rfl, rfl, rfl⟩
  have hk : p.kind ≠ .photon := fun hk => by
    rw [real_eq, ho.1 hk] at hm
    simp at hm
  have hmass := ho.2 hk
  rcases h' with ⟨_, rfl, rfl, rfl⟩ | ⟨hused, chi, u, uInit, -⟩
  · refine ⟨[], by simp, by simp, le_rfl, rfl, ?_, rfl, rfl, rfl, rfl⟩
    have : (p.updateOpticalDepth delta).energy = p.energy := rfl
    rw [this]
    simp [totalEnergy]
  obtain ⟨_, he⟩ := interact_effect (proc := .stochastic em) h
  have hsame := he.same
  obtain ⟨g, hem⟩ : ∃ g, Emits em p (r.draw r.pos) delta g := by
    obtain ⟨logh, hl, hd⟩ := hrate
    unfold stochasticInteract at h
    rw [if_neg (by rw [hm, ha]; decide)] at h
    dsimp only at h
    rw [hl, Res.ok_bind, ← hd] at h
    rw [if_pos (show ((p.updateOpticalDepth delta).opticalDepth <. Dbl.lit 0) = true from hused),
      Res.bind_eq_ok] at h
    obtain ⟨chi, hc, -⟩ := h
    exact ⟨_, hm, ha, ⟨logh, hl, hd⟩, hused, chi, hc, rfl⟩
  have hg := emits_nonneg hem
  have hrun := h
  rw [stochastic_emit hem] at h
  obtain ⟨f1, f2, f3, f4⟩ := recoiled_fields p delta g
  obtain ⟨new, s1, s2, s3, s6, s4, s5⟩ := store_energy em (recoiled p delta g) hg l r.next.2
  simp only [Res.ok.injEq, Prod.mk.injEq] at h
  obtain ⟨h1, rfl, h3⟩ := h
  have hmom : p'.momentum = p.momentum.sub (p.direction.smul g) := by
    rw [← h1]
    exact f4
  have hpos : r.pos + 2 ≤ r'.pos := by
    rw [← h3]
    have : r.next.2.pos = r.pos + 1 := rfl
    show r.pos + 2 ≤ (storePhoton em (recoiled p delta g) g l r.next.2).2.pos + 1
    omega
  refine ⟨new, s1, fun x hx => ?_, by omega, ?_, ?_, hsame.kind, hsame.mass, hsame.charge, hsame.time⟩
  · obtain ⟨x1, x2, x3, x4⟩ := s2 x hx
    exact ⟨x1, x2, x3, x4.trans f3⟩
  · rw [← h3]
    exact s5
  have hpos' : Real.sqrt 2 ≤ Real.sqrt 2 / 2 * (r'.pos - r.pos) := by
    have : (2 : ℝ) ≤ r'.pos - r.pos := by
      have : ((r.pos + 2 : ℕ) : ℝ) ≤ r'.pos := by exact_mod_cast hpos
      push_cast at this
      linarith
    nlinarith
  by_cases h0 : p.momentum = ⟨0, 0, 0⟩
  · have hd : p.direction = ⟨0, 0, 0⟩ := by
      unfold Particle.direction
      rw [h0]
      simp [V3.norm, V3.divs]
    have hm0 : p'.momentum = p.momentum := by
      rw [hmom, hd]
      ext <;> simp [V3.sub, V3.smul]
    have hd' : (recoiled p delta g).direction = ⟨0, 0, 0⟩ := by
      unfold Particle.direction
      rw [f4, ← hmom, hm0, h0]
      simp [V3.norm, V3.divs]
    have he : p'.energy = p.energy := by
      rw [lepton_energy hk hmass, lepton_energy (by rw [hsame.kind]; exact hk) (by rw [hsame.mass]; exact hmass), hm0]
    have := s6 hd'
    linarith
  have hkey : p'.energy + g ≤ p.energy + Real.sqrt 2 := by
    rw [lepton_energy hk hmass, lepton_energy (by rw [hsame.kind]; exact hk) (by rw [hsame.mass]; exact hmass)]
    have hlen : len p'.momentum.toVec ^ 2 = (len p.momentum.toVec - g) ^ 2 := by
      rw [hmom, sub_dir p h0]
      unfold Particle.direction
      rw [len_smul_unit h0, sq_abs, mag_eq]
    rw [hlen]
    have hle := hO p l r p' _ r' hr hk hmass h0 hrun
    have hrec : p.momentum.sub p'.momentum = p.direction.smul g := by
      rw [hmom]
      ext <;> simp [V3.sub]
    rw [hrec] at hle
    unfold Particle.direction at hle
    rw [len_smul_unit h0, abs_of_nonneg hg, lepton_energy hk hmass] at hle
    have := excess_le (len_nonneg p.momentum.toVec) hle
    linarith
  linarith

end QED
