import Verif.Lemmas.Processes
import Verif.Lemmas.Witness

set_option autoImplicit false

/-!
# Property C36: Breit-Wheeler conversion
-/

namespace QED

open MCTools Numerics

/-- A lepton of a pair as C36 describes it: same position, time, weight and direction as
the photon. -/
structure PairPartner (p q : Particle ℝ) : Prop where
  position : q.position = p.position
  time : q.time = p.time
  weight : q.weight = p.weight
  direction : q.momentum ≠ ⟨0, 0, 0⟩ → q.direction = p.direction
  alive : q.isAlive = true
  mass : q.mass = 1

theorem pairLepton_partner (c e : ℝ) (p : Particle ℝ) (hp : p.momentum ≠ ⟨0, 0, 0⟩) (tr : Bool)
    (u : ℝ) : PairPartner p (pairLepton c e p tr u) := by
  refine ⟨rfl, rfl, rfl, fun hm => ?_, rfl, by simp [pairLepton, Particle.newLepton, Particle.new]⟩
  have hunit : p.direction.dot p.direction = 1 := V3.norm_dot_self hp
  show (p.direction.smul (Real.sqrt (e * e - (1 : ℚ)))).norm = p.direction
  refine V3.norm_smul_pos hunit (lt_of_le_of_ne (Real.sqrt_nonneg _) fun h0 => hm ?_)
  show p.direction.smul (Real.sqrt (e * e - (1 : ℚ))) = ⟨0, 0, 0⟩
  rw [← h0]
  ext <;> simp [V3.smul]

theorem pairLepton_energy (c e : ℝ) (p : Particle ℝ) (hp : p.momentum ≠ ⟨0, 0, 0⟩) (tr : Bool)
    (u : ℝ) (he : 1 ≤ e) : (pairLepton c e p tr u).energy = e := by
  have hunit : p.direction.dot p.direction = 1 := V3.norm_dot_self hp
  have hk : (pairLepton c e p tr u).kind ≠ .photon := by
    simp only [pairLepton, Particle.newLepton, Particle.new, Particle.leptonKind]
    split <;> simp
  have hm2 : (pairLepton c e p tr u).momentum.mag2 = e * e - 1 := by
    show (p.direction.smul (Real.sqrt (e * e - (1 : ℚ)))).dot
      (p.direction.smul (Real.sqrt (e * e - (1 : ℚ)))) = _
    have h1 : Real.sqrt (e * e - 1) * Real.sqrt (e * e - 1) = e * e - 1 :=
      Real.mul_self_sqrt (by nlinarith)
    have : ∀ (a : V3 ℝ) (k : ℝ), (a.smul k).dot (a.smul k) = k * k * a.dot a := by
      intro a k; simp [V3.smul, V3.dot]; ring
    rw [this, hunit]; push_cast; rw [h1, mul_one]
  have hmass : (pairLepton c e p tr u).mass = 1 := by
    simp [pairLepton, Particle.newLepton, Particle.new]
  have hg : (pairLepton c e p tr u).gamma = e := by
    unfold Particle.gamma
    split
    · next h => exact absurd h hk
    · rw [hm2, hmass]
      simp
      rw [← sq, Real.sqrt_sq (by linarith)]
  unfold Particle.energy
  split
  · next h => exact absurd h hk
  · rw [hg, hmass]; simp

/-- What holds: if the list has room for two, and each of the leptons gets at least its
rest energy, a conversion is as C36 describes it. Otherwise nothing is added. Missing
from C36: lists with a single free slot, and splits that leave a lepton less than its
rest energy. -/
theorem C36_conversion_partial {cfg : BWCfg ℝ} {p : Particle ℝ} {l : PList ℝ} {r : Rng ℝ}
    {p' : Particle ℝ} {l' : PList ℝ} {r' : Rng ℝ} (h : bwInteract cfg p l r = .ok (p', l', r'))
    (hroom : l.nPart + 2 ≤ l.maxParticles) (hp : p.momentum ≠ ⟨0, 0, 0⟩)
    (hshare : ∀ s, bwSplit cfg (bwChi cfg.field p) (r.draw r.pos) = .ok s →
      1 ≤ s * p.energy ∧ 1 ≤ (1 - s) * p.energy) :
    (l'.items = l.items ∧ p'.isAlive = p.isAlive) ∨
    (p.kind = .photon ∧ p.isAlive = true ∧ p'.isAlive = false ∧
      ∃ pos ele, l'.items = l.items ++ [pos, ele] ∧
        pos.kind = .positron ∧ ele.kind = .electron ∧ pos.charge = 1 ∧ ele.charge = -1 ∧
        pos.energy + ele.energy = p.energy ∧ PairPartner p pos ∧ PairPartner p ele) := by
  rcases bw_cases h with ⟨_, rfl, rfl, _⟩ | ⟨⟨hk, ha⟩, delta, logt, _, _, hc⟩
  · exact Or.inl ⟨rfl, rfl⟩
  · rcases hc with ⟨_, rfl, rfl, _⟩ | ⟨_, rfl, _, s, u1, u2, hs, _, _, rfl⟩
    · exact Or.inl ⟨rfl, rfl⟩
    · right
      obtain ⟨h1, h2⟩ := hshare s hs
      unfold PList.nPart at hroom
      refine ⟨hk, ha, rfl, pairLepton 1 (s * p.energy) p cfg.track u1,
        pairLepton (-1) ((1 - s) * p.energy) p cfg.track u2, ?_, ?_, ?_, rfl, rfl, ?_,
        pairLepton_partner _ _ _ hp _ _, pairLepton_partner _ _ _ hp _ _⟩
      · rw [PList.add_items, PList.add_items, List.take_of_length_le (by simp; omega),
          List.take_of_length_le (by simp; omega)]
        simp
      · simp only [pairLepton, Particle.newLepton, Particle.new, Particle.leptonKind]
        rw [if_neg (by norm_num)]
      · simp [pairLepton, Particle.newLepton, Particle.new, Particle.leptonKind]
      · rw [pairLepton_energy _ _ _ hp _ _ h1, pairLepton_energy _ _ _ hp _ _ h2]; ring

/-- The hypotheses of `C36_conversion_partial` are met by a conversion. -/
example : ∃ p' l' r', bwInteract (Witness.bwCfg 1) Witness.photon Witness.start Witness.rng =
      .ok (p', l', r') ∧ p'.isAlive = false ∧ Witness.start.nPart + 2 ≤ Witness.start.maxParticles ∧
      Witness.photon.momentum ≠ ⟨0, 0, 0⟩ ∧
      ∀ s, bwSplit (Witness.bwCfg 1) (bwChi (Witness.bwCfg 1).field Witness.photon)
        (Witness.rng.draw Witness.rng.pos) = .ok s →
        1 ≤ s * Witness.photon.energy ∧ 1 ≤ (1 - s) * Witness.photon.energy := by
  obtain ⟨d, h⟩ := Witness.convert Witness.photon Witness.start Witness.rng 1 one_pos rfl
    Witness.photon_momentum rfl Witness.photon_depth rfl
  refine ⟨_, _, _, h, rfl, by simp [Witness.start, PList.nPart, PList.add, PList.new],
    by simp [Witness.photon_momentum], ?_⟩
  intro s hs
  rw [show bwChi (Witness.bwCfg 1).field Witness.photon = 1 from
    Witness.chi_eq _ rfl Witness.photon_momentum,
    show Witness.rng.draw Witness.rng.pos = 1 / 2 from rfl, Witness.split_eq] at hs
  have he : Witness.photon.energy = 4 := by
    show Witness.photon.momentum.mag = 4
    rw [Witness.photon_momentum]; exact Witness.mag_z 4 (by norm_num)
  cases hs
  rw [he]; norm_num

/-- C36 is false for a list with one free slot: the photon is killed, a positron is
added, and the electron is lost. -/
theorem C36_one_slot_refuted :
    ∃ (cfg : BWCfg ℝ) (p : Particle ℝ) (l : PList ℝ) (r : Rng ℝ) (p' : Particle ℝ) (l' : PList ℝ)
      (r' : Rng ℝ) (pos : Particle ℝ), r.Valid ∧ l.items = [p] ∧ l.maxParticles = 2 ∧
      bwInteract cfg p l r = .ok (p', l', r') ∧ p'.isAlive = false ∧
      l'.items = l.items ++ [pos] ∧ pos.charge = 1 := by
  obtain ⟨d, h⟩ := Witness.convert Witness.photon ⟨"0", 2, [Witness.photon]⟩ Witness.rng 1 one_pos rfl
    Witness.photon_momentum rfl Witness.photon_depth rfl
  exact ⟨_, _, _, _, _, _, _, _, Witness.rng_valid, rfl, rfl, h, rfl, rfl, rfl⟩

/-! ### A share below the rest energy -/

namespace Witness

/-- `Witness.bwCfg` over the extended reals. -/
noncomputable def bwCfgX : BWCfg XR where
  field := staticField ⟨.fin (1 / 2), .fin 0, .fin 0⟩ ⟨.fin 0, .fin 0, .fin 0⟩
  dt := .fin 1
  track := false
  tAxis := [.fin 0, .fin 1]
  tData := [.fin 0, .fin 0]
  chiAxis := [.fin 0, .fin 1, .fin 2]
  fractAxis := [.fin 0, .fin 1]
  fractTable := [[.fin 0, .fin 1], [.fin 0, .fin 1], [.fin 0, .fin 1]]

/-- A photon of energy 4 along z. -/
noncomputable def photonX : Particle XR :=
  .newPhoton ⟨.fin 0, .fin 0, .fin 0⟩ ⟨.fin 0, .fin 0, .fin 4⟩ (.fin 1) (.fin 0) false (.fin 0)

theorem magX : (⟨.fin 0, .fin 0, .fin 4⟩ : V3 XR).mag = .fin 4 := by
  simp only [V3.mag, V3.dot, XR.mul_fin, XR.add_fin]
  rw [XR.sqrt_fin _ (by norm_num)]
  norm_num [sqrt16]

theorem photonX_energy : photonX.energy = .fin 4 := magX

theorem photonX_direction : photonX.direction = ⟨.fin 0, .fin 0, .fin 1⟩ := by
  show (⟨.fin 0, .fin 0, .fin 4⟩ : V3 XR).norm = _
  simp only [V3.norm, V3.divs, magX]
  simp [XR.div_fin]

theorem chiX : bwChi bwCfgX.field photonX = .fin 1 := by
  unfold bwChi
  rw [photonX_direction, photonX_energy]
  simp only [bwCfgX, staticField, V3.dot, V3.smul, V3.sub, V3.cross, V3.add, V3.mag, XR.mul_fin,
    XR.add_fin, XR.sub_fin, XR.lit_eq]
  have hs : Real.sqrt (1 / 4) = 1 / 2 := by
    rw [show (1 / 4 : ℝ) = (1 / 2) ^ 2 by norm_num, Real.sqrt_sq (by norm_num)]
  rw [XR.sqrt_fin _ (by norm_num)]
  simp only [XR.mul_fin]
  norm_num at hs ⊢
  rw [hs]; norm_num

theorem log1 : Dbl.log10 (XR.fin 1) = .fin 0 := by
  rw [XR.log10_fin _ one_pos]; simp

theorem interpX (u : ℝ) (h0 : 0 ≤ u) (h1 : u < 1) (a b : ℝ) :
    interpolate1D [XR.fin 0, .fin 1] [.fin a, .fin b] (.fin u) = .ok (.fin (a + u * (b - a))) := by
  simp [interpolate1D, firstAbove, usub, rd, not_lt.mpr h0, h1, not_lt.mpr h1.le, XR.div_fin]

theorem splitX (u : ℝ) (h0 : 0 ≤ u) (h1 : u < 1) : bwSplit bwCfgX (.fin 1) (.fin u) = .ok (.fin u) := by
  have e1 : closestPoints bwCfgX.chiAxis (Dbl.log10 (XR.fin 1)) = .ok (0, .fin 0) := by
    rw [log1]
    simp [closestPoints, bwCfgX, scanLow, usub, rd, XR.div_fin]
  unfold bwSplit
  rw [e1]
  simp only [Res.ok_bind, bwCfgX, rd, List.getElem?_cons_zero, List.getElem?_cons_succ,
    interpX u h0 h1]
  simp

end Witness

/-- C36 is false for a photon of energy 4 whose draw splits it 1/8 to 7/8: the positron
gets a momentum of not-a-number. -/
theorem C36_nan_refuted :
    ∃ (cfg : BWCfg XR) (p : Particle XR) (l : PList XR) (r : Rng XR) (p' : Particle XR)
      (l' : PList XR) (r' : Rng XR) (pos ele : Particle XR), r.Valid ∧ p.energy = .fin 4 ∧
      bwInteract cfg p l r = .ok (p', l', r') ∧ p'.isAlive = false ∧
      l'.items = l.items ++ [pos, ele] ∧ pos.momentum = ⟨.nan, .nan, .nan⟩ := by
  let r : Rng XR := ⟨fun _ => .fin (1 / 8), 0⟩
  let cfg := Witness.bwCfgX
  let p := Witness.photonX
  have hlog : interpolate1D cfg.tAxis cfg.tData (Dbl.log10 (XR.fin 1)) = .ok (.fin 0) := by
    rw [Witness.log1]
    have := Witness.interpX 0 le_rfl one_pos 0 0
    simpa [cfg, Witness.bwCfgX] using this
  obtain ⟨d, hd, hpos⟩ : ∃ d : ℝ, bwDelta cfg.dt (.fin 1) (.fin 0) (.fin 4) = .fin d ∧ 0 < d := by
    obtain ⟨a, ha, hpos⟩ : ∃ a : ℝ, (Units.alpha : XR) = .fin a ∧ 0 < a :=
      ⟨_, rfl, by norm_num⟩
    refine ⟨1 * a * 1 * (10:ℝ) ^ (0:ℝ) / 4, ?_, by positivity⟩
    simp only [bwDelta, cfg, Witness.bwCfgX, ha, XR.lit_eq, XR.mul_fin]
    rw [XR.pow_fin _ _ (by norm_num), XR.mul_fin, XR.div_fin _ _ (by norm_num)]
    norm_num
  have hdepth : p.opticalDepth = .fin 0 := by
    simp [p, Witness.photonX, Particle.newPhoton, Particle.new, initDepth, Dbl.log, XR.logBase,
      show ¬ (1:ℝ) < 0 by norm_num]
  obtain ⟨q, hq, hrun⟩ : ∃ q, q = p.updateOpticalDepth (.fin d) ∧
      bwInteract cfg p (PList.new "0" 10) r = .ok (q.kill,
        ((PList.new "0" 10).add (pairLepton (.fin 1) (.fin (1 / 8) *. .fin 4) q false (.fin (1 / 8)))).add
          (pairLepton (.fin (-1)) ((Dbl.lit 1 -. .fin (1 / 8)) *. .fin 4) q false (.fin (1 / 8))),
        ⟨fun _ => .fin (1 / 8), 3⟩) := by
    refine ⟨_, rfl, ?_⟩
    unfold bwInteract
    rw [if_neg (by simp [p, Witness.photonX, Particle.typeName, Particle.newPhoton, Particle.new])]
    rw [show bwChi cfg.field p = .fin 1 from Witness.chiX]
    dsimp only
    rw [hlog, Res.ok_bind, show p.energy = .fin 4 from Witness.photonX_energy, hd]
    rw [if_pos (by
      show (p.opticalDepth -. .fin d <. Dbl.lit 0) = true
      rw [hdepth]; simp [hpos])]
    rw [show r.next.1 = .fin (1 / 8) from rfl, Witness.splitX _ (by norm_num) (by norm_num),
      Res.ok_bind, show (p.updateOpticalDepth (.fin d)).energy = .fin 4 from Witness.photonX_energy]
    simp [r, Rng.next, cfg, Witness.bwCfgX]
  refine ⟨cfg, p, PList.new "0" 10, r, _, _, _, _, _, ?_, Witness.photonX_energy, hrun, rfl, rfl, ?_⟩
  · intro i; simp [r]; norm_num
  · show (q.direction.smul (Dbl.sqrt ((.fin (1 / 8) *. .fin 4) *. (.fin (1 / 8) *. .fin 4) -.
      Dbl.lit 1))) = _
    simp only [XR.mul_fin, XR.lit_eq, XR.sub_fin]
    rw [XR.sqrt_neg _ (by norm_num)]
    simp [V3.smul]

end QED
