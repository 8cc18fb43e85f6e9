import Verif.Props.Source
import Verif.Props.Emission
import Verif.Lemmas.Survival
import Verif.Lemmas.Program
import Verif.Props.Rounding

set_option autoImplicit false

/-!
# The hypotheses of C13, C14, C16 and C97 can be met

These examples need witnesses that are built after the property files themselves.
-/

namespace QED

open MCTools

/-- C13: a list of capacity two to which three particles are added. -/
example : ∃ (l : PList ℝ) (added : List (Particle ℝ)), l.get 0 = .ok Witness.photon ∧
    added.length = 3 ∧ (added.foldl PList.add l).nPart = 2 ∧ l.maxParticles = 2 :=
  ⟨(PList.new "0" 2).add Witness.photon, [Witness.photon, Witness.photon, Witness.photon], by
    simp [PList.get, PList.add, PList.new], rfl, by
    simp [PList.add, PList.new, PList.nPart], by simp [PList.add, PList.new]⟩

/-- C14: an event of a tracked source after any number of time steps. -/
example (n : Nat) : ∃ (cfg : SimCfg ℝ) (src src' : Source ℝ) (r r' : Rng ℝ) (l : PList ℝ) (s : EvState ℝ),
    src.generateList r = .ok (l, src', r') ∧ Reach cfg (.init l r' []) s ∧ s.time = n ∧
      (∃ p ∈ s.list.items, p.tracking = true) := by
  let src : Source ℝ := ⟨"Electron", 1, ⟨0, 0, 0⟩, ⟨0, 0, 1⟩, [0], [0], [0], [0], [0], [5], 0,
    ⟨1, 0, 0, 0, 1, 0, 0, 0, 1⟩, true⟩
  have hf : src.Full := ⟨rfl, rfl, rfl, rfl, rfl, rfl⟩
  obtain ⟨l, r', hg, hev⟩ := generateList_step saneReal src .electron (by decide) hf
    (by show 0 < 1; omega) Witness.rng
  have hmax : 0 < l.maxParticles := by
    rcases generateList_total src hf (by show 0 < 1; omega) Witness.rng with h | ⟨_, _, _, h, -, hm⟩
    · rw [hg] at h; cases h
    · rw [hg] at h; cases h
      rw [hm]; exact Nat.succ_pos _
  obtain ⟨nm, mx, items⟩ := l
  obtain ⟨p, rfl, -, -, -, -, htr, -⟩ := hev.single
  let cfg : SimCfg ℝ := ⟨lorentzForce, staticField ⟨1, 2, 3⟩ ⟨0, 1, 0⟩, 1, 5, []⟩
  refine ⟨cfg, src, { src with partCount := src.partCount + 1 }, Witness.rng, r', ⟨nm, mx, [p]⟩, ?_⟩
  suffices h : ∃ s : EvState ℝ, Reach cfg (.init ⟨nm, mx, [p]⟩ r' []) s ∧ s.time = n ∧ s.hists = [] ∧
      ∃ q, s.list = ⟨nm, mx, [q]⟩ ∧ q.tracking = true by
    obtain ⟨s, h1, h2, -, q, h3, h4⟩ := h
    exact ⟨s, hg, h1, h2, q, by rw [h3]; simp, h4⟩
  induction n with
  | zero => exact ⟨_, .refl, by simp [EvState.init], rfl, p, rfl, htr⟩
  | succ n ih =>
    obtain ⟨s, h1, h2, h3, q, h4, h5⟩ := ih
    obtain ⟨f, rfl⟩ := Nat.exists_eq_succ_of_ne_zero hmax.ne'
    have hadv : advance cfg ⟨nm, f + 1, [q]⟩ s.rng =
        .ok (⟨nm, f + 1, [pushParticle cfg.push cfg.field cfg.dt q]⟩, s.rng) := by
      show particleLoop cfg (f + 1) 0 _ s.rng = _
      rw [particleLoop, if_pos (by simp [PList.nPart])]
      have hv : visit cfg 0 ⟨nm, f + 1, [q]⟩ s.rng =
          .ok (⟨nm, f + 1, [pushParticle cfg.push cfg.field cfg.dt q]⟩, s.rng) := rfl
      rw [hv, Res.ok_bind]
      cases f with
      | zero => rfl
      | succ f =>
        show particleLoop cfg (f + 1) 1 _ s.rng = _
        rw [particleLoop, if_neg (by simp [PList.nPart])]
    refine ⟨_, h1.step ((timeStep_nil h3).2 ⟨_, _, by rw [h4]; exact hadv, rfl⟩), ?_, h3, _, rfl, ?_⟩
    · show s.time +. 1 = _
      rw [h2]; simp
    · exact (push_identity cfg.push cfg.field cfg.dt q).2.2.2.2.1.trans h5

/-- The electron of `Witness` interacts whatever its optical depth. -/
theorem Witness.interacts (d : ℝ) (l : PList ℝ) (r : Rng ℝ) :
    ∃ q l' r', r.Valid → stochasticInteract (Witness.emCfg 1 1 0) (Witness.electron.withDepth d) l r =
      .ok (q, l', r') ∧ r'.Valid := by
  by_cases hr : r.Valid
  swap
  · exact ⟨Witness.electron, l, r, fun h => absurd h hr⟩
  obtain ⟨u0, u1⟩ := hr.mem r.pos
  obtain ⟨delta, -, he⟩ := Witness.emits 1 1 0 one_pos (r.draw r.pos) u0 u1
  by_cases hd : d - delta < 0
  · have he' : Emits (Witness.emCfg 1 1 0) (Witness.electron.withDepth d) (r.draw r.pos) delta
        (2 * 1 * Real.sqrt 2) :=
      ⟨he.lepton, he.alive, he.rate, by simpa [Particle.withDepth] using hd, he.energy⟩
    refine ⟨_, _, _, fun _ => ⟨stochastic_emit he', ?_⟩⟩
    intro i
    have hdraw : ∀ (p : Particle ℝ) (g : ℝ) (r : Rng ℝ),
        (storePhoton (Witness.emCfg 1 1 0) p g l r).2.draw = r.draw := by
      intro p g r
      unfold storePhoton
      split
      · split <;> rfl
      · rfl
    have : ∀ (p : Particle ℝ) (g : ℝ),
        (storePhoton (Witness.emCfg 1 1 0) p g l r.next.2).2.next.2.draw = r.draw := fun p g => hdraw p g _
    rw [this]
    exact hr i
  · obtain ⟨logh, h1, h2⟩ := he.rate
    refine ⟨(Witness.electron.withDepth d).updateOpticalDepth delta, l, r, fun _ => ⟨?_, hr⟩⟩
    have hl : emissionLogh (Witness.emCfg 1 1 0)
        (calculateEta (Witness.emCfg 1 1 0).field (Witness.electron.withDepth d)) = .ok logh := h1
    have h0 : ¬ (((Witness.electron.withDepth d).mass ==. Dbl.lit 0) ||
        !(Witness.electron.withDepth d).isAlive) = true := by
      simp [Particle.withDepth, Witness.electron, Particle.newLepton, Particle.new]
    unfold stochasticInteract
    rw [if_neg h0]
    dsimp only
    rw [hl, Res.ok_bind, if_neg]
    · rw [h2]; rfl
    · rw [h2] at hd
      show ¬ ((d -. emissionDelta (Witness.emCfg 1 1 0).dt
        (calculateEta (Witness.emCfg 1 1 0).field Witness.electron) logh Witness.electron.gamma <.
          Dbl.lit 0) = true)
      simpa using hd

/-- C16: an electron that goes on emitting forever. -/
example : ∃ (p q : Nat → Particle ℝ) (l l' : Nat → PList ℝ) (r r' : Nat → Rng ℝ),
    DepthHistory (.stochastic (Witness.emCfg 1 1 0)) p q l l' r r' ∧ (∀ i, (p i).isAlive = true) ∧
      (∀ i, (p i).mass ≠ 0) ∧ (p 0).opticalDepth = 0 := by
  choose q l' r' h using Witness.interacts
  let st : Nat → ℝ × PList ℝ × Rng ℝ := fun n => n.rec (0, PList.new "0" 10, Witness.rng)
    fun _ s => ((q s.1 s.2.1 s.2.2).opticalDepth, l' s.1 s.2.1 s.2.2, r' s.1 s.2.1 s.2.2)
  have hv : ∀ n, (st n).2.2.Valid := by
    intro n
    induction n with
    | zero => exact Witness.rng_valid
    | succ n ih => exact (h _ _ _ ih).2
  refine ⟨fun i => Witness.electron.withDepth (st i).1, fun i => q (st i).1 (st i).2.1 (st i).2.2,
    fun i => (st i).2.1, fun i => (st (i + 1)).2.1, fun i => (st i).2.2, fun i => (st (i + 1)).2.2,
    ⟨fun i => (h _ _ _ (hv i)).1, fun i => rfl, hv⟩, fun i => rfl, fun i => ?_, rfl⟩
  simp [Particle.withDepth, Witness.electron, Particle.newLepton, Particle.new]

/-- C16: a photon that converts at once. -/
example : ∃ (p q : Nat → Particle ℝ) (l l' : Nat → PList ℝ) (r r' : Nat → Rng ℝ),
    DepthHistory (.breitWheeler (Witness.bwCfg 1)) p q l l' r r' ∧ (∀ i, (p i).kind = .photon) ∧
      (∀ i ≤ 0, (p i).isAlive = true) ∧ (q 0).isAlive = false := by
  obtain ⟨delta, h⟩ := Witness.convert Witness.photon (PList.new "0" 10) Witness.rng 1 one_pos rfl
    Witness.photon_momentum rfl Witness.photon_depth rfl
  let dead := (Witness.photon.updateOpticalDepth delta).kill
  refine ⟨fun i => if i = 0 then Witness.photon else dead, fun _ => dead, fun _ => PList.new "0" 10,
    fun i => if i = 0 then ((PList.new "0" 10).add (pairLepton 1 2 Witness.photon true (1 / 2))).add
      (pairLepton (-1) 2 Witness.photon true (1 / 2)) else PList.new "0" 10, fun _ => Witness.rng,
    fun i => if i = 0 then ⟨fun _ => 1 / 2, Witness.rng.pos + 3⟩ else Witness.rng, ⟨fun i => ?_, fun i => by simp, fun _ => Witness.rng_valid⟩,
    fun i => ?_, fun i hi => ?_, rfl⟩
  · by_cases hi : i = 0
    · simp only [hi, if_true]; exact h
    · simp only [hi, if_false]
      show bwInteract _ dead _ _ = _
      unfold bwInteract
      rw [if_pos (.inr rfl)]
  · by_cases hi : i = 0
    · simp only [hi, if_true]; rfl
    · simp only [hi, if_false]; rfl
  · obtain rfl : i = 0 := by omega
    rfl

/-- C97: three ranks whose histograms hold one particle in each of two bins. -/
example : ∃ (h : Nat → Hist F64) (N : Nat → Nat → Nat), ((h 0).nBins < 2 ^ 31 ∧
      ∀ r < 3, (h r).nBins = (h 0).nBins ∧ (h r).values.length = (h 0).nBins) ∧
    (∀ r < 3, ∀ i < (h 0).nBins, ∃ w, (h r).values[i]? = some w ∧ w.1 = .fin (N r i)) ∧
    (∀ i < (h 0).nBins, ∑ r ∈ Finset.range 3, N r i ≤ 2 ^ 53) ∧ (h 0).nBins = 2 ∧ N 0 0 = 1 := by
  refine ⟨fun r => ⟨"a", "Energy", "Electron", 2, 0, Dbl.lit 0, [Dbl.lit 0, Dbl.lit 1],
    [Dbl.lit 1, Dbl.lit 1]⟩, fun _ _ => 1, ⟨by norm_num, fun r _ => ⟨rfl, rfl⟩⟩, ?_, ?_, rfl, rfl⟩
  · intro r _ i hi
    dsimp only at hi ⊢
    refine ⟨Dbl.lit 1, ?_, by rw [RoundingWitness.one_lit]; simp⟩
    interval_cases i <;> rfl
  · intro i _
    simp

end QED
