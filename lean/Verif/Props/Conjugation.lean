import Verif.Lemmas.Conjugation
import Verif.Lemmas.Emission
import Verif.Lemmas.Draws

set_option autoImplicit false

/-!
# C109: electrons and positrons are mirror images

True of pushing and radiation. False of pair production draw by draw: the share of
the energy that is drawn belongs to the positron, in the reversed field as well.

The positive part holds in every arithmetic in which reversing a sign is exact: for real numbers, for
real numbers with infinities, and bit for bit in double precision.
-/

namespace QED

open Dbl MCTools

/-- Without pair production, reversing the fields and exchanging electrons with positrons
exchanges them in every event and leaves all else as it is, for the same draws. -/
theorem C109_event_partial {D : Type} [Dbl D] [SignLaws D] {cfg : SimCfg D}
    (hpush : cfg.push = lorentzForce ∨ cfg.push = landauForce ∨ cfg.push = modLandauForce)
    (hprocs : ∀ pr ∈ cfg.procs, pr.Radiates) (l : PList D) (r : Rng D) (hists : List (Hist D))
    (n : Nat) (l' : PList D) (r' : Rng D) (hists' : List (Hist D)) :
    Event cfg l r hists n l' r' hists' ↔
      Event cfg.conj l.conj r (hists.map Hist.conj) n l'.conj r' (hists'.map Hist.conj) := by
  have fwd : ∀ {cfg : SimCfg D} (_ : Conj.Ok cfg) {l : PList D} {r : Rng D}
      {hists : List (Hist D)} {n : Nat} {l' : PList D} {r' : Rng D} {hists' : List (Hist D)},
      Event cfg l r hists n l' r' hists' →
      Event cfg.conj l.conj r (hists.map Hist.conj) n l'.conj r' (hists'.map Hist.conj) := by
    intro cfg hok l r hists n l' r' hists' he
    cases he with
    | mk hr hf =>
      have hr' := Conj.run_conj hok hr
      rw [Res.ok_bind] at hr'
      refine Event.mk hr' ?_
      have := Conj.fillRest_conj (EvState.list _) _ _ |>.trans (congrArg (· >>= _) hf)
      exact this
  have hok : Conj.Ok cfg := ⟨hpush, hprocs⟩
  refine ⟨fwd hok, fun h => ?_⟩
  have := fwd hok.conj h
  rw [Conj.cfg_conj, Conj.list_conj, Conj.list_conj, List.map_map, List.map_map] at this
  have hh : (Hist.conj ∘ Hist.conj : Hist D → Hist D) = id := funext Conj.hist_conj
  rwa [hh, List.map_id, List.map_id] at this

/-- An event that ends the program or runs into undefined behaviour does so after the same
number of steps with the species exchanged and the fields reversed. -/
theorem C109_abort_partial {D : Type} [Dbl D] [SignLaws D] {cfg : SimCfg D}
    (hpush : cfg.push = lorentzForce ∨ cfg.push = landauForce ∨ cfg.push = modLandauForce)
    (hprocs : ∀ pr ∈ cfg.procs, pr.Radiates) (l : PList D) (r : Rng D) (hists : List (Hist D))
    (n : Nat) (o : Res (EvState D)) (ho : ∀ s, o ≠ .ok s) :
    Run cfg (.init l r hists) n o ↔ Run cfg.conj (.init l.conj r (hists.map Hist.conj)) n o := by
  have fwd : ∀ {cfg : SimCfg D} (_ : Conj.Ok cfg) {l : PList D} {hists : List (Hist D)},
      Run cfg (.init l r hists) n o → Run cfg.conj (.init l.conj r (hists.map Hist.conj)) n o := by
    intro cfg hok l hists hr
    have := Conj.run_conj hok hr
    cases o with
    | ok s => exact absurd rfl (ho s)
    | exit c => exact this
    | throw w => exact this
    | ub w => exact this
  have hok : Conj.Ok cfg := ⟨hpush, hprocs⟩
  refine ⟨fwd hok, fun h => ?_⟩
  have := fwd hok.conj h
  rw [Conj.cfg_conj, Conj.list_conj, List.map_map] at this
  have hh : (Hist.conj ∘ Hist.conj : Hist D → Hist D) = id := funext Conj.hist_conj
  rwa [hh, List.map_id] at this

/-- What is recorded of a particle is the same for its image, but for name and charge. -/
theorem C109_image {D : Type} [Dbl D] [SignLaws D] (p : Particle D) :
    p.conj.energy = p.energy ∧ p.conj.gamma = p.gamma ∧ p.conj.position = p.position ∧
      p.conj.momentum = p.momentum ∧ p.conj.weight = p.weight ∧ p.conj.time = p.time ∧
      p.conj.posHistory = p.posHistory ∧ p.conj.momHistory = p.momHistory ∧
      p.conj.timeHistory = p.timeHistory ∧ p.conj.gammaHistory = p.gammaHistory ∧
      p.conj.charge = -. p.charge ∧ (p.name = "Electron" ↔ p.conj.name = "Positron") ∧
      (p.name = "Positron" ↔ p.conj.name = "Electron") ∧
      (p.name = "Photon" ↔ p.conj.name = "Photon") := by
  refine ⟨Conj.energy_conj p, Conj.gamma_conj p, rfl, rfl, rfl, rfl, rfl, rfl, rfl, rfl, rfl, ?_⟩
  rcases p with ⟨k, _⟩
  cases k <;> simp [Particle.conj, Particle.name, Kind.conj]

/-- Pair production does not see the sign of the fields: the photon has the same chance to
convert, and with the same draws it gives the same pair. -/
theorem C109_pairs_partial {D : Type} [Dbl D] [SignLaws D] (cfg : BWCfg D) (p : Particle D) (l : PList D)
    (r : Rng D) :
    bwInteract { cfg with field := cfg.field.conj } p l r = bwInteract cfg p l r :=
  Conj.bw_field_conj cfg p l r

/-- A conversion with shares 3/8 and 5/8. -/
theorem Witness.unequal (l : PList ℝ) :
    ∃ p' r', bwInteract (Witness.bwCfg 1) Witness.photon l ⟨fun _ => 3 / 8, 0⟩ = .ok (p',
      (l.add (pairLepton 1 (3 / 2) Witness.photon true (3 / 8))).add
        (pairLepton (-1) (5 / 2) Witness.photon true (3 / 8)), r') := by
  have he : Witness.photon.energy = 4 := by
    unfold Particle.energy
    rw [Witness.photon_momentum]; exact Witness.mag_z 4 (by norm_num)
  have hc : bwChi (Witness.bwCfg 1).field Witness.photon = 1 :=
    Witness.chi_eq _ rfl Witness.photon_momentum
  have hd : (0:ℝ) < bwDelta 1 1 0 4 := by simp [bwDelta, Units.alpha]; positivity
  have hlogt : Numerics.interpolate1D (Witness.bwCfg 1).tAxis (Witness.bwCfg 1).tData
      (Dbl.log10 (1:ℝ)) = .ok 0 := by
    simp [Numerics.interpolate1D, Witness.bwCfg, Numerics.firstAbove, Numerics.usub, rd]
  have hsplit : bwSplit (Witness.bwCfg 1) 1 (3 / 8) = .ok (3 / 8) := by
    have h1 : Numerics.closestPoints (Witness.bwCfg 1).chiAxis (Dbl.log10 (1:ℝ)) = .ok (0, 0) := by
      simp [Numerics.closestPoints, Witness.bwCfg, Numerics.scanLow, Numerics.usub, rd]
    have h2 : Numerics.interpolate1D [0, 1] (Witness.bwCfg 1).fractAxis (3 / 8 : ℝ) =
        .ok (3 / 8) := by
      simp [Numerics.interpolate1D, Witness.bwCfg, Numerics.firstAbove, Numerics.usub, rd]
      norm_num
    unfold bwSplit
    rw [h1]
    simp only [Res.ok_bind]
    rw [show (Witness.bwCfg 1).fractTable = [[0, 1], [0, 1], [0, 1]] from rfl]
    simp only [rd, List.getElem?_cons_zero, List.getElem?_cons_succ, Res.ok_bind, h2]
    simp
  refine ⟨(Witness.photon.updateOpticalDepth (bwDelta 1 1 0 4)).kill, ⟨fun _ => 3 / 8, 3⟩, ?_⟩
  unfold bwInteract
  rw [if_neg (by simp [Particle.typeName, Witness.photon, Particle.newPhotonE, Particle.new])]
  rw [hc]
  dsimp only
  rw [hlogt]
  simp only [Res.ok_bind]
  rw [show (Witness.bwCfg 1).dt = 1 from rfl, he]
  rw [if_pos (by simpa [Particle.updateOpticalDepth, Witness.photon_depth] using hd)]
  rw [show (Rng.next ⟨fun _ => (3 / 8 : ℝ), 0⟩).1 = 3 / 8 from rfl, hsplit]
  simp only [Res.ok_bind]
  have he' : (Witness.photon.updateOpticalDepth (bwDelta 1 1 0 4)).energy = 4 := he
  rw [he']
  have e1 : (3 / 8 : ℝ) *. 4 = 3 / 2 := by simp; norm_num
  have e2 : (Dbl.lit 1 -. (3 / 8 : ℝ)) *. 4 = 5 / 2 := by simp; norm_num
  rw [e1, e2]
  have hp : ∀ c e u : ℝ, pairLepton c e (Witness.photon.updateOpticalDepth (bwDelta 1 1 0 4))
      (Witness.bwCfg 1).track u = pairLepton c e Witness.photon true u := fun _ _ _ => rfl
  rw [hp, hp]
  simp [Rng.next]

/-- So the pair is not exchanged, in whatever order its members are listed: the draw for the
share decides the positron's energy in both cases. -/
theorem C109_refuted :
    ¬ ∀ (cfg : BWCfg ℝ) (p : Particle ℝ) (l : PList ℝ) (r : Rng ℝ) (p' : Particle ℝ)
      (l' : PList ℝ) (r' : Rng ℝ), bwInteract cfg p l r = .ok (p', l', r') →
      ∃ l₂ : PList ℝ, bwInteract { cfg with field := cfg.field.conj } p.conj l.conj r =
        .ok (p'.conj, l₂, r') ∧ l₂.items.Perm l'.conj.items := by
  intro h
  obtain ⟨p', r', hw⟩ := Witness.unequal ⟨"0", 10, []⟩
  obtain ⟨l₂, h2, hperm⟩ := h _ _ _ _ _ _ _ hw
  have hph : Witness.photon.conj = Witness.photon := Conj.newPhotonE_conj _ _ _ _ _ _ _
  have hl : (⟨"0", 10, []⟩ : PList ℝ).conj = ⟨"0", 10, []⟩ := rfl
  rw [C109_pairs_partial, hph, hl, hw] at h2
  obtain ⟨-, rfl, -⟩ := Res.ok.inj h2 |> fun e => by simpa [Prod.mk.injEq] using e
  set pos := pairLepton 1 (3 / 2) Witness.photon true (3 / 8 : ℝ) with hpos
  set ele := pairLepton (-1) (5 / 2) Witness.photon true (3 / 8 : ℝ) with hele
  have hmem : pos ∈ [pos.conj, ele.conj] := by
    refine hperm.mem_iff.mp ?_
    simp [PList.add]
  have hdir : Witness.photon.direction = ⟨0, 0, 1⟩ := by
    unfold Particle.direction; rw [Witness.photon_momentum]
    exact Witness.norm_z 4 (by norm_num)
  rcases List.mem_cons.mp hmem with e | e
  · have := congrArg Particle.charge e
    have h1 : pos.charge = 1 := rfl
    have h2 : pos.conj.charge = -1 := by show -pos.charge = -1; rw [h1]
    rw [h1, h2] at this
    norm_num at this
  · have := congrArg (fun p => p.momentum.z) (List.mem_singleton.mp e)
    have h1 : pos.momentum.z = Real.sqrt (5 / 4) := by
      simp [hpos, pairLepton, Particle.newLepton, Particle.new, hdir, V3.smul]; norm_num
    have h2 : ele.conj.momentum.z = Real.sqrt (21 / 4) := by
      show ele.momentum.z = _
      simp [hele, pairLepton, Particle.newLepton, Particle.new, hdir, V3.smul]; norm_num
    simp only [h1, h2] at this
    have := Real.sqrt_inj (by norm_num) (by norm_num) |>.mp this
    norm_num at this

/-- An electron that emits a photon, in a field and in its reverse. -/
example : ∃ (cfg : SimCfg ℝ) (l l' : PList ℝ) (r' : Rng ℝ),
    cfg.push = lorentzForce ∧ (∀ pr ∈ cfg.procs, pr.Radiates) ∧ l.conj ≠ l ∧
      Event cfg l Witness.rng [] 1 l' r' [] ∧
      Event cfg.conj l.conj Witness.rng [] 1 l'.conj r' [] ∧ r'.pos = 2 := by
  let em : EmissionCfg ℝ := Witness.emCfg (1 / 4) 1 10
  let cfg : SimCfg ℝ := ⟨lorentzForce, staticField ⟨0, 0, 0⟩ ⟨0, 0, 0⟩, 1, 1, [.stochastic em]⟩
  have hpr : ∀ pr ∈ cfg.procs, pr.Radiates := by
    intro pr hpr
    obtain rfl := List.mem_singleton.mp hpr
    trivial
  obtain ⟨x, hx⟩ : ∃ x, pushParticle lorentzForce (staticField ⟨0, 0, 0⟩ ⟨0, 0, 0⟩) 1
      Witness.electron = { Witness.electron with position := x, time := 1 } := by
    have hF : ∀ p : V3 ℝ, lorentzForce (1:ℝ) (-1) p ⟨0, 0, 0⟩ ⟨0, 0, 0⟩ = ⟨0, 0, 0⟩ := by
      intro p; simp [lorentzForce, V3.smul, V3.add, V3.cross, V3.divs]
    have hmass : Witness.electron.mass = 1 := rfl
    have hcharge : Witness.electron.charge = -1 := rfl
    have hal : Witness.electron.isAlive = true := rfl
    have htr : Witness.electron.tracking = false := rfl
    unfold pushParticle
    rw [if_neg (by simp [hal]), if_neg (by simp [hmass]), hmass, hcharge]
    have hrk : ∀ (t : ℝ) (y p : V3 ℝ), (rk4 lorentzForce (staticField ⟨0, 0, 0⟩ ⟨0, 0, 0⟩) 1 1 (-1)
        t y p).2 = p := by
      intro t y p
      unfold rk4 staticField
      dsimp only
      simp only [hF]
      ext <;> simp [V3.smul, V3.add]
    refine ⟨(rk4 lorentzForce (staticField ⟨0, 0, 0⟩ ⟨0, 0, 0⟩) 1 1 (-1) Witness.electron.time
      Witness.electron.position Witness.electron.momentum).1, ?_⟩
    dsimp only
    unfold Particle.updateTrack Particle.updateTime
    rw [hrk, htr]
    simp only [Bool.false_eq_true, if_false]
    have : Witness.electron.time +. 1 = 1 := by
      simp [Witness.electron, Particle.newLepton, Particle.new]
    rw [this]
  obtain ⟨delta, -, he⟩ := Witness.emits (1 / 4) 1 10 (by norm_num) (1 / 2) (by norm_num)
    (by norm_num)
  set q : Particle ℝ := { Witness.electron with position := x, time := 1 } with hq
  have heq : Emits em q (Witness.rng.draw Witness.rng.pos) delta (2 * (1 / 4) * Real.sqrt 2) :=
    ⟨he.lepton, he.alive, he.rate, he.used, he.energy⟩
  have hst : ∀ l : PList ℝ, ∀ p : Particle ℝ, ∀ r : Rng ℝ,
      storePhoton em p (2 * (1 / 4) * Real.sqrt 2) l r = (l, r) := by
    intro l p r
    unfold storePhoton
    rw [if_neg]
    have : Real.sqrt 2 ≤ 2 := by rw [Real.sqrt_le_left (by norm_num)]; norm_num
    have h10 : em.eMin = 10 := rfl
    rw [h10, real_lt, decide_eq_true_eq]
    linarith
  have hint : ∀ l : PList ℝ, stochasticInteract em q l Witness.rng =
      .ok ((recoiled q delta (2 * (1 / 4) * Real.sqrt 2)).initOpticalDepth (1 / 2), l,
        ⟨fun _ => 1 / 2, 2⟩) := by
    intro l
    rw [stochastic_emit heq]
    dsimp only
    rw [hst]
    rfl
  generalize (recoiled q delta (2 * (1 / 4) * Real.sqrt 2)).initOpticalDepth (1 / 2) = q' at hint
  have hadv : advance cfg ⟨"0", 1, [Witness.electron]⟩ Witness.rng =
      .ok (⟨"0", 1, [q']⟩, ⟨fun _ => 1 / 2, 2⟩) := by
    unfold advance
    dsimp only
    unfold particleLoop
    rw [if_pos (by simp [PList.nPart])]
    unfold visit
    rw [show PList.get ⟨"0", 1, [Witness.electron]⟩ 0 = .ok Witness.electron from rfl]
    simp only [Res.ok_bind]
    rw [show pushParticle cfg.push cfg.field cfg.dt Witness.electron = q from hx]
    rw [show cfg.procs = [.stochastic em] from rfl]
    unfold interactAll interactAt
    rw [show (PList.set ⟨"0", 1, [Witness.electron]⟩ 0 q).get 0 = .ok q from rfl]
    simp only [Res.ok_bind, Proc.interact, hint]
    rfl
  have hev : Event cfg ⟨"0", 1, [Witness.electron]⟩ Witness.rng [] 1 ⟨"0", 1, [q']⟩
      ⟨fun _ => 1 / 2, 2⟩ [] := by
    refine Event.mk (s := ⟨⟨"0", 1, [q']⟩, ⟨fun _ => 1 / 2, 2⟩, 1, 0, []⟩)
      (.step ?_ ((timeStep_nil rfl).2 ⟨_, _, hadv, ?_⟩) (.done ?_)) rfl
    · simp [EvState.init, cfg]
    · simp [EvState.init, cfg]
    · simp [cfg]
  refine ⟨cfg, _, _, _, rfl, hpr, ?_, hev,
    (C109_event_partial (.inl rfl) hpr _ _ _ _ _ _ _).mp hev, rfl⟩
  intro h
  have hi := congrArg PList.items h
  have h1 : Witness.electron.conj = Witness.electron := by simpa [PList.conj] using hi
  have h2 : -Witness.electron.charge = Witness.electron.charge := congrArg Particle.charge h1
  have h3 : Witness.electron.charge = -1 := rfl
  rw [h3] at h2
  norm_num at h2

/-- The laws of signs hold in all three arithmetics of the model. -/
example : SignLaws ℝ ∧ SignLaws XR ∧ SignLaws F64 := ⟨inferInstance, inferInstance, inferInstance⟩

end QED
