import Verif.Lemmas.MirrorF64
import Verif.Lemmas.Draws

set_option autoImplicit false

/-!
# C141: mirror images agree bit for bit

Numbers are IEEE doubles with all their rounding. The mirror image of an experiment gives the
mirror image of its results, to the last bit.
-/

namespace QED

open Dbl MCTools

/-- In double precision, reversing any of the three coordinate axes reverses these coordinates of all
particles and recorded tracks of an event and changes nothing else, to the last bit: the same draws are
used, and energies, weights, optical depths and histograms are the same. -/
theorem C141_event {m : Mirror} {cfg cfg' : SimCfg F64} (h : m.Sims cfg cfg') (l : PList F64)
    (r : Rng F64) (hists : List (Hist F64)) (n : Nat) (l' : PList F64) (r' : Rng F64)
    (hists' : List (Hist F64)) :
    Event cfg l r hists n l' r' hists' ↔ Event cfg' (m.list l) r hists n (m.list l') r' hists' := by
  constructor
  · intro he
    exact Mirror.event_moved h he
  · intro he
    obtain ⟨l₁, hl, he'⟩ := Mirror.event_moved_inv h he
    rw [m.list_injective hl]
    exact he'

/-- Nothing else is an event of the mirrored experiment. -/
theorem C141_event_only {m : Mirror} {cfg cfg' : SimCfg F64} (h : m.Sims cfg cfg') (l : PList F64)
    (r : Rng F64) (hists : List (Hist F64)) (n : Nat) (l₁ : PList F64) (r' : Rng F64)
    (hists' : List (Hist F64)) (he : Event cfg' (m.list l) r hists n l₁ r' hists') :
    ∃ l', l₁ = m.list l' ∧ Event cfg l r hists n l' r' hists' :=
  Mirror.event_moved_inv h he

/-- An event that ends the program, or runs into undefined behaviour, does so after the same number
of time steps in the mirrors. -/
theorem C141_abort {m : Mirror} {cfg cfg' : SimCfg F64} (h : m.Sims cfg cfg') (l : PList F64)
    (r : Rng F64) (hists : List (Hist F64)) (n : Nat) (o : Res (EvState F64)) (ho : ∀ s, o ≠ .ok s) :
    Run cfg (.init l r hists) n o ↔ Run cfg' (.init (m.list l) r hists) n o := by
  have hmap : ∀ o : Res (EvState F64), (∀ s, o ≠ .ok s) → (o >>= fun s => .ok (m.state s)) = o := by
    intro o ho
    cases o with
    | ok s => exact absurd rfl (ho s)
    | exit c => rfl
    | throw w => rfl
    | ub w => rfl
  constructor
  · intro hr
    have := Mirror.run_moved h hr
    rw [hmap o ho] at this
    exact this
  · intro hr
    obtain ⟨o₁, ho₁, heq⟩ := Mirror.run_moved_inv h hr (.init l r hists) rfl
    have : ∀ s, o₁ ≠ .ok s := by
      rintro s rfl
      exact ho _ heq
    rw [hmap o₁ this] at heq
    rw [heq]; exact ho₁

/-- Energies, Lorentz factors, weights, kinds, times and optical depths have the same bits in the mirrors. -/
theorem C141_scalars (m : Mirror) (p : Particle F64) :
    (m.part p).energy = p.energy ∧ (m.part p).gamma = p.gamma ∧ (m.part p).weight = p.weight ∧
      (m.part p).name = p.name ∧ (m.part p).time = p.time ∧ (m.part p).opticalDepth = p.opticalDepth ∧
      (m.part p).isAlive = p.isAlive ∧ (m.part p).gammaHistory = p.gammaHistory ∧
      (m.part p).timeHistory = p.timeHistory :=
  ⟨m.energy_part p, m.gamma_part p, rfl, rfl, rfl, rfl, rfl, rfl, rfl⟩

/-- Every field has a mirror image, and that of a static field is a static field. -/
theorem C141_fields (m : Mirror) :
    (∀ f : Field F64, ∃ f', m.Fields f f') ∧
      ∀ e b : V3 F64, m.Fields (staticField e b) (staticField (m.vec e) (m.axial b)) :=
  ⟨fun f => ⟨_, m.fields_image f⟩, fun _ _ _ _ => rfl⟩

/-- An experiment that is its own mirror image stays so: no rounding ever breaks the symmetry. -/
theorem C141_symmetric {m : Mirror} {cfg : SimCfg F64} (h : m.Sims cfg cfg) (l : PList F64)
    (hl : m.list l = l) (r : Rng F64) (hists : List (Hist F64)) (n : Nat) (l' : PList F64) (r' : Rng F64)
    (hists' : List (Hist F64)) (he : Event cfg l r hists n l' r' hists') : m.list l' = l' := by
  have h1 := Mirror.event_moved h he
  rw [hl] at h1
  exact Mirror.event_functional h1 he

/-- In a field that is symmetric about the plane `z = 0`, particles that start and move in this plane never
leave it, and neither do the photons and leptons they create: their coordinates and momenta along z stay
exactly zero, unless a calculation fails altogether. -/
theorem C141_plane {cfg : SimCfg F64} (h : (Mirror.mk false false true).Sims cfg cfg) (l : PList F64)
    (hl : ∀ p ∈ l.items, InPlane p) (r : Rng F64) (hists : List (Hist F64)) (n : Nat) (l' : PList F64)
    (r' : Rng F64) (hists' : List (Hist F64)) (he : Event cfg l r hists n l' r' hists') :
    ∀ p ∈ l'.items, InPlane p := by
  have h1 : (Mirror.mk false false true).list l = l := by
    unfold Mirror.list
    rw [Mirror.map_fixed.mpr fun p hp => (Mirror.part_fixed p).mpr (hl p hp)]
  have h2 := congrArg PList.items (C141_symmetric h l h1 r hists n l' r' hists' he)
  intro p hp
  exact (Mirror.part_fixed p).mp (Mirror.map_fixed.mp h2 p hp)

/-- The same does not hold for an exchange of two axes: a photon whose components along x and z are
exchanged has another energy, because sums of three terms are rounded from left to right. -/
theorem C141_exchange_not_exact : ∃ v : V3 F64, ∀ (x : V3 F64) (w t u : F64) (tr : Bool),
    (Particle.newPhoton ⟨v.z, v.y, v.x⟩ v w t tr u).energy ≠
      (Particle.newPhoton x ⟨v.z, v.y, v.x⟩ w t tr u).energy := by
  refine ⟨⟨lit 50331648, lit (7 / 16), lit (7 / 16)⟩, ?_⟩
  intro x w t u tr h
  have h1 : (V3.mag ⟨lit 50331648, lit (7 / 16), lit (7 / 16)⟩ : F64) =
    V3.mag ⟨lit (7 / 16), lit (7 / 16), lit 50331648⟩ := h
  have h2 := congrArg Subtype.val h1
  rw [MirrorWitness.first, MirrorWitness.second] at h2
  simp at h2

/-- An electron in the plane `z = 0` of a magnetic field along z, with radiation reaction, through one step:
the mirror images about this plane and about the other two. -/
example : ∃ (cfg : SimCfg F64) (l l' : PList F64) (r : Rng F64),
    (Mirror.mk false false true).Sims cfg cfg ∧ (∀ p ∈ l.items, InPlane p) ∧ l.nPart = 1 ∧
      Event cfg l r [] 1 l' r [] ∧ (∃ cfg', (Mirror.mk true false false).Sims cfg cfg') ∧
      (∀ p ∈ l'.items, InPlane p) := by
  let cfg : SimCfg F64 := ⟨landauForce, staticField ⟨lit 0, lit 0, lit 0⟩ ⟨lit 0, lit 0, lit 1⟩, lit 1, lit 1, []⟩
  let p : Particle F64 := .newLepton (lit 1) (lit (-1)) ⟨lit 0, lit 0, lit 0⟩ ⟨lit 3, lit 4, lit 0⟩ (lit 1)
    (lit 0) true (lit 0)
  let r : Rng F64 := ⟨fun _ => lit 0, 0⟩
  have hz : -. (lit 0 : F64) = lit 0 := SignLaws.neg_zero
  have hs : (Mirror.mk false false true).Sims cfg cfg :=
    { push := rfl, pusher := .inr (.inl rfl), dt := rfl, timeEnd := rfl, procs := .nil
      field := fun t x => by
        show (V3.mk (lit 0) (lit 0) (lit 0), V3.mk (lit 0) (lit 0) (lit 1)) =
          (V3.mk (lit 0) (lit 0) (-. (lit 0 : F64)), V3.mk (-. (lit 0 : F64)) (-. (lit 0 : F64)) (lit 1))
        rw [hz] }
  have hp : InPlane p := ⟨.inl F64.zero_val, .inl F64.zero_val, by simp [p, Particle.newLepton, Particle.new],
    by simp [p, Particle.newLepton, Particle.new]⟩
  have hl : ∀ q ∈ (⟨"0", 10, [p]⟩ : PList F64).items, InPlane q := by
    intro q hq
    rw [List.mem_singleton.mp hq]; exact hp
  have h1 : (lit 0 +. lit 1 : F64).1 = .fin 1 := F64.zero_add_at F64.zero_val F64.one_val
  have he : Event cfg ⟨"0", 10, [p]⟩ r [] 1 ⟨"0", 10, [pushParticle cfg.push cfg.field cfg.dt p]⟩ r [] := by
    refine Event.mk (s := ⟨⟨"0", 10, [pushParticle cfg.push cfg.field cfg.dt p]⟩, r, lit 0 +. lit 1, 0, []⟩)
      (.step ?_ ((timeStep_nil rfl).2 ⟨_, _, rfl, rfl⟩) (.done ?_)) rfl
    · show ((lit 0 : F64).1 <. (lit 1 : F64).1) = true
      rw [F64.zero_val, F64.one_val]; simp
    · show ((lit 0 +. lit 1 : F64).1 <. (lit 1 : F64).1) = false
      rw [h1, F64.one_val]; simp
  obtain ⟨f', hf⟩ := (C141_fields (Mirror.mk true false false)).1 cfg.field
  refine ⟨cfg, _, _, r, hs, hl, rfl, he, ⟨⟨landauForce, f', lit 1, lit 1, []⟩, rfl,
    .inr (.inl rfl), hf, rfl, rfl, .nil⟩, C141_plane hs _ hl _ _ _ _ _ _ he⟩

/-- An event that runs into undefined behaviour: an emission table without entries. -/
example : ∃ (m : Mirror) (cfg cfg' : SimCfg F64) (l : PList F64) (r : Rng F64) (n : Nat) (w : String),
    m.z = true ∧ m.Sims cfg cfg' ∧ Run cfg (.init l r []) n (.ub w) := by
  let bw : BWCfg F64 := ⟨staticField ⟨lit 0, lit 0, lit 0⟩ ⟨lit 0, lit 0, lit 1⟩, lit 1, true, [], [], [], [], []⟩
  let cfg : SimCfg F64 := ⟨lorentzForce, bw.field, lit 1, lit 1, [.breitWheeler bw]⟩
  let p : Particle F64 := .newPhoton ⟨lit 0, lit 0, lit 0⟩ ⟨lit 1, lit 0, lit 0⟩ (lit 1) (lit 0) true (lit 0)
  obtain ⟨f', hf⟩ := (C141_fields (Mirror.mk false false true)).1 bw.field
  refine ⟨Mirror.mk false false true, cfg, ⟨lorentzForce, f', lit 1, lit 1, [.breitWheeler { bw with field := f' }]⟩,
    ⟨"0", 10, [p]⟩, ⟨fun _ => lit 0, 0⟩, 1, "out-of-bounds read", rfl,
    ⟨rfl, .inl rfl, hf, rfl, rfl, .cons (.breitWheeler _ _ hf) .nil⟩, ?_⟩
  refine .abort ?_ ?_ (by simp)
  · show ((lit 0 : F64).1 <. (lit 1 : F64).1) = true
    rw [F64.zero_val, F64.one_val]; simp
  · have hi : ∀ q : F64, Numerics.interpolate1D [] [] q = .ub "out-of-bounds read" := by
      intro q; rfl
    have hb : ∀ (p : Particle F64) (l : PList F64) (r : Rng F64), p.kind = .photon → p.isAlive = true →
        bwInteract bw p l r = .ub "out-of-bounds read" := by
      intro p l r hk ha
      unfold bwInteract
      rw [if_neg (by simp [Particle.typeName, hk, ha])]
      dsimp only
      rw [show bw.tAxis = [] from rfl, show bw.tData = [] from rfl, hi]
      rfl
    have hq := push_identity lorentzForce bw.field (lit 1) p
    unfold timeStep
    rw [histStep_nil rfl]
    simp only [Res.ok_bind, EvState.init]
    unfold advance
    dsimp only
    unfold particleLoop
    rw [if_pos (by simp [PList.nPart])]
    unfold visit
    rw [show PList.get ⟨"0", 10, [p]⟩ 0 = .ok p from rfl]
    simp only [Res.ok_bind]
    unfold interactAll interactAt
    rw [show cfg.push = lorentzForce from rfl, show cfg.field = bw.field from rfl, show cfg.dt = lit 1 from rfl]
    generalize pushParticle lorentzForce bw.field (lit 1) p = q at hq
    rw [show (PList.set ⟨"0", 10, [p]⟩ 0 q).get 0 = .ok q from rfl]
    simp only [Res.ok_bind]
    rw [Proc.interact, hb q _ _ (hq.1.trans rfl) (hq.2.2.2.2.2.1.trans rfl)]
    rfl

end QED
