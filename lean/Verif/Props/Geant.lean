import Verif.Lemmas.Geant
import Verif.Lemmas.Witness
import Verif.Props.Particles
import Verif.Props.Pushers

set_option autoImplicit false
set_option linter.unusedSectionVars false

/-!
# Properties C76, C82: the Geant4 primary generator
-/

namespace QED

open Dbl MCTools G4

section generic
variable {D : Type} [Dbl D]

/-! ## C76 The generator fires every cascade particle exactly once -/

/-- C76: whatever calls have been made, the generator has fired, one per call and in this order, the
particles of the events simulated so far, the newest of each event first; the particles not yet fired
(`rest`) all belong to the last event; and it asks for the run to be aborted only when every event the source
holds has been simulated and every particle of it fired, and then for ever. -/
theorem C76_fired (cfg : SimCfg D) (s : Source D) (r : Rng D) (hn : s.nPart < 2 ^ 32)
    (out : List (Option (Shot D))) (g : Gen D) (h : Calls (Gen.new cfg s r) out g) :
    ∃ (events : List (PList D)) (s' : Source D) (r' : Rng D) (fired rest : List (Particle D)) (aborts : Nat),
      Cascade cfg s r events s' r' ∧ events.length ≤ s.nPart ∧
      newestFirst events = fired ++ rest ∧
      (∀ l, events.getLast? = some l → rest <:+ l.items.reverse) ∧ (events = [] → rest = []) ∧
      out = fired.map (fun p => some (shotOf p)) ++ List.replicate aborts none ∧
      (0 < aborts → events.length = s.nPart ∧ rest = []) := by
  obtain ⟨es, fired, m, a, hi⟩ := Calls.inv hn h
  rcases hi.last with ⟨h1, h2, h3⟩ | ⟨es', l, h1, h2, -, -, h3, h4⟩
  · refine ⟨es, _, _, fired, [], a, hi.cascade, hi.le, ?_, ?_, fun _ => rfl, hi.out, fun ha => ?_⟩
    · subst h1 h3; rfl
    · intro l hl; exact List.nil_suffix
    · exact ⟨(hi.aborted ha).2, rfl⟩
  · refine ⟨es, _, _, fired, (l.items.take m).reverse, a, hi.cascade, hi.le, h4, ?_, ?_, hi.out,
      fun ha => ?_⟩
    · intro l' hl'
      rw [h1, List.getLast?_append] at hl'
      simp at hl'
      subst hl'
      rw [List.reverse_suffix]
      exact List.take_prefix _ _
    · intro h0; rw [h1] at h0; simp at h0
    · obtain ⟨h5, h6⟩ := hi.aborted ha
      subst h5
      exact ⟨h6, by simp⟩

/-- C76: the generator itself never fails. If a call does not return normally, then the cascade code failed
on an event that the source had made: the generator never reads outside an event, never uses an event that
does not exist, and never asks a depleted source. -/
theorem C76_safe (hl : SaneLits D) (cfg : SimCfg D) (c : SourceConf D) (raw : RawDraws D) (s : Source D)
    (hb : c.build raw = .ok s) (hr : raw.Sized c.n) (sp : Kind) (hk : speciesOf c.type = some sp)
    (hn : c.n < 2 ^ 32) (r : Rng D)
    (out : List (Option (Shot D))) (g : Gen D) (h : Calls (Gen.new cfg s r) out g)
    (o : Res (Option (Shot D) × Gen D)) (ho : Generate g o) (hno : ∀ x, o ≠ .ok x) :
    ∃ l s' r' n o', g.source.generateList g.rng = .ok (l, s', r') ∧ Run cfg (.init l r' []) n o' ∧
      (∀ x, o' ≠ .ok x) ∧ o = (o' >>= fun _ => .ok (none, g)) := by
  obtain ⟨hf, hns, hpc, hty⟩ := build_full c raw s hb hr
  obtain ⟨es, fired, m, a, hi⟩ := Calls.inv (by rw [hns]; exact hn) h
  have hsrc := cascade_source hi.cascade
  have hnp : g.source.nPart = s.nPart := by rw [hsrc]
  cases ho with
  | abort => exact absurd rfl (hno _)
  | next h1 =>
    cases m with
    | zero => exact absurd hi.secondary h1
    | succ m =>
      obtain ⟨p, hfire, _⟩ := hi.fire
      exact absurd hfire (hno _)
  | simulate h1 h2 h3 =>
    have hm : m = 0 := by have := hi.secondary; omega
    subst hm
    have hlt : es.length < s.nPart := by
      have := hi.le; rw [hi.count, hnp] at h1; omega
    have hgen : ∃ l r', g.source.generateList g.rng =
        .ok (l, { g.source with partCount := g.source.partCount + 1 }, r') ∧
        EventOf g.source sp g.source.partCount l := by
      apply generateList_step hl
      · rw [hsrc]; show speciesOf s.type = _; rw [hty]; exact hk
      · rw [hsrc]; exact ⟨hf.x, hf.y, hf.z, hf.theta, hf.phi, hf.energy⟩
      · rw [hsrc]; show s.partCount + es.length < s.nPart; omega
    obtain ⟨l, r', hgen, -⟩ := hgen
    cases h3 with
    | stale h4 h5 =>
      rcases hi.last with ⟨h6, -, -⟩ | ⟨_, _, _, h6, _⟩
      · exact absurd (by rw [hi.count, h6]; rfl) h4
      · rw [h5] at h6; cases h6
    | source _ hs hnok =>
      rw [hgen] at hs
      exact absurd hs.symm (hnok _)
    | @loop l' s' r'' n o' _ hg hrun =>
      cases o' with
      | ok e =>
        obtain ⟨m, hi'⟩ := hi.event (by rw [hns]; exact hn) (by rw [hnp] at h1; exact h1) hg hrun
        obtain ⟨p, hfire, _⟩ := hi'.fire
        rw [Res.ok_bind, Res.ok_bind, hfire] at hno
        exact absurd rfl (hno _)
      | exit c => exact ⟨_, _, _, n, .exit c, hg, by rw [← hi.sim]; exact hrun, by simp, rfl⟩
      | throw w => exact ⟨_, _, _, n, .throw w, hg, by rw [← hi.sim]; exact hrun, by simp, rfl⟩
      | ub w => exact ⟨_, _, _, n, .ub w, hg, by rw [← hi.sim]; exact hrun, by simp, rfl⟩

/-- C76: and it does fire them all. If the cascade code gets through every event of the source, then the
calls go through as well: all particles of all events are fired, and any number of further calls only ask for
the run to be aborted. -/
theorem C76_complete (cfg : SimCfg D) (s : Source D) (r : Rng D) (hn : s.nPart < 2 ^ 32)
    (events : List (PList D)) (s' : Source D) (r' : Rng D) (h : Cascade cfg s r events s' r')
    (hall : events.length = s.nPart) (aborts : Nat) :
    ∃ g, Calls (Gen.new cfg s r)
      ((newestFirst events).map (fun p => some (shotOf p)) ++ List.replicate aborts none) g := by
  have key : ∀ (es : List (PList D)) (s' : Source D) (r' : Rng D), Cascade cfg s r es s' r' →
      es.length ≤ s.nPart → ∃ out g fired, Calls (Gen.new cfg s r) out g ∧
        Inv cfg s r out g es fired 0 0 ∧ g.source = s' ∧ g.rng = r' := by
    intro es s' r' hc
    induction hc with
    | nil => intro _; exact ⟨[], _, [], .nil, Inv.start cfg s r, rfl, rfl⟩
    | @snoc es s1 r1 l s2 r2 n e hc hg hr ih =>
      intro hle
      rw [List.length_append, List.length_singleton] at hle
      obtain ⟨out, g, fired, hcalls, hi, hs, hrr⟩ := ih (by omega)
      subst hs hrr
      have hne : g.currentEvent ≠ s.nPart := by rw [hi.count]; omega
      have hr' : Run g.sim (.init l r2 []) n (.ok e) := by rw [hi.sim]; exact hr
      obtain ⟨m, hi'⟩ := hi.event hn hne hg hr'
      obtain ⟨p, hf, hi''⟩ := hi'.fire
      have hcalls' : Calls (Gen.new cfg s r) (out ++ [some (shotOf p)])
          { g.withEvent s2 e with currentSecondary := (m : Int) - 1 } := by
        refine .snoc hcalls ?_
        have hsim : Simulate g (.ok (g.withEvent s2 e)) := by
          have := Simulate.loop (g := g) (o := .ok e) (by
            rcases hi.last with ⟨h6, -, -⟩ | ⟨_, _, _, h6, _⟩
            · left; rw [hi.count, h6]; rfl
            · right; rw [h6]; simp) hg hr'
          rwa [Res.ok_bind] at this
        have := Generate.simulate (by rw [cascade_source hi.cascade]; exact hne) hi.secondary hsim
        rwa [Res.ok_bind, hf] at this
      have hsrc : ({ g.withEvent s2 e with currentSecondary := (m : Int) - 1 } : Gen D).source = s2 ∧
          ({ g.withEvent s2 e with currentSecondary := (m : Int) - 1 } : Gen D).rng = e.rng :=
        ⟨rfl, rfl⟩
      have hdrain : ∀ (m : Nat) (out : List (Option (Shot D))) (fired : List (Particle D)) (g : Gen D),
          Inv cfg s r out g (es ++ [e.list]) fired m 0 → Calls (Gen.new cfg s r) out g →
          g.source = s2 → g.rng = e.rng →
          ∃ out' g' fired', Calls (Gen.new cfg s r) out' g' ∧
            Inv cfg s r out' g' (es ++ [e.list]) fired' 0 0 ∧ g'.source = s2 ∧ g'.rng = e.rng := by
        intro m
        induction m with
        | zero => intro out fired g h hc h1 h2; exact ⟨out, g, fired, hc, h, h1, h2⟩
        | succ m ih =>
          intro out fired g h hc h1 h2
          obtain ⟨p, hf, hi⟩ := h.fire
          refine ih _ _ _ hi (.snoc hc ?_) h1 h2
          rw [← hf]
          exact .next (by rw [h.secondary]; omega)
      exact hdrain m _ _ _ hi'' hcalls' hsrc.1 hsrc.2
  obtain ⟨out, g, fired, hc, hi, -, -⟩ := key events s' r' h hall.le
  have hfired : newestFirst events = fired := by
    rcases hi.last with ⟨h1, _, h2⟩ | ⟨_, _, _, _, _, _, _, hf⟩
    · subst h1 h2; rfl
    · simpa using hf
  have hout : out = (newestFirst events).map (fun p => some (shotOf p)) := by
    rw [hi.out, hfired]; simp [Function.comp_def]
  refine ⟨g, ?_⟩
  rw [← hout]
  induction aborts with
  | zero => simpa using hc
  | succ a ih =>
    rw [List.replicate_succ', ← List.append_assoc]
    exact .snoc ih (.abort (by rw [hi.count, hall, cascade_source hi.cascade]) hi.secondary)

/-! ## C82 What Geant4 is given -/

/-- The particle definition that belongs to a species. -/
def Kind.g4 : Kind → Def
  | .electron => .electron
  | .positron => .positron
  | .photon => .gamma

/-- C82, the part that holds: the shot has the particle definition of the species and the particle's
direction. -/
theorem C82_definition_partial (p : Particle D) :
    (shotOf p).definition = p.kind.g4 ∧ (shotOf p).direction = p.direction := by
  refine ⟨?_, rfl⟩
  unfold shotOf Particle.name Kind.g4
  cases p.kind <;> rfl

end generic

/-- One MeV in internal units (`m c² = 1`). -/
noncomputable def MeV : ℝ := 1e6 * 1.60217662e-19 / (9.10938356e-31 * 2.99792458e8 * 2.99792458e8)

theorem MeV_pos : 0 < MeV := by unfold MeV; norm_num

theorem g4Energy_eq : (Units.unitsSI : Units.UnitsSystem ℝ).g4Energy = MeV := by
  simp [Units.unitsSI, Units.SI_qe, Units.SI_me, Units.SI_c, MeV]

/-- The shot for a particle: species, kinetic energy in MeV, direction. -/
noncomputable def properShot (p : Particle ℝ) : Shot ℝ :=
  ⟨p.kind.g4, (p.energy - p.mass) / MeV, p.direction⟩

/-- The energy given to the gun is the total energy. -/
theorem C82_total_energy (p : Particle ℝ) : (shotOf p).energy * MeV = p.energy := by
  show p.energy /. (Units.unitsSI : Units.UnitsSystem ℝ).g4Energy * MeV = p.energy
  rw [g4Energy_eq, real_div, div_mul_cancel₀ _ MeV_pos.ne']

theorem shot_proper_iff (p : Particle ℝ) : shotOf p = properShot p ↔ p.mass = 0 := by
  obtain ⟨h1, h2⟩ := C82_definition_partial p
  have h3 := C82_total_energy p
  have hM := MeV_pos
  constructor
  · intro h
    rw [h] at h3
    simp only [properShot] at h3
    rw [div_mul_cancel₀ _ hM.ne'] at h3
    linarith
  · intro h
    have : (shotOf p).energy = (p.energy - p.mass) / MeV := by
      rw [h, sub_zero, ← h3, mul_div_cancel_right₀ _ hM.ne']
    rcases hs : shotOf p with ⟨d, e, v⟩
    rw [hs] at h1 h2 this
    simp only at h1 h2 this
    rw [properShot, h1, h2, this]

/-- C82 exactly: what is fired is the kinetic energy of the particles that still exist if and only if no
particle has been consumed and none has a mass. -/
theorem C82_exact_partial (events : List (PList ℝ)) :
    (newestFirst events).map shotOf = ((newestFirst events).filter (·.isAlive)).map properShot ↔
      ∀ l ∈ events, ∀ p ∈ l.items, p.isAlive = true ∧ p.mass = 0 := by
  have hmem : (∀ l ∈ events, ∀ p ∈ l.items, p.isAlive = true ∧ p.mass = 0) ↔
      ∀ p ∈ newestFirst events, p.isAlive = true ∧ p.mass = 0 := by
    unfold newestFirst
    simp only [List.mem_flatMap, List.mem_reverse]
    exact ⟨fun h p ⟨l, hl, hp⟩ => h l hl p hp, fun h l hl p hp => h p ⟨l, hl, hp⟩⟩
  rw [hmem]
  generalize newestFirst events = ps
  constructor
  · intro h
    have hlen : (ps.filter (·.isAlive)).length = ps.length := by
      have := congrArg List.length h
      simpa using this.symm
    have halive := List.length_filter_eq_length_iff.1 hlen
    rw [List.filter_eq_self.2 halive] at h
    intro p hp
    refine ⟨halive p hp, (shot_proper_iff p).1 ?_⟩
    exact List.map_inj_left.1 h p hp
  · intro h
    rw [List.filter_eq_self.2 fun p hp => (h p hp).1]
    exact List.map_inj_left.2 fun p hp => (shot_proper_iff p).2 (h p hp).2

namespace GeantWitness

/-- A source of one photon of energy 4 along `z`. -/
noncomputable def conf : SourceConf ℝ :=
  { type := "Photon", distro := "mono", n := 1, energy1 := 4, energy2 := 4, deltaPos := 0
    deltaTau := 0, deltaDir := 0, position := ⟨0, 0, 0⟩, direction := ⟨0, 0, 1⟩, track := false }

/-- All draws are one half. -/
noncomputable def rng : Rng ℝ := ⟨fun _ => 1 / 2, 0⟩

theorem half_lt_one : initDepth (1 / 2 : ℝ) < 1 := by
  have : Real.log (1 / 2) = - Real.log 2 := by rw [one_div, Real.log_inv]
  have h2 : (1 - 2⁻¹ : ℝ) = 1 / 2 := by norm_num
  simp only [initDepth, real_lit, real_mul, real_sub, real_log]
  norm_num
  rw [this]
  have := Real.log_lt_sub_one_of_pos (x := 2) (by norm_num) (by norm_num)
  linarith

/-- The photon of the source converts in the only step of the event. -/
theorem cascade : ∃ s : Source ℝ, conf.build (zeroRaw 1) = .ok s ∧ ∃ ph po el r', ∃ s',
    Cascade Witness.longCfg s rng [⟨"0", 1000000, [ph, po, el]⟩] s' r' ∧ ph.isAlive = false ∧
    ph.kind = .photon ∧ po.isAlive = true ∧ el.isAlive = true ∧ po.kind = .positron ∧
    el.kind = .electron ∧ po.mass = 1 ∧ el.mass = 1 := by
  obtain ⟨s, hs⟩ := SourceWitness.build_ok conf (zeroRaw 1) ⟨_, zeroRaw_energy _ _ _ le_rfl _⟩
  refine ⟨s, hs, ?_⟩
  obtain ⟨phi, en, hphi, hen, hsd⟩ := build_spec conf _ s hs
  have hphi' : phi = [0] := by
    unfold sampleUniform at hphi
    rw [if_pos SourceWitness.two_pi] at hphi
    cases hphi
    simp [zeroRaw]
  have hen' : en = [4] := by
    rw [zeroRaw_energy _ _ _ (by simp [conf])] at hen
    cases hen
    rfl
  subst hphi' hen'
  have hrot : ((⟨0, 0, 1⟩ : V3 ℝ).norm.rotateToAxis V3.ez).mulVec ⟨0, 0, 1⟩ = ⟨0, 0, 1⟩ := by
    have h1 : (⟨0, 0, 1⟩ : V3 ℝ).norm = ⟨0, 0, 1⟩ := V3.norm_of_unit (by simp [V3.dot])
    have := rotate_ez (d := ⟨0, 0, 1⟩) (by simp [V3.dot]) (by
      rw [h1, show (V3.ez : V3 ℝ).norm = V3.ez from V3.norm_of_unit (by simp [V3.dot])]
      simp [V3.add, V3.mag2, V3.dot]; norm_num)
    rw [h1]
    have hez : (V3.ez : V3 ℝ) = ⟨0, 0, 1⟩ := by simp [V3.ez]
    rw [hez] at this ⊢
    simpa using this
  have hgen : ∃ (p : Particle ℝ), s.generateList rng = .ok (⟨"0", 1000000, [p]⟩,
      { s with partCount := 1 }, ⟨fun _ => 1 / 2, 1⟩) ∧ p.kind = .photon ∧
      p.momentum = ⟨0, 0, 4⟩ ∧ p.isAlive = true ∧ p.opticalDepth < 1 ∧ p.mass = 0 := by
    have hx : (sampleNorm (lit 0) conf.deltaPos (zeroRaw 1).zx : List ℝ) = [0] := by
      simp [sampleNorm, conf, zeroRaw]
    have hy : (sampleNorm (lit 0) conf.deltaPos (zeroRaw 1).zy : List ℝ) = [0] := by
      simp [sampleNorm, conf, zeroRaw]
    have hz : (sampleNorm (lit 0) conf.deltaTau (zeroRaw 1).zz : List ℝ) = [0] := by
      simp [sampleNorm, conf, zeroRaw]
    have ht : (sampleNorm (lit 0) conf.deltaDir (zeroRaw 1).zTheta : List ℝ) = [0] := by
      simp [sampleNorm, conf, zeroRaw]
    rw [hx, hy, hz, ht] at hsd
    refine ⟨.newPhotonE 4 ((s.rotation.mulVec ⟨0, 0, 0⟩).add s.position)
      (s.rotation.mulVec (Source.sphere 0 0)) (lit 1) (lit 0) s.track (1 / 2), ?_, rfl, ?_, rfl,
      half_lt_one, by simp [Particle.newPhotonE, Particle.new]⟩
    · subst hsd
      rfl
    · have hsp : (Source.sphere 0 0 : V3 ℝ) = ⟨0, 0, 1⟩ := by simp [Source.sphere]
      show ((s.rotation.mulVec (Source.sphere 0 0)).norm.smul 4) = _
      rw [hsp, hsd]
      show (((⟨0, 0, 1⟩ : V3 ℝ).norm.rotateToAxis V3.ez).mulVec ⟨0, 0, 1⟩).norm.smul 4 = _
      rw [hrot, Witness.norm_z 1 one_pos]
      simp [V3.smul]
  obtain ⟨p, hg, hk, hm, ha, hd, h0⟩ := hgen
  obtain ⟨ph, po, el, hstep, h1, h2, h3, -, -, h4, -, h5, h6, h7, h8⟩ :=
    Witness.long_step p "0" 999996 1 hk hm ha hd h0
  rw [show 999996 + 4 = 1000000 from rfl] at hstep
  have hrun : Run Witness.longCfg (.init ⟨"0", 1000000, [p]⟩ ⟨fun _ => 1 / 2, 1⟩ []) 1
      (.ok ⟨⟨"0", 1000000, [ph, po, el]⟩, ⟨fun _ => 1 / 2, 1 + 3⟩, 1000, 0, []⟩) :=
    .step (by simp [EvState.init, Witness.longCfg]) hstep (.done (by simp [Witness.longCfg]))
  exact ⟨ph, po, el, _, _, .snoc .nil hg hrun, h1, h4, h2, h3, h5, h6, h7, h8⟩

end GeantWitness

/-- C82 is false: a source of one photon, whose photon converts. Four calls fire the electron and the
positron with their total instead of their kinetic energy, fire the photon, which no longer exists, and abort
the run. -/
theorem C82_refuted : ∃ (cfg : SimCfg ℝ) (c : SourceConf ℝ) (raw : RawDraws ℝ) (s : Source ℝ) (r : Rng ℝ)
    (g : Gen ℝ) (ph po el : Particle ℝ),
    c.build raw = .ok s ∧ raw.Sized c.n ∧ r.Valid ∧
    Calls (Gen.new cfg s r) [some (shotOf el), some (shotOf po), some (shotOf ph), none] g ∧
    ph.isAlive = false ∧ shotOf el ≠ properShot el ∧ shotOf po ≠ properShot po := by
  obtain ⟨s, hs, ph, po, el, r', s', hc, h1, h2, h3, h4, h5, h6, h7, h8⟩ := GeantWitness.cascade
  obtain ⟨-, hn, -, -⟩ := build_full _ _ s hs (zeroRaw_sized 1)
  have hn1 : s.nPart = 1 := hn
  obtain ⟨g, hg⟩ := C76_complete _ s _ (by rw [hn1]; norm_num) _ _ _ hc (by rw [hn1]; rfl) 1
  refine ⟨_, _, _, s, _, g, ph, po, el, hs, zeroRaw_sized 1, ?_, hg, h1, ?_, ?_⟩
  · intro i; simp [GeantWitness.rng]; norm_num
  · rw [Ne, shot_proper_iff, h8]; exact one_ne_zero
  · rw [Ne, shot_proper_iff, h7]; exact one_ne_zero

/-- The hypotheses of `C76_fired`, `C76_safe` and `C76_complete` are met by a source whose only event has
three particles. -/
example : ∃ (cfg : SimCfg ℝ) (c : SourceConf ℝ) (raw : RawDraws ℝ) (s s' : Source ℝ) (r r' : Rng ℝ)
    (l : PList ℝ), c.build raw = .ok s ∧ raw.Sized c.n ∧ speciesOf c.type = some .photon ∧
    s.nPart < 2 ^ 32 ∧ Cascade cfg s r [l] s' r' ∧ [l].length = s.nPart ∧ l.items.length = 3 := by
  obtain ⟨s, hs, ph, po, el, r', s', hc, -⟩ := GeantWitness.cascade
  obtain ⟨-, hn, -, -⟩ := build_full _ _ s hs (zeroRaw_sized 1)
  have hn1 : s.nPart = 1 := hn
  exact ⟨_, _, _, s, s', _, r', _, hs, zeroRaw_sized 1, by decide, by rw [hn1]; norm_num, hc,
    by rw [hn1]; rfl, rfl⟩

end QED
