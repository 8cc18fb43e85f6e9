import Verif.Props.Main
import Verif.Props.Source
import Verif.Props.Histogram
import Verif.Model.Program

set_option autoImplicit false

/-!
# Property C91: the run is set up from the values read
-/

namespace QED

open Main MCTools

/-- C91 for times and fields: the event loop has the time step and the end time of the input, and a static
field has the given strengths at all times and places. -/
theorem C91_loop (t : Tables ℝ) (i : Input ℝ) (cfg : SimCfg ℝ) (h : setup t i = .ok cfg) :
    cfg.dt = i.general.timeStep ∧ cfg.timeEnd = i.general.timeEnd ∧
    (∀ e b, i.field = .static e b → ∀ time x, (cfg.field time x).1 = e ∧ (cfg.field time x).2 = b) ∧
    (∀ maxE wavelength pol direction, i.field = .plane maxE wavelength pol direction →
      ∃ f : PlaneField ℝ, cfg.field = f.getField ∧ f.maxE = maxE ∧ f.waveLength = wavelength ∧
        f.polAngle = pol ∧ f.rotation = direction.rotateToAxis V3.ez) ∧
    (∀ maxE wavelength duration waist pol start focus,
      i.field = .gaussian maxE wavelength duration waist pol start focus →
      ∃ f : GaussField ℝ, cfg.field = f.getField ∧ f.maxE = maxE ∧ f.waveLength = wavelength ∧
        f.tau = duration ∧ f.waist = waist ∧ f.polAngle = pol ∧ f.startPos = start ∧ f.focusPos = focus) ∧
    (∀ maxE wavelength duration waist pol start focus,
      i.field = .focusing maxE wavelength duration waist pol start focus →
      ∃ f : FocusField ℝ, cfg.field = f.getField ∧ f.maxE = maxE ∧ f.waveLength = wavelength ∧
        f.tau = duration ∧ f.waist = waist ∧ f.polAngle = pol ∧ f.t0 = (start.sub focus).mag) := by
  obtain ⟨field, push, procs, hf, -, rfl⟩ := setup_eq h
  refine ⟨rfl, rfl, ?_, ?_, ?_, ?_⟩
  · intro e b hi
    rw [hi] at hf
    obtain rfl := Res.ok.inj hf
    exact fun _ _ => ⟨rfl, rfl⟩
  · intro a b c d hi
    rw [hi] at hf
    obtain rfl := Res.ok.inj hf
    exact ⟨_, rfl, rfl, rfl, rfl, rfl⟩
  · intro a b c d e s f hi
    rw [hi] at hf
    obtain rfl := Res.ok.inj hf
    exact ⟨_, rfl, rfl, rfl, rfl, rfl, rfl, rfl, rfl⟩
  · intro a b c d e s f hi
    rw [hi] at hf
    obtain rfl := Res.ok.inj hf
    exact ⟨_, rfl, rfl, rfl, rfl, rfl, rfl, rfl⟩

/-- C91 for sources: as many events as asked for; in each one particle, displaced from the given position by
the radius times standard normal draws across and the duration times one along the beam, and pointing away
from the beam by the divergence times a standard normal draw. -/
theorem C91_source (g : GeneralParams ℝ) (p : ParticleParams ℝ) (raw : RawDraws ℝ) (s : Source ℝ)
    (h : makeSource g p raw = .ok s) (hr : raw.Sized p.number) (sp : Kind)
    (hk : speciesOf p.type = some sp) (r : Rng ℝ) (k : Nat) (hkn : k ≤ p.number) :
    ∃ (ls : List (PList ℝ)) (s' : Source ℝ) (r' : Rng ℝ), s.calls k r = .ok (ls, s', r') ∧ ls.length = k ∧
      ∀ (i : Nat) (l : PList ℝ), ls[i]? = some l → ∃ q, l.items = [q] ∧ q.kind = sp ∧ q.tracking = g.tracking ∧
        ∃ zx zy zz zTheta phi energy, raw.zx[i]? = some zx ∧ raw.zy[i]? = some zy ∧
          raw.zz[i]? = some zz ∧ raw.zTheta[i]? = some zTheta ∧ s.energy[i]? = some energy ∧
          q.position = ((p.direction.norm.rotateToAxis V3.ez).mulVec
            ⟨p.radius * zx, p.radius * zy, p.duration * zz⟩).add p.position ∧
          q.momentum = ((p.direction.norm.rotateToAxis V3.ez).mulVec
            ⟨Real.sin (p.divergence * zTheta) * Real.cos phi,
              Real.sin (p.divergence * zTheta) * Real.sin phi,
              Real.cos (p.divergence * zTheta)⟩).norm.smul energy := by
  let c : SourceConf ℝ := ⟨p.type, p.distro, p.number, p.energy1, p.energy2, p.radius, p.duration,
    p.divergence, p.position, p.direction, g.tracking⟩
  have hb : c.build raw = .ok s := h
  obtain ⟨ls, s', r', h1, h2, h3⟩ := C17_events saneReal c raw s sp hb hr hk r k hkn
  refine ⟨ls, s', r', h1, h2, fun i l hi => ?_⟩
  obtain ⟨-, q, q1, q2, -, -, -, q3, x, y, z, th, phi, en, a1, a2, a3, a4, a5, a6, a7, a8⟩ := h3 i l hi
  obtain ⟨ph, es, -, -, rfl⟩ := build_spec c raw s hb
  have key : ∀ (zs : List ℝ) (sig x : ℝ), (sampleNorm (Dbl.lit 0) sig zs)[i]? = some x →
      ∃ z, zs[i]? = some z ∧ x = sig * z := by
    intro zs sig x hx
    unfold sampleNorm at hx
    rw [List.getElem?_map] at hx
    cases hz : zs[i]? with
    | none => rw [hz] at hx; cases hx
    | some z =>
      rw [hz] at hx
      have := Option.some.inj hx
      simp at this
      exact ⟨z, rfl, by rw [← this]; ring⟩
  obtain ⟨zx, b1, rfl⟩ := key _ _ _ a1
  obtain ⟨zy, b2, rfl⟩ := key _ _ _ a2
  obtain ⟨zz, b3, rfl⟩ := key _ _ _ a3
  obtain ⟨zt, b4, rfl⟩ := key _ _ _ a4
  exact ⟨q, q1, q2.1, q3, zx, zy, zz, zt, phi, en, b1, b2, b3, b4, a6, a7, a8⟩

theorem makeSources_each {D : Type} [Dbl D] (g : GeneralParams D) (raws : Nat → Nat → RawDraws D) :
    ∀ (ps : List (ParticleParams D)) (j : Nat) (ss : List (Source D × Bool)),
      makeSources g raws j ps = .ok ss → ss.length = ps.length ∧
      ∀ i p, ps[i]? = some p → ∃ s, ss[i]? = some (s, p.output) ∧
        makeSource g p (raws (j + i) p.number) = .ok s
  | [], j, ss, h => by cases h; exact ⟨rfl, fun i p hi => by simp at hi⟩
  | p :: ps, j, ss, h => by
    unfold makeSources at h
    obtain ⟨s, hs, h⟩ := bind_eq_ok.1 h
    obtain ⟨ss', hss, h⟩ := bind_eq_ok.1 h
    cases h
    obtain ⟨h1, h2⟩ := makeSources_each g raws ps (j + 1) ss' hss
    refine ⟨by simp [h1], ?_⟩
    intro i q hi
    match i with
    | 0 =>
      cases hi
      exact ⟨s, rfl, hs⟩
    | i + 1 =>
      obtain ⟨s', e1, e2⟩ := h2 i q hi
      exact ⟨s', e1, by rw [← e2]; congr 2; omega⟩

/-- C91 for the list of sources: there is one for each particle section, in their order, each made from
random numbers of its own and with its own output flag. -/
theorem C91_sources {D : Type} [Dbl D] (g : GeneralParams D) (raws : Nat → Nat → RawDraws D)
    (ps : List (ParticleParams D)) (ss : List (Source D × Bool)) (h : makeSources g raws 0 ps = .ok ss) :
    ss.length = ps.length ∧ ∀ i p, ps[i]? = some p →
      ∃ s, ss[i]? = some (s, p.output) ∧ makeSource g p (raws i p.number) = .ok s := by
  have := makeSources_each g raws ps 0 ss h
  simpa using this

/-- C91 for the list of histograms: there is one for each section, in their order. -/
theorem C91_histograms {D : Type} [Dbl D] (garbage : Nat → Nat) (hs : List (HistogramParams D)) :
    (makeHists garbage 0 hs).length = hs.length ∧
    ∀ i h, hs[i]? = some h → (makeHists garbage 0 hs)[i]? = some (makeHist h (garbage i)) := by
  have key : ∀ (hs : List (HistogramParams D)) (j : Nat), (makeHists garbage j hs).length = hs.length ∧
      ∀ i h, hs[i]? = some h → (makeHists garbage j hs)[i]? = some (makeHist h (garbage (j + i))) := by
    intro hs
    induction hs with
    | nil => intro j; exact ⟨rfl, fun i h hi => by simp at hi⟩
    | cons a hs ih =>
      intro j
      obtain ⟨h1, h2⟩ := ih (j + 1)
      refine ⟨by simp [makeHists, h1], ?_⟩
      intro i h hi
      match i with
      | 0 => cases hi; rfl
      | i + 1 =>
        have := h2 i h hi
        rw [show j + 1 + i = j + (i + 1) by omega] at this
        exact this
  simpa using key hs 0

/-- C91 for the energies of a source: Gaussian about the mean with the given spread. -/
theorem C91_gaussian_energy (g : GeneralParams ℝ) (p : ParticleParams ℝ) (raw : RawDraws ℝ) (s : Source ℝ)
    (h : makeSource g p raw = .ok s) (hd : p.distro = "gaussian" ∨ p.distro = "Gaussian") :
    s.energy = raw.rawE.map fun z => p.energy1 + p.energy2 * z := by
  let c : SourceConf ℝ := ⟨p.type, p.distro, p.number, p.energy1, p.energy2, p.radius, p.duration,
    p.divergence, p.position, p.direction, g.tracking⟩
  obtain ⟨ph, es, -, he, rfl⟩ := build_spec c raw s h
  unfold Source.sampleEnergy at he
  rw [if_pos hd] at he
  dsimp only
  rw [← Res.ok.inj he]
  unfold sampleNorm
  apply List.map_congr_left
  intro z _
  simp only [real_add, real_mul]
  ring

/-- C91 for histograms: name, species, quantity and time are those asked for; there are as many bins, their
centres evenly spaced from the lower to the upper limit. -/
theorem C91_histogram (h : HistogramParams ℝ) (garbage : Nat) :
    let m := makeHist h garbage
    m.name = h.name ∧ m.particle = h.particle ∧ m.type = h.type ∧ m.time = h.time ∧
    m.centres.length = h.bins ∧ m.values = List.replicate h.bins 0 ∧
    ∀ i < h.bins, m.centres[i]? = some (h.minBin + i * ((h.maxBin - h.minBin) / (h.bins - 1))) := by
  intro m
  obtain ⟨-, h2, -⟩ := Hist.new_shape h.name h.particle h.type h.time h.minBin h.maxBin h.bins garbage
  refine ⟨rfl, rfl, rfl, rfl, ?_, ?_, ?_⟩
  · show (Hist.new h.name h.particle h.type h.time h.minBin h.maxBin h.bins garbage).centres.length = _
    rw [h2]; simp
  · simp [m, makeHist, Hist.new]
  · intro i hi
    show (Hist.new h.name h.particle h.type h.time h.minBin h.maxBin h.bins garbage).centres[i]? = _
    rw [h2, List.getElem?_map, List.getElem?_range hi]
    rfl

/-- A source of two electrons, a static field and a histogram. -/
example : ∃ (t : Tables ℝ) (i : Input ℝ) (cfg : SimCfg ℝ), setup t i = .ok cfg ∧
    i.field = .static ⟨1, 0, 0⟩ ⟨0, 2, 0⟩ := by
  refine ⟨⟨[], [], [], [], [], [], [], [], [], []⟩,
    ⟨⟨"SI", 1, 10, "out.h5", false⟩, .static ⟨1, 0, 0⟩ ⟨0, 2, 0⟩, [], ⟨"Classical", 0, 1, false⟩, []⟩, ?_⟩
  exact ⟨_, rfl, rfl⟩

open SourceWitness in
/-- A source of two electrons meets the hypotheses of `C91_source`. -/
example : ∃ (g : GeneralParams ℝ) (p : ParticleParams ℝ) (s : Source ℝ),
    makeSource g p SourceWitness.raw = .ok s ∧ SourceWitness.raw.Sized p.number ∧
    speciesOf p.type = some .electron ∧ p.number = 2 := by
  obtain ⟨s, hs⟩ := built
  exact ⟨⟨"SI", 1, 10, "out.h5", false⟩,
    ⟨2, "beam", "Electron", "mono", ⟨1, 2, 3⟩, ⟨0, 0, 4⟩, 5, 5, 1, 0, 0, true⟩, s, hs, sized, by decide, rfl⟩

open SourceWitness in
/-- Two sources of two electrons, the second without output, meet the hypotheses of `C91_sources`. -/
example : ∃ (g : GeneralParams ℝ) (p : ParticleParams ℝ) (ss : List (Source ℝ × Bool)),
    p.output = true ∧
    makeSources g (fun _ _ => SourceWitness.raw) 0 [p, { p with output := false }] = .ok ss := by
  obtain ⟨s, hs⟩ := built
  have h : ∀ b, makeSource ⟨"SI", 1, 10, "out.h5", false⟩
      ⟨2, "beam", "Electron", "mono", ⟨1, 2, 3⟩, ⟨0, 0, 4⟩, 5, 5, 1, 0, 0, b⟩ SourceWitness.raw = .ok s :=
    fun _ => hs
  refine ⟨⟨"SI", 1, 10, "out.h5", false⟩,
    ⟨2, "beam", "Electron", "mono", ⟨1, 2, 3⟩, ⟨0, 0, 4⟩, 5, 5, 1, 0, 0, true⟩, [(s, true), (s, false)], rfl, ?_⟩
  unfold makeSources makeSources makeSources
  rw [h, Res.ok_bind, h]
  rfl

end QED
