import Verif.Lemmas.RunEnds
import Verif.Props.Units
import Verif.Props.Program

set_option autoImplicit false

/-!
# Property C123: a simulation started from Python comes back, and is well defined

Over the reals. The histories are those of C70 to C75: any sequence of calls on a new run manager.
-/

namespace QED

open Dbl MCTools RunMgr Main

/-! ## Specification -/

/-- The surroundings of a `beamOn` call are in order: the tables have been loaded, the library has drawn
one sample per event, and OpenMP numbers its threads from 0 to one less than their number. -/
structure InOrder (e : Env ℝ) (n t : Int) : Prop where
  tables : e.tables.Good
  raw : e.raw.Sized (RunMgr.u32 n)
  threads : e.omp = true → 0 ≤ t → ∀ j < RunMgr.u32 n, e.tid j < t.toNat

/-- The beam set last is not a Gaussian one, and its second energy is below its first. -/
def EnergiesReversed (h : List (Call ℝ × Outcome ℝ)) : Prop :=
  ∃ a, lastOf asBeam h = some a ∧ a.energyDist ≠ "gaussian" ∧ a.energyDist ≠ "Gaussian" ∧
    a.energyParam2 < a.energyParam1

/-! ## How far `beamOn` comes -/

theorem beamInOrder_iff {fa : FieldArgs ℝ} {ga : GenArgs ℝ} {h : List (Call ℝ × Outcome ℝ)} {m : Mgr ℝ}
    (hh : History (RunMgr.new fa ga) h m) (hc : Configured h) :
    BeamInOrder m.genArgs ↔ ¬ EnergiesReversed h := by
  obtain ⟨a, ha⟩ := hc.beam
  have hE : (0 : ℝ) < (u : Units.UnitsSystem ℝ).refEnergy := si_pos.2.2.2.2
  have hle : ((a.convert.energyParam1 <=. a.convert.energyParam2) = true) ↔
      a.energyParam1 ≤ a.energyParam2 := by
    simp only [GenArgs.convert, real_div, real_le, decide_eq_true_eq]
    exact div_le_div_iff_of_pos_right hE
  unfold BeamInOrder
  rw [(history_beam hh).2 a ha, hle]
  constructor
  · rintro ho ⟨b, hb, h1, h2, h3⟩
    rw [ha] at hb
    cases Option.some.inj hb
    rcases ho with ho | ho | ho
    · exact h1 ho
    · exact h2 ho
    · exact absurd ho (not_le.mpr h3)
  · intro hn
    by_contra hno
    refine hn ⟨a, ha, fun h1 => hno (.inl h1), fun h2 => hno (.inr (.inl h2)), ?_⟩
    exact not_le.mp fun h3 => hno (.inr (.inr h3))

/-- The call before its event loop. -/
theorem prepare_total {fa : FieldArgs ℝ} {ga : GenArgs ℝ} {h : List (Call ℝ × Outcome ℝ)} {m : Mgr ℝ}
    (hh : History (RunMgr.new fa ga) h m) {e : Env ℝ} {n t : Int} (he : InOrder e n t) (hp : Passes e t)
    (hm : ¬ Misuse h) :
    (¬ Configured h → ∃ m', prepare e.omp e.raw n t m = .ok (.rejected m')) ∧
    (Configured h → EnergiesReversed h → ∃ w, prepare e.omp e.raw n t m = .ub w) ∧
    (Configured h → ¬ EnergiesReversed h → t < 0 →
      ∃ m' w, prepare e.omp e.raw n t m = .ok (.raised m' w)) ∧
    (Configured h → ¬ EnergiesReversed h → 0 ≤ t →
      ∃ m' s, prepare e.omp e.raw n t m = .ok (.go m' s) ∧ s.Full ∧ s.partCount = 0 ∧
        s.nPart = RunMgr.u32 n ∧ PerThread t.toNat m'.results ∧ SameConfig m m' ∧
        s.type = m.genArgs.particleType ∧ ∃ c : SourceConf ℝ, c.type = m.genArgs.particleType ∧
          c.n = RunMgr.u32 n ∧ c.build e.raw = .ok s) := by
  obtain ⟨m1, h1⟩ := (C70_beamOn_iff fa ga h m hh).2 hm
  have hcfg := (freeOld_config h1).1
  have hmade := hcfg.trans (made_config m1).1
  have hga : (makeObjects m1).genArgs = m.genArgs := hmade.genArgs
  rw [prepare_pass hp, h1, Res.ok_bind, incomplete_congr hcfg]
  have hconf := complete_iff RunWitness.zeroEq hh
  obtain ⟨s1, s2⟩ := sourceOf_total angleInOrder n e.raw (makeObjects m1) he.raw
  rw [hga] at s1 s2
  refine ⟨fun hc => ?_, fun hc hr => ?_, fun hc hr ht => ?_, fun hc hr ht => ?_⟩
  · exact ⟨m1, if_pos (by rw [← hconf] at hc; simpa using hc)⟩
  all_goals rw [if_neg (by rw [hconf.mpr hc]; simp)]
  · obtain ⟨w, hw⟩ := s2 fun hb => (beamInOrder_iff hh hc).mp hb hr
    rw [hw]
    exact ⟨w, rfl⟩
  · obtain ⟨s, hs, -⟩ := s1 ((beamInOrder_iff hh hc).mpr hr)
    rw [hs, Res.ok_bind, if_pos ht]
    exact ⟨_, _, rfl⟩
  · obtain ⟨s, hs, hf, h0, hn⟩ := s1 ((beamInOrder_iff hh hc).mpr hr)
    have hty : s.type = m.genArgs.particleType := by
      unfold sourceOf at hs
      dsimp only at hs
      unfold Source.new at hs
      obtain ⟨phi, -, hs⟩ := Res.bind_eq_ok.mp hs
      obtain ⟨es, -, hs⟩ := Res.bind_eq_ok.mp hs
      rw [← Res.ok.inj hs, ← hga]
    let c : SourceConf ℝ := ⟨m.genArgs.particleType, m.genArgs.energyDist, RunMgr.u32 n,
      m.genArgs.energyParam1, m.genArgs.energyParam2, m.genArgs.radius, m.genArgs.duration,
      m.genArgs.divergence, m.genArgs.position, m.genArgs.direction, false⟩
    have hbuild : c.build e.raw = .ok s := by
      rw [← hs]
      unfold sourceOf
      rw [hga]
      rfl
    rw [hs, Res.ok_bind, if_neg (by omega)]
    refine ⟨_, s, rfl, hf, h0, hn, perThread_empty _, ?_, hty, c, rfl, rfl, hbuild⟩
    exact ⟨hmade.1, hmade.2, hmade.3, hmade.4, hmade.5, hmade.6, hmade.7, hmade.8, hmade.9, hmade.10,
      hmade.11⟩

theorem threads_in_order {e : Env ℝ} {n t : Int} (he : InOrder e n t) (hp : Passes e t) (ht : 0 ≤ t) :
    ∀ j < RunMgr.u32 n, (if e.omp then e.tid else fun _ => 0) j < t.toNat := by
  intro j hj
  cases ho : e.omp with
  | true => exact he.threads ho ht j hj
  | false =>
    rcases hp with hp | rfl
    · rw [ho] at hp; cases hp
    · exact Nat.one_pos

/-! ## C123 -/

/-- C123, when a call is undefined: after any history of calls, `beamOn` has undefined behaviour exactly
when the number of threads is allowed and either an object is freed twice (C70), or everything has been
set and the energies of a beam that is not Gaussian are the wrong way round. -/
theorem C123_undefined_iff_partial (fa : FieldArgs ℝ) (ga : GenArgs ℝ) (h : List (Call ℝ × Outcome ℝ))
    (m : Mgr ℝ) (hh : History (RunMgr.new fa ga) h m) (e : Env ℝ) (n t : Int) (he : InOrder e n t) :
    (∃ w, BeamOn e n t m (.ub w)) ↔
      (e.omp = true ∨ t = 1) ∧ (Misuse h ∨ Configured h ∧ EnergiesReversed h) := by
  constructor
  · rintro ⟨w, hw⟩
    by_cases hp : Passes e t
    swap
    · have hg := prepare_gate (n := n) (m := m) hp
      cases hw with
      | ub h1 => rw [hg] at h1; cases h1
      | loopUb h1 _ => rw [hg] at h1; cases h1
    refine ⟨hp, ?_⟩
    by_contra hno
    simp only [not_or, not_and] at hno
    obtain ⟨hm, hr⟩ := hno
    obtain ⟨p1, -, p3, p4⟩ := prepare_total hh he hp hm
    by_cases hc : Configured h
    swap
    · obtain ⟨m', e1⟩ := p1 hc
      cases hw with
      | ub h1 => rw [e1] at h1; cases h1
      | loopUb h1 _ => rw [e1] at h1; cases h1
    by_cases ht : t < 0
    · obtain ⟨m', w', e1⟩ := p3 hc (hr hc) ht
      cases hw with
      | ub h1 => rw [e1] at h1; cases h1
      | loopUb h1 _ => rw [e1] at h1; cases h1
    · obtain ⟨m', s, e1, hf, h0, hn, hres, -⟩ := p4 hc (hr hc) (not_lt.mp ht)
      cases hw with
      | ub h1 => rw [e1] at h1; cases h1
      | loopUb h1 hev =>
        rw [e1] at h1
        cases h1
        have := events_defined (simOf_good e.tables he.tables _) hev hf h0 hres
          (by rw [hn]; exact threads_in_order he hp (not_lt.mp ht))
        rcases this with ⟨a, ha⟩ | ha <;> cases ha
  · rintro ⟨hp, hm | ⟨hc, hr⟩⟩
    · exact ⟨_, (C70_beamOn_iff fa ga h m hh).1 hm e n t hp⟩
    · by_cases hm : Misuse h
      · exact ⟨_, (C70_beamOn_iff fa ga h m hh).1 hm e n t hp⟩
      · obtain ⟨w, hw⟩ := (prepare_total hh he hp hm).2.1 hc hr
        exact ⟨w, .ub hw⟩

/-- C123, the part that holds: after any history, if the time step set last is positive or the time to
simulate is not, `beamOn` comes to an end. Missing: other time steps. -/
theorem C123_ends_partial (fa : FieldArgs ℝ) (ga : GenArgs ℝ) (h : List (Call ℝ × Outcome ℝ))
    (m : Mgr ℝ) (hh : History (RunMgr.new fa ga) h m) (e : Env ℝ) (n t : Int) (he : InOrder e n t)
    (hstep : ∀ a b, lastOf asTime h = some (a, b) → 0 < a ∨ b ≤ 0) : ∃ o, BeamOn e n t m o := by
  by_cases hp : Passes e t
  swap
  · exact ⟨_, .rejected (prepare_gate hp)⟩
  by_cases hm : Misuse h
  · exact ⟨_, (C70_beamOn_iff fa ga h m hh).1 hm e n t hp⟩
  obtain ⟨p1, p2, p3, p4⟩ := prepare_total hh he hp hm
  by_cases hc : Configured h
  swap
  · obtain ⟨m', e1⟩ := p1 hc
    exact ⟨_, .rejected e1⟩
  by_cases hr : EnergiesReversed h
  · obtain ⟨w, e1⟩ := p2 hc hr
    exact ⟨_, .ub e1⟩
  by_cases ht : t < 0
  · obtain ⟨m', w, e1⟩ := p3 hc hr ht
    exact ⟨_, .raised e1⟩
  obtain ⟨m', s, e1, hf, h0, hn, hres, hcfg, -⟩ := p4 hc hr (not_lt.mp ht)
  have hgood := simOf_good e.tables he.tables m'
  have hthr := threads_in_order he hp (not_lt.mp ht)
  obtain ⟨a, b, hlast, -⟩ := hc.step
  obtain ⟨-, -, -, -, hdt, hend⟩ := history_config hh
  rw [hlast] at hdt hend
  have hT := RunWitness.refTime_pos
  have hrun : ∀ (l : PList ℝ) (r : Rng ℝ), ∃ n o, Run (simOf e.tables m') (.init l r []) n o := by
    intro l r
    rcases hstep a b hlast with h1 | h1
    · obtain ⟨k, o, ho, -⟩ := C40_terminates (simOf e.tables m') (by
        show 0 < m'.timeStep
        rw [hcfg.timeStep, hdt]
        exact div_pos h1 hT) l r []
      exact ⟨k, o, ho⟩
    · refine ⟨0, _, .done ?_⟩
      have : m'.timeEnd ≤ 0 := by
        rw [hcfg.timeEnd, hend]
        exact div_nonpos_of_nonpos_of_nonneg h1 hT.le
      simpa [EvState.init, simOf] using this
  obtain ⟨o, ho⟩ := events_end hgood hrun (RunMgr.u32 n) 0 s m'.results e.rng hf h0 (by omega) hres
    (by rw [hn]; exact hthr)
  rcases events_defined hgood ho hf h0 hres (by rw [hn]; exact hthr) with ⟨⟨ls, rs, r⟩, rfl⟩ | rfl
  · exact ⟨_, .ran e1 ho⟩
  · exact ⟨_, .loopExit e1 ho⟩

/-- A photon simulated with a time step that is not positive never ends. -/
theorem photon_forever {cfg : SimCfg ℝ}
    (hp : ∃ e, cfg.procs = [.stochastic e] ∨ ∃ c, cfg.procs = [.continuous e c]) (hdt : cfg.dt ≤ 0)
    (hT : 0 < cfg.timeEnd) {l : PList ℝ} {q : Particle ℝ} (hl : l.items = [q]) (hq : q.mass = 0)
    (hmax : 1 ≤ l.maxParticles) (r : Rng ℝ) (n : Nat) (o : Res (EvState ℝ)) :
    ¬ Run cfg (.init l r []) n o := by
  have key : ∀ (s : EvState ℝ) (n : Nat) (o : Res (EvState ℝ)), Run cfg s n o →
      ∀ p : Particle ℝ, s.list.items = [p] → p.mass = 0 → 1 ≤ s.list.maxParticles → s.hists = [] →
        s.time ≤ 0 → False := by
    intro s n o hr
    induction hr with
    | done ht =>
      intro p _ _ _ _ h0
      simp only [real_lt, decide_eq_false_iff_not, not_lt] at ht
      linarith
    | step ht hst _ ih =>
      intro p a b c d h0
      obtain ⟨s', p', e1, e2, e3, e4, e5, e6⟩ := photon_step hp _ p a b c d
      rw [hst] at e1
      cases Res.ok.inj e1
      exact ih p' e2 e3 e4 e5 (by rw [e6]; linarith)
    | abort ht hst hno =>
      intro p a b c d h0
      obtain ⟨s', p', e1, -⟩ := photon_step hp _ p a b c d
      exact hno s' (hst.symm.trans e1)
  exact fun hr => key _ n o hr q hl hq hmax rfl (by simp [EvState.init])

/-- Pair production is on exactly when the last `usePairProduction` said so. -/
theorem history_pairs {D : Type} [Dbl D] {m m' : Mgr D} {h : List (Call D × Outcome D)}
    (hh : History m h m') : m'.useBW = (lastOf asPairs h).getD m.useBW := by
  have step : ∀ {m : Mgr D} {c : Call D} {o : Outcome D}, Does m c o →
      o.mgr.useBW = (asPairs c).getD m.useBW := by
    intro m c o h
    cases h with
    | setTime => rfl
    | setField => simp only [Outcome.mgr, RunMgr.setField, asPairs]; split <;> rfl
    | setPhysics => simp only [Outcome.mgr, RunMgr.setPhysics, asPairs]; split <;> rfl
    | setGenerator => rfl
    | setSampleFraction => simp only [Outcome.mgr, RunMgr.setSampleFraction, asPairs]; split <;> rfl
    | usePairProduction => rfl
    | beamOn hb => exact (beamOn_config hb).useBW
  induction hh with
  | nil => rfl
  | @cons m c o h m' hd hh ih =>
    rw [lastOf_cons, ih, step hd]
    cases lastOf asPairs h <;> rfl

/-- C123 is false of time steps that are not positive: `beamOn` then never comes back from a beam of
photons. The call is not turned down. -/
theorem C123_refuted (fa : FieldArgs ℝ) (ga : GenArgs ℝ) (h : List (Call ℝ × Outcome ℝ))
    (m : Mgr ℝ) (hh : History (RunMgr.new fa ga) h m) (hm : ¬ Misuse h) (hc : Configured h)
    (hr : ¬ EnergiesReversed h) (hpp : lastOf asPairs h ≠ some true) (a b : ℝ)
    (hab : lastOf asTime h = some (a, b)) (ha : a < 0) (hb : 0 < b) (g : GenArgs ℝ)
    (hg : lastOf asBeam h = some g) (hph : g.particleType = "Photon" ∨ g.particleType = "photon")
    (e : Env ℝ) (n t : Int) (he : InOrder e n t) (hp : e.omp = true ∨ t = 1) (ht : 0 ≤ t)
    (hn : 1 ≤ RunMgr.u32 n) (o : Res (Outcome ℝ)) : ¬ BeamOn e n t m o := by
  obtain ⟨m', s, e1, hf, h0, hN, hres, hcfg, hty, -⟩ := (prepare_total hh he hp hm).2.2.2 hc hr ht
  obtain ⟨-, -, -, -, hdt, hend⟩ := history_config hh
  rw [hab] at hdt hend
  have hT := RunWitness.refTime_pos
  have hbw : m'.useBW = false := by
    rw [hcfg.useBW, history_pairs hh]
    cases hl : lastOf asPairs h with
    | none => rfl
    | some x =>
      cases x with
      | false => rfl
      | true => exact absurd hl hpp
  have hprocs : ∃ em, (simOf e.tables m').procs = [.stochastic em] ∨
      ∃ c, (simOf e.tables m').procs = [.continuous em c] := by
    refine ⟨emissionOf e.tables m', ?_⟩
    unfold simOf physicsOf
    rw [hbw]
    dsimp only
    split
    · exact .inr ⟨true, rfl⟩
    · split
      · exact .inr ⟨false, rfl⟩
      · exact .inl rfl
  have hneg : (simOf e.tables m').dt ≤ 0 := by
    show m'.timeStep ≤ 0
    rw [hcfg.timeStep, hdt]
    exact (div_neg_of_neg_of_pos ha hT).le
  have hpos : 0 < (simOf e.tables m').timeEnd := by
    show 0 < m'.timeEnd
    rw [hcfg.timeEnd, hend]
    exact div_pos hb hT
  rw [(history_beam hh).2 g hg] at hty
  have hk : speciesOf s.type = some .photon := by
    rw [hty]
    show speciesOf g.particleType = _
    unfold speciesOf
    rw [if_pos hph]
  obtain ⟨l, r1, hgen, -, q, hq, ⟨-, hqm, -⟩, -⟩ := generateList_step saneReal s .photon hk hf
    (by omega) e.rng
  have hmax : l.maxParticles = PList.defaultMax := by
    rcases generateList_total s hf (by omega) e.rng with h1 | ⟨_, _, _, h1, -, hmax⟩
    · rw [hgen] at h1; cases h1
    · rw [hgen] at h1
      have h1 := Res.ok.inj h1
      simp only [Prod.mk.injEq] at h1
      rw [h1.1]; exact hmax
  have hnever : ∀ k x, ¬ Run (simOf e.tables m') (.init l r1 []) k x := fun k x =>
    photon_forever hprocs hneg hpos hq (by rw [hqm]; simp [Kind.massOf]) (by rw [hmax]; decide) r1 k x
  have hev : ∀ x, ¬ Events (simOf e.tables m') (if e.omp then e.tid else fun _ => 0) 0 s m'.results e.rng
      x := by
    intro x hx
    generalize hrs : m'.results = rs at hx hres
    obtain ⟨rs1, hrs1, -⟩ := hres.stored (threads_in_order he hp ht 0 (by omega)) l.items
    cases hx with
    | done h1 => omega
    | event _ h1 _ h2 _ _ =>
      rw [hgen] at h1; cases Res.ok.inj h1; exact hnever _ _ h2
    | later _ h1 _ h2 _ _ =>
      rw [hgen] at h1; cases Res.ok.inj h1; exact hnever _ _ h2
    | source _ h1 => rw [hgen] at h1; cases h1
    | sourceUb _ h1 => rw [hgen] at h1; cases h1
    | inputUb _ h1 h2 => rw [hgen] at h1; cases Res.ok.inj h1; rw [hrs1] at h2; cases h2
    | runUb _ h1 _ h2 => rw [hgen] at h1; cases Res.ok.inj h1; exact hnever _ _ h2
    | runExit _ h1 _ h2 => rw [hgen] at h1; cases Res.ok.inj h1; exact hnever _ _ h2
    | finalUb _ h1 _ h2 _ => rw [hgen] at h1; cases Res.ok.inj h1; exact hnever _ _ h2
  intro hbo
  cases hbo with
  | rejected h1 => rw [e1] at h1; cases h1
  | raised h1 => rw [e1] at h1; cases h1
  | ran h1 h2 => rw [e1] at h1; cases h1; exact hev _ h2
  | ub h1 => rw [e1] at h1; cases h1
  | loopUb h1 h2 => rw [e1] at h1; cases h1; exact hev _ h2
  | loopExit h1 h2 => rw [e1] at h1; cases h1; exact hev _ h2

/-- C123 is false of a beam with an unknown particle name: the call neither runs nor raises an exception
but ends the process, and with it the Python interpreter. -/
theorem C123_exit_refuted (fa : FieldArgs ℝ) (ga : GenArgs ℝ) (h : List (Call ℝ × Outcome ℝ))
    (m : Mgr ℝ) (hh : History (RunMgr.new fa ga) h m) (hm : ¬ Misuse h) (hc : Configured h)
    (hr : ¬ EnergiesReversed h) (g : GenArgs ℝ) (hg : lastOf asBeam h = some g)
    (hk : speciesOf g.particleType = none) (e : Env ℝ) (n t : Int) (he : InOrder e n t)
    (hp : e.omp = true ∨ t = 1) (ht : 0 ≤ t) (hn : 1 ≤ RunMgr.u32 n) :
    BeamOn e n t m (.exit (-1)) ∧ ∀ o, ¬ BeamOn e n t m (.ok o) := by
  obtain ⟨m', s, e1, hf, h0, hN, hres, hcfg, -, c, hct, hcn, hbuild⟩ :=
    (prepare_total hh he hp hm).2.2.2 hc hr ht
  rw [(history_beam hh).2 g hg] at hct
  obtain ⟨code, hcode⟩ := C17_unknown_type c e.raw s hbuild (by rw [hcn]; exact he.raw)
    (by rw [hct]; exact hk) e.rng
  have hgen : s.generateList e.rng = .exit (-1) := by
    rcases generateList_total s hf (by omega) e.rng with h1 | ⟨_, _, _, h1, -, -⟩
    · exact h1
    · rw [hcode] at h1; cases h1
  refine ⟨.loopExit e1 (.source (by omega) hgen), ?_⟩
  intro o hbo
  cases hbo with
  | rejected h1 => rw [e1] at h1; cases h1
  | raised h1 => rw [e1] at h1; cases h1
  | ran h1 h2 =>
    rw [e1] at h1
    cases h1
    cases h2 with
    | done h1 => omega
    | event _ h1 _ _ _ _ => rw [hgen] at h1; cases h1
    | later _ h1 _ _ _ _ => rw [hgen] at h1; cases h1

/-! ## Examples -/

namespace EndsWitness

/-- Time step, end time and particle name are free; the energies are 1 and 2. -/
noncomputable def beam (name : String) : GenArgs ℝ :=
  ⟨name, "uniform", 1, 2, 0, 0, 0, ⟨0, 0, 0⟩, ⟨0, 0, 1⟩⟩

open RunWitness in
noncomputable def settings (a b : ℝ) (g : GenArgs ℝ) : List (Call ℝ × Outcome ℝ) :=
  let m1 := setTime a b m0
  let m2 := setField "gaussian" fieldArgs m1
  let m3 := setPhysics "Quantum" m2
  [(.setTime a b, .set m1), (.setField "gaussian" fieldArgs, .set m2), (.setPhysics "Quantum", .set m3),
    (.setGenerator g, .set (setGenerator g m3))]

open RunWitness in
theorem history (a b : ℝ) (g : GenArgs ℝ) :
    ∃ m, History (RunMgr.new fieldArgs genArgs) (settings a b g) m :=
  ⟨_, .cons .setTime (.cons .setField (.cons .setPhysics (.cons .setGenerator .nil)))⟩

theorem configured (a b : ℝ) (ha : a ≠ 0) (g : GenArgs ℝ) : Configured (settings a b g) where
  field := ⟨"gaussian", rfl, by simp [fieldNames]⟩
  physics := ⟨"Quantum", rfl, by simp [passedNames]⟩
  beam := ⟨g, rfl⟩
  step := ⟨a, b, rfl, (C72_step_real a).mpr ha⟩

theorem no_misuse (a b : ℝ) (g : GenArgs ℝ) : ¬ Misuse (settings a b g) := by
  rintro ⟨x, y, hx, -, hs⟩
  have hm := hs.subset (List.mem_cons_self ..)
  simp only [settings, List.mem_cons, List.not_mem_nil, or_false] at hm
  rcases hx with ⟨_, _, hx⟩ | ⟨_, _, hx⟩ <;> rcases hm with rfl | rfl | rfl | rfl <;> cases hx

theorem not_reversed (a b : ℝ) (name : String) : ¬ EnergiesReversed (settings a b (beam name)) := by
  rintro ⟨g, hg, -, -, hlt⟩
  cases Option.some.inj (show some (beam name) = some g from hg)
  norm_num [beam] at hlt

theorem inOrder (rng : Rng ℝ) :
    InOrder ⟨true, ProgramWitness.tables, zeroRaw (RunMgr.u32 3), fun _ => 1, rng⟩ 3 2 :=
  ⟨ProgramWitness.tables_good, zeroRaw_sized _, fun _ _ _ _ => (by decide : 1 < (2 : Int).toNat)⟩

end EndsWitness

open EndsWitness RunWitness

/-- The hypotheses are met by a beam of electrons that is simulated for ten time steps. -/
example (rng : Rng ℝ) : ∃ m e, History (RunMgr.new fieldArgs genArgs) (settings 1 10 (beam "electron")) m ∧
    InOrder e 3 2 ∧ Configured (settings 1 10 (beam "electron")) ∧
    ¬ Misuse (settings 1 10 (beam "electron")) ∧ ∃ o, BeamOn e 3 2 m o := by
  obtain ⟨m, hm⟩ := history 1 10 (beam "electron")
  refine ⟨m, _, hm, inOrder rng, configured _ _ one_ne_zero _, no_misuse _ _ _, ?_⟩
  refine C123_ends_partial _ _ _ m hm _ 3 2 (inOrder rng) fun a b hab => ?_
  cases Option.some.inj (show some ((1 : ℝ), (10 : ℝ)) = some (a, b) from hab)
  exact .inl one_pos

/-- A call that never ends. -/
example (rng : Rng ℝ) : ∃ m e, History (RunMgr.new fieldArgs genArgs) (settings (-1) 10 (beam "photon")) m ∧
    InOrder e 3 2 ∧ ∀ o, ¬ BeamOn e 3 2 m o := by
  obtain ⟨m, hm⟩ := history (-1) 10 (beam "photon")
  exact ⟨m, _, hm, inOrder rng, C123_refuted _ _ _ m hm (no_misuse _ _ _)
    (configured _ _ (by norm_num) _) (not_reversed _ _ _) (Option.some_ne_none _).symm (-1) 10 rfl
    (by norm_num) (by norm_num) _ rfl (.inr rfl) _ 3 2 (inOrder rng) (.inl rfl) (by norm_num) (by decide)⟩

/-- A call that ends the interpreter. -/
example (rng : Rng ℝ) : ∃ m e, History (RunMgr.new fieldArgs genArgs) (settings 1 10 (beam "electrons")) m ∧
    InOrder e 3 2 ∧ BeamOn e 3 2 m (.exit (-1)) := by
  obtain ⟨m, hm⟩ := history 1 10 (beam "electrons")
  exact ⟨m, _, hm, inOrder rng, (C123_exit_refuted _ _ _ m hm (no_misuse _ _ _)
    (configured _ _ (by norm_num) _) (not_reversed _ _ _) _ rfl (by decide) _ 3 2 (inOrder rng) (.inl rfl)
    (by norm_num) (by decide)).1⟩

end QED
