import Verif.Spec.RunCalls
import Verif.Props.RunManager
import Verif.Props.Source
import Verif.Props.Main

set_option linter.unusedSectionVars false
set_option autoImplicit false

/-!
# Properties C71, C72 and C75: settings of the Python run manager

The state of a run manager is compared with the list of calls made so far: the last `setField`, the
last `setPhysics`, and so on.
-/

namespace QED

open Dbl MCTools RunMgr

section generic
variable {D : Type} [Dbl D]

/-! ## What has been asked for -/

/-- The names `setField` knows. -/
def fieldNames : List String := ["gaussian", "Gaussian", "focusing", "Focusing"]

/-- The names `setPhysics` lets through. -/
def passedNames : List String :=
  ["Classical", "clasical", "Semiclassical", "semiclassical", "Quantum", "quantum"]

theorem lastOf_nil {α : Type} (f : Call D → Option α) : lastOf f [] = none := rfl

theorem lastOf_cons {α : Type} (f : Call D → Option α) (x : Call D × Outcome D)
    (h : List (Call D × Outcome D)) : lastOf f (x :: h) = (lastOf f h).or (f x.1) := by
  unfold lastOf
  cases hx : f x.1 with
  | none => rw [List.filterMap_cons_none (f := fun x : Call D × Outcome D => f x.1) hx]; simp
  | some a =>
    rw [List.filterMap_cons_some (f := fun x : Call D × Outcome D => f x.1) hx, List.getLast?_cons]
    cases (List.filterMap (fun x => f x.1) h).getLast? <;> rfl

/-- How a call changes the settings. -/
theorem does_config {m : Mgr D} {c : Call D} {o : Outcome D} (h : Does m c o) :
    (o.mgr.fieldSet = (asField c).elim m.fieldSet fun t => decide (t ∈ fieldNames)) ∧
    (o.mgr.physSet = (asPhysics c).elim m.physSet fun p => decide (p ∈ passedNames)) ∧
    (o.mgr.physics = (asPhysics c).elim m.physics fun p => if p ∈ passedNames then p else m.physics) ∧
    (o.mgr.genSet = (asBeam c).elim m.genSet fun _ => true) ∧
    (o.mgr.timeStep = (asTime c).elim m.timeStep fun x => x.1 /. u.refTime) ∧
    (o.mgr.timeEnd = (asTime c).elim m.timeEnd fun x => x.2 /. u.refTime) := by
  cases h with
  | setTime => exact ⟨rfl, rfl, rfl, rfl, rfl, rfl⟩
  | @setField t a =>
    simp only [Outcome.mgr, asField, asPhysics, asBeam, asTime, RunMgr.setField, Option.elim]
    split
    · rename_i h; exact ⟨by simpa [fieldNames] using h, rfl, rfl, rfl, rfl, rfl⟩
    · rename_i h; exact ⟨by simpa [fieldNames] using h, rfl, rfl, rfl, rfl, rfl⟩
  | @setPhysics p =>
    simp only [Outcome.mgr, asField, asPhysics, asBeam, asTime, RunMgr.setPhysics, Option.elim]
    split
    · rename_i h
      have h' : p ∈ passedNames := by simpa [passedNames] using h
      exact ⟨rfl, by simp [h'], by simp [h'], rfl, rfl, rfl⟩
    · rename_i h
      have h' : p ∉ passedNames := by simpa [passedNames] using h
      exact ⟨rfl, by simp [h'], by simp [h'], rfl, rfl, rfl⟩
  | setGenerator => exact ⟨rfl, rfl, rfl, rfl, rfl, rfl⟩
  | setSampleFraction =>
    simp only [Outcome.mgr, asField, asPhysics, asBeam, asTime, RunMgr.setSampleFraction, Option.elim]
    split <;> exact ⟨rfl, rfl, rfl, rfl, rfl, rfl⟩
  | usePairProduction => exact ⟨rfl, rfl, rfl, rfl, rfl, rfl⟩
  | @beamOn e n t _ hb =>
    have h := beamOn_config hb
    exact ⟨h.fieldSet, h.physSet, h.physics, h.genSet, h.timeStep, h.timeEnd⟩

theorem elim_or {α β : Type} (a b : Option α) (x : β) (f : α → β) :
    (a.or b).elim x f = a.elim (b.elim x f) f := by cases a <;> rfl

/-- The settings after a history. -/
theorem history_config {m m' : Mgr D} {h : List (Call D × Outcome D)} (hh : History m h m') :
    (m'.fieldSet = (lastOf asField h).elim m.fieldSet fun t => decide (t ∈ fieldNames)) ∧
    (m'.physSet = (lastOf asPhysics h).elim m.physSet fun p => decide (p ∈ passedNames)) ∧
    ((lastOf asPhysics h = none → m'.physics = m.physics) ∧
      ∀ p, lastOf asPhysics h = some p → p ∈ passedNames → m'.physics = p) ∧
    (m'.genSet = (lastOf asBeam h).elim m.genSet fun _ => true) ∧
    (m'.timeStep = (lastOf asTime h).elim m.timeStep fun x => x.1 /. u.refTime) ∧
    (m'.timeEnd = (lastOf asTime h).elim m.timeEnd fun x => x.2 /. u.refTime) := by
  induction hh with
  | nil => exact ⟨rfl, rfl, ⟨fun _ => rfl, fun p hp => by cases hp⟩, rfl, rfl, rfl⟩
  | @cons m c o h m' hd hh ih =>
    obtain ⟨a1, a2, a3, a4, a5, a6⟩ := does_config hd
    obtain ⟨b1, b2, b3, b4, b5, b6⟩ := ih
    simp only [lastOf_cons, elim_or]
    refine ⟨a1 ▸ b1, a2 ▸ b2, ⟨?_, ?_⟩, a4 ▸ b4, a5 ▸ b5, a6 ▸ b6⟩
    · intro hn
      rw [Option.or_eq_none_iff] at hn
      rw [b3.1 hn.1, a3, hn.2]
      rfl
    · intro p hp hpn
      rw [Option.or_eq_some_iff] at hp
      rcases hp with hp | ⟨hp, hq⟩
      · exact b3.2 p hp hpn
      · rw [b3.1 hp, a3, hq]
        simp [hpn]

/-! ## C71 Run manager accepts the documented physics names -/

/-- The names of the documentation. -/
def Documented (p : String) : Prop := ∃ M : Model, p ∈ M.names

/-- After `setPhysics p` the physics counts as set. -/
def Accepted (D : Type) [Dbl D] (p : String) : Prop := ∀ m : Mgr D, (setPhysics p m).physSet = true

/-- After `setPhysics p` the physics counts as not set, and `beamOn` will not run. -/
def Rejected (D : Type) [Dbl D] (p : String) : Prop := ∀ m : Mgr D, (setPhysics p m).physSet = false

/-- Exactly six strings are accepted. -/
theorem C71_names_iff (p : String) :
    (p ∈ passedNames → Accepted D p) ∧ (p ∉ passedNames → Rejected D p) := by
  have key : ∀ m : Mgr D, (setPhysics p m).physSet = decide (p ∈ passedNames) := fun m =>
    (does_config (m := m) .setPhysics).2.1
  exact ⟨fun h m => by rw [key]; exact decide_eq_true h,
    fun h m => by rw [key]; exact decide_eq_false h⟩

theorem documented_iff (p : String) : Documented p ↔ p ∈ ["Classical", "classical", "Semiclassical",
    "semiclassical", "Quantum", "quantum"] := by
  constructor
  · rintro ⟨M, h⟩
    cases M <;> simp only [Model.names, List.mem_cons, List.not_mem_nil, or_false] at h <;>
      rcases h with rfl | rfl <;> simp
  · intro h
    simp only [List.mem_cons, List.not_mem_nil, or_false] at h
    rcases h with rfl | rfl | rfl | rfl | rfl | rfl
    · exact ⟨.classical, by simp [Model.names]⟩
    · exact ⟨.classical, by simp [Model.names]⟩
    · exact ⟨.semiclassical, by simp [Model.names]⟩
    · exact ⟨.semiclassical, by simp [Model.names]⟩
    · exact ⟨.quantum, by simp [Model.names]⟩
    · exact ⟨.quantum, by simp [Model.names]⟩

/-- C71, acceptance, for every string but two. -/
theorem C71_names_partial (p : String) (h1 : p ≠ "classical") (h2 : p ≠ "clasical") :
    (Documented p → Accepted D p) ∧ (¬ Documented p → Rejected D p) := by
  have h : Documented p ↔ p ∈ passedNames := by
    rw [documented_iff]
    simp only [passedNames, List.mem_cons, List.not_mem_nil, or_false, h1, h2, false_or]
  rw [h]
  exact C71_names_iff p

/-- C71 is false: the documented name `classical` is rejected, and the misspelt `clasical` accepted. -/
theorem C71_refuted : (Documented "classical" ∧ Rejected D "classical") ∧
    (¬ Documented "clasical" ∧ Accepted D "clasical") := by
  refine ⟨⟨⟨.classical, by simp [Model.names]⟩, ?_⟩, ?_, ?_⟩
  · exact (C71_names_iff "classical").2 (by simp [passedNames])
  · rw [documented_iff]; simp
  · exact (C71_names_iff "clasical").1 (by simp [passedNames])

/-- Every event of a run is an execution of the time loop with these settings. -/
def RunsWith (cfg : SimCfg D) (ls : List (PList D × PList D)) : Prop :=
  ∀ l ∈ ls, ∃ r n es, Run cfg (.init l.1 r []) n (.ok es) ∧ es.list = l.2

theorem beamOn_runsWith {e : Env D} {n t : Int} {m m' : Mgr D} {ls : List (PList D × PList D)}
    (h : BeamOn e n t m (.ok (.ran m' ls))) : RunsWith (simOf e.tables m) ls := by
  by_cases hp : Passes e t
  · obtain ⟨m1, h1, h2⟩ := beamOn_cases h hp
    have hc := (freeOld_config h1).1
    have hc' := hc.trans (made_config m1).1
    rcases h2 with ⟨_, ho⟩ | ⟨_, _, ho⟩ | ⟨_, _, s, ls', rs, r, _, hev, ho⟩
    · cases ho
    · cases ho
    · cases ho
      obtain ⟨_, _, h3⟩ := events_spec hev _ _ _ rfl
      intro l hl
      obtain ⟨_, _, ρ, _, k, es, _, h4, h5⟩ := h3 l hl
      refine ⟨ρ, k, es, ?_, h5⟩
      rw [← simOf_congr e.tables hc']
      exact h4
  · have := beamOn_gate h hp
    cases this

/-- C71, the model that runs, for every documented name but one: if the last `setPhysics` of a history
was a name of model `M`, every event of a run is an execution with the equation of motion and the
emission process of `M`. -/
theorem C71_runs_partial (fa : FieldArgs D) (ga : GenArgs D) (h : List (Call D × Outcome D)) (m : Mgr D)
    (hh : History (RunMgr.new fa ga) h m) (p : String) (hp : lastOf asPhysics h = some p)
    (hne : p ≠ "classical") (M : Model) (hM : p ∈ M.names)
    (e : Env D) (n t : Int) (m' : Mgr D) (ls : List (PList D × PList D))
    (hb : BeamOn e n t m (.ok (.ran m' ls))) :
    ∃ (cfg : SimCfg D) (em : EmissionCfg D) (proc : Proc D) (rest : List (Proc D)),
      RunsWith cfg ls ∧ M.Is em cfg.push proc ∧ cfg.procs = proc :: rest ∧ em.field = cfg.field ∧
      em.dt = cfg.dt ∧ em.sampleFrac = m.sampleFrac ∧
      (rest = if m.useBW then [.breitWheeler (Main.bwCfg e.tables cfg.field cfg.dt)] else []) := by
  have hpn : p ∈ passedNames := by
    have := (documented_iff p).1 ⟨M, hM⟩
    simp only [List.mem_cons, List.not_mem_nil, or_false, passedNames] at this ⊢
    tauto
  have hph := (history_config hh).2.2.1.2 p hp hpn
  refine ⟨simOf e.tables m, emissionOf e.tables m, (physicsOf e.tables m).2, _, beamOn_runsWith hb, ?_,
    rfl, rfl, rfl, rfl, rfl⟩
  simp only [simOf, physicsOf, hph]
  cases M with
  | classical =>
    simp only [Model.names, List.mem_cons, List.not_mem_nil, or_false] at hM
    rw [if_pos hM]
    exact ⟨rfl, rfl⟩
  | semiclassical =>
    simp only [Model.names, List.mem_cons, List.not_mem_nil, or_false] at hM
    rw [if_neg (by rcases hM with rfl | rfl <;> simp), if_pos hM]
    exact ⟨rfl, rfl⟩
  | quantum =>
    simp only [Model.names, List.mem_cons, List.not_mem_nil, or_false] at hM
    rw [if_neg (by rcases hM with rfl | rfl <;> simp), if_neg (by rcases hM with rfl | rfl <;> simp)]
    exact ⟨rfl, rfl⟩

/-- The misspelt name runs the quantum model. -/
theorem C71_misspelt_refuted (fa : FieldArgs D) (ga : GenArgs D) (h : List (Call D × Outcome D))
    (m : Mgr D) (hh : History (RunMgr.new fa ga) h m) (hp : lastOf asPhysics h = some "clasical")
    (e : Env D) (n t : Int) (m' : Mgr D) (ls : List (PList D × PList D))
    (hb : BeamOn e n t m (.ok (.ran m' ls))) :
    ∃ (cfg : SimCfg D) (em : EmissionCfg D) (proc : Proc D) (rest : List (Proc D)),
      RunsWith cfg ls ∧ Model.Is em .quantum cfg.push proc ∧ cfg.procs = proc :: rest := by
  have hph := (history_config hh).2.2.1.2 _ hp (by simp [passedNames])
  refine ⟨simOf e.tables m, emissionOf e.tables m, (physicsOf e.tables m).2, _, beamOn_runsWith hb, ?_,
    rfl⟩
  simp only [simOf, physicsOf, hph]
  rw [if_neg (by simp), if_neg (by simp)]
  exact ⟨rfl, rfl⟩

/-! ## C72 A rejected run leaves no partial results and needs a full configuration -/

/-- A known field, known physics and a beam have been set last, and the last time step is not zero. -/
structure Configured (h : List (Call D × Outcome D)) : Prop where
  field : ∃ t, lastOf asField h = some t ∧ t ∈ fieldNames
  physics : ∃ p, lastOf asPhysics h = some p ∧ p ∈ passedNames
  beam : ∃ a, lastOf asBeam h = some a
  step : ∃ a b, lastOf asTime h = some (a, b) ∧ (a /. u.refTime ==. lit 0) = false

/-- `0 == 0`. -/
def ZeroEq (D : Type) [Dbl D] : Prop := ((lit 0 : D) ==. lit 0) = true

theorem complete_iff (hz : ZeroEq D) {fa : FieldArgs D} {ga : GenArgs D}
    {h : List (Call D × Outcome D)} {m : Mgr D} (hh : History (RunMgr.new fa ga) h m) :
    incomplete m = false ↔ Configured h := by
  obtain ⟨h1, h2, _, h4, h5, _⟩ := history_config hh
  have e1 : m.fieldSet = true ↔ ∃ t, lastOf asField h = some t ∧ t ∈ fieldNames := by
    rw [h1]; cases lastOf asField h <;> simp [RunMgr.new]
  have e2 : m.physSet = true ↔ ∃ t, lastOf asPhysics h = some t ∧ t ∈ passedNames := by
    rw [h2]; cases lastOf asPhysics h <;> simp [RunMgr.new]
  have e3 : m.genSet = true ↔ ∃ t, lastOf asBeam h = some t := by
    rw [h4]; cases lastOf asBeam h <;> simp [RunMgr.new]
  have e4 : (m.timeStep ==. lit 0) = false ↔
      ∃ a b, lastOf asTime h = some (a, b) ∧ (a /. u.refTime ==. lit 0) = false := by
    rw [h5]
    cases lastOf asTime h with
    | none =>
      have : ((RunMgr.new fa ga : Mgr D).timeStep ==. lit 0) = true := hz
      simp [this]
    | some x => obtain ⟨a, b⟩ := x; simp
  unfold incomplete
  simp only [Bool.or_eq_false_iff, Bool.not_eq_false', e1, e2, e3, e4]
  exact ⟨fun ⟨⟨⟨a, b⟩, c⟩, d⟩ => ⟨b, c, d, a⟩, fun h => ⟨⟨⟨h.step, h.field⟩, h.physics⟩, h.beam⟩⟩

/-- C72 without the end time: `beamOn` goes ahead exactly when field, physics, beam and a non-zero time
step are in place, and the number of threads is allowed. (With a negative number of threads it then
raises an exception.) -/
theorem C72_starts_iff_partial (hz : ZeroEq D) (fa : FieldArgs D) (ga : GenArgs D)
    (h : List (Call D × Outcome D)) (m : Mgr D) (hh : History (RunMgr.new fa ga) h m)
    (e : Env D) (n t : Int) (o : Outcome D) (hb : BeamOn e n t m (.ok o)) :
    ((∃ m', o = .rejected m') ↔ ¬ (Configured h ∧ (e.omp = true ∨ t = 1))) ∧
    ((∃ m' w, o = .raised m' w) ↔ Configured h ∧ (e.omp = true ∨ t = 1) ∧ t < 0) ∧
    ((∃ m' ls, o = .ran m' ls) ↔ Configured h ∧ (e.omp = true ∨ t = 1) ∧ 0 ≤ t) := by
  rw [← complete_iff hz hh]
  change _ ∧ (_ ↔ _ ∧ Passes e t ∧ _) ∧ (_ ↔ _ ∧ Passes e t ∧ _)
  by_cases hp : Passes e t
  · have hp' : e.omp = true ∨ t = 1 := hp
    obtain ⟨m1, _, ⟨h2, rfl⟩ | ⟨h2, h3, rfl⟩ | ⟨h2, h3, _, _, _, _, _, _, rfl⟩⟩ := beamOn_cases hb hp
    · simp [h2]
    · simp [h2, h3, hp, hp']
    · simp [h2, h3, hp, hp', not_lt.2 h3]
  · have hp' : ¬ (e.omp = true ∨ t = 1) := hp
    rw [beamOn_gate hb hp]
    simp [hp, hp']

/-- C72: a call that does not run leaves the results of the previous run and all settings as they
were. -/
theorem C72_unchanged (e : Env D) (n t : Int) (m : Mgr D) (o : Outcome D)
    (hb : BeamOn e n t m (.ok o)) (hn : ∀ m' ls, o ≠ .ran m' ls) :
    o.mgr.results = m.results ∧ SameConfig m o.mgr := by
  refine ⟨?_, beamOn_config hb⟩
  by_cases hp : Passes e t
  · obtain ⟨m1, h1, ⟨h2, rfl⟩ | ⟨h2, h3, rfl⟩ | ⟨h2, h3, _, _, _, _, _, _, rfl⟩⟩ := beamOn_cases hb hp
    · exact (freeOld_config h1).2.1
    · exact (made_config m1).2.trans (freeOld_config h1).2.1
    · exact absurd rfl (hn _ _)
  · rw [beamOn_gate hb hp]
    rfl

/-! ## C75 Sample fraction stays valid -/

/-- Between 0 and 1, as the code compares. -/
def ValidFraction (x : D) : Prop := (lit 0 <=. x) = true ∧ (x <=. lit 1) = true

theorem fraction_step {m : Mgr D} {c : Call D} {o : Outcome D} (h : Does m c o)
    (hm : ValidFraction m.sampleFrac) : ValidFraction o.mgr.sampleFrac := by
  cases h with
  | setTime => exact hm
  | setField => simp only [Outcome.mgr, RunMgr.setField]; split <;> exact hm
  | setPhysics => simp only [Outcome.mgr, RunMgr.setPhysics]; split <;> exact hm
  | setGenerator => exact hm
  | @setSampleFraction x =>
    simp only [Outcome.mgr, RunMgr.setSampleFraction]
    split
    · rename_i h; simpa [ValidFraction] using h
    · exact hm
  | usePairProduction => exact hm
  | beamOn hb => rw [(beamOn_config hb).sampleFrac]; exact hm

theorem fraction_history {m m' : Mgr D} {h : List (Call D × Outcome D)} (hh : History m h m')
    (hm : ValidFraction m.sampleFrac) : ValidFraction m'.sampleFrac := by
  induction hh with
  | nil => exact hm
  | cons hd _ ih => exact ih (fraction_step hd hm)

/-- A request outside the range, `NaN` included, changes nothing at all; one inside is obeyed. -/
theorem C75_request (x : D) (m : Mgr D) :
    (ValidFraction x → (setSampleFraction x m).sampleFrac = x) ∧
    (¬ ValidFraction x → setSampleFraction x m = m) := by
  unfold setSampleFraction ValidFraction
  constructor
  · rintro ⟨h1, h2⟩; simp [h1, h2]
  · intro h
    rw [if_neg]
    simpa using h

end generic

/-- C75 over the reals. -/
theorem C75_valid (fa : FieldArgs ℝ) (ga : GenArgs ℝ) (h : List (Call ℝ × Outcome ℝ)) (m : Mgr ℝ)
    (hh : History (RunMgr.new fa ga) h m) : 0 ≤ m.sampleFrac ∧ m.sampleFrac ≤ 1 := by
  have := fraction_history hh (by simp [ValidFraction, RunMgr.new])
  simpa [ValidFraction] using this

/-- C75 with infinities and `NaN`: the fraction is a number in [0,1] whatever was asked for. -/
theorem C75_valid_ieee (fa : FieldArgs XR) (ga : GenArgs XR) (h : List (Call XR × Outcome XR))
    (m : Mgr XR) (hh : History (RunMgr.new fa ga) h m) :
    ∃ q : ℝ, m.sampleFrac = .fin q ∧ 0 ≤ q ∧ q ≤ 1 := by
  obtain ⟨h1, h2⟩ := fraction_history hh (by simp [ValidFraction, RunMgr.new])
  cases hx : m.sampleFrac <;> rw [hx] at h1 h2
  · simp only [XR.lit_eq, XR.le_fin, decide_eq_true_eq, Rat.cast_zero, Rat.cast_one] at h1 h2
    exact ⟨_, rfl, h1, h2⟩
  all_goals simp [Dbl.le, XR.lt, XR.eq] at h1 h2


/-! ## Witnesses -/

/-- Over the reals a `beamOn` with a valid source and an end time that is not positive runs to its end. -/
theorem beamOn_ends {m : Mgr ℝ} (hs : Empty m ∨ Holding m) (hc : incomplete m = false) {k : Kind}
    (hk : speciesOf m.genArgs.particleType = some k)
    (he : m.genArgs.energyParam1 ≤ m.genArgs.energyParam2) (ht : m.timeEnd ≤ 0)
    (tables : Main.Tables ℝ) (rng : Rng ℝ) (n : Int) (t : Nat) (tid : Nat → Nat)
    (htid : ∀ i, tid i < t) :
    ∃ m' ls, BeamOn ⟨true, tables, zeroRaw (RunMgr.u32 n), tid, rng⟩ n t m (.ok (.ran m' ls)) := by
  obtain ⟨m1, h1⟩ : ∃ m1, freeOld m = .ok m1 := by
    rcases hs with hs | hs
    · exact ⟨_, freeOld_empty hs⟩
    · obtain ⟨m1, h1, _⟩ := freeOld_holding hs
      exact ⟨m1, h1⟩
  have hcfg := (freeOld_config h1).1
  have hmade := hcfg.trans (made_config m1).1
  have hga : (makeObjects m1).genArgs = m.genArgs := hmade.genArgs
  let c : SourceConf ℝ := ⟨m.genArgs.particleType, m.genArgs.energyDist, RunMgr.u32 n, m.genArgs.energyParam1,
    m.genArgs.energyParam2, m.genArgs.radius, m.genArgs.duration, m.genArgs.divergence,
    m.genArgs.position, m.genArgs.direction, false⟩
  have hsrc : sourceOf n (zeroRaw (RunMgr.u32 n)) (makeObjects m1) = c.build (zeroRaw (RunMgr.u32 n)) := by
    unfold sourceOf
    rw [hga]
    rfl
  obtain ⟨s, hbuild⟩ := SourceWitness.build_ok c (zeroRaw (RunMgr.u32 n))
    ⟨_, zeroRaw_energy c.distro c.energy1 c.energy2 he c.n⟩
  obtain ⟨hfull, hn, hpc, hty⟩ := build_full c _ s hbuild (zeroRaw_sized _)
  have hprep : prepare true (zeroRaw (RunMgr.u32 n)) n t m =
      .ok (.go { allocGenerator (makeObjects m1) with results := .empty ((t : Int)).toNat } s) := by
    have hp := prepare_pass (e := ⟨true, tables, zeroRaw (RunMgr.u32 n), tid, rng⟩) (n := n) (t := t) (m := m)
      (.inl rfl)
    dsimp only at hp
    rw [hp, h1, Res.ok_bind, incomplete_congr hcfg, hc, if_neg (by simp), hsrc, hbuild, Res.ok_bind,
      if_neg (by omega)]
  have hte : (simOf tables { allocGenerator (makeObjects m1) with
      results := .empty ((t : Int)).toNat }).timeEnd = m.timeEnd := hmade.timeEnd
  obtain ⟨⟨ls, rs, r⟩, hev⟩ := events_no_steps (tid := tid)
    (cfg := simOf tables { allocGenerator (makeObjects m1) with results := .empty ((t : Int)).toNat })
    (by rw [hte]; simpa using ht) saneReal k _ s (.empty ((t : Int)).toNat) rng (by rw [hty]; exact hk)
    hfull rfl (by omega) (by
      intro i
      have := htid i
      simp [Results.empty, this])
  rw [hpc] at hev
  exact ⟨_, ls, .ran hprep hev⟩

namespace RunWitness

def fieldArgs : FieldArgs ℝ := ⟨1, 1, 1, 1, 0, ⟨0, 0, 0⟩, ⟨0, 0, 0⟩⟩
def genArgs : GenArgs ℝ := ⟨"electron", "uniform", 1, 2, 0, 0, 0, ⟨0, 0, 0⟩, ⟨0, 0, 1⟩⟩

/-- Settings with an end time of zero. -/
noncomputable def calls : List (Call ℝ) :=
  [.setTime 1 0, .setField "gaussian" fieldArgs, .setPhysics "Quantum", .setGenerator genArgs]

noncomputable def m0 : Mgr ℝ := RunMgr.new fieldArgs genArgs
noncomputable def m1 : Mgr ℝ := setTime 1 0 m0
noncomputable def m2 : Mgr ℝ := setField "gaussian" fieldArgs m1
noncomputable def m3 : Mgr ℝ := setPhysics "Quantum" m2
noncomputable def m4 : Mgr ℝ := setGenerator genArgs m3

noncomputable def settings : List (Call ℝ × Outcome ℝ) :=
  [(.setTime 1 0, .set m1), (.setField "gaussian" fieldArgs, .set m2), (.setPhysics "Quantum", .set m3),
    (.setGenerator genArgs, .set m4)]

theorem history : History m0 settings m4 :=
  .cons .setTime (.cons .setField (.cons .setPhysics (.cons .setGenerator .nil)))

theorem zeroEq : ZeroEq ℝ := by simp [ZeroEq]

theorem refTime_pos : (0 : ℝ) < (u : Units.UnitsSystem ℝ).refTime := si_pos.1

theorem configured : Configured settings where
  field := ⟨"gaussian", rfl, by simp [fieldNames]⟩
  physics := ⟨"Quantum", rfl, by simp [passedNames]⟩
  beam := ⟨genArgs, rfl⟩
  step := ⟨1, 0, rfl, by simpa using refTime_pos.ne'⟩

theorem ran (tables : Main.Tables ℝ) (rng : Rng ℝ) (n : Int) (t : Nat) (ht : 0 < t) :
    ∃ m' ls, BeamOn ⟨true, tables, zeroRaw (RunMgr.u32 n), fun _ => 0, rng⟩ n t m4 (.ok (.ran m' ls)) := by
  have hgen : m4.genArgs = genArgs.convert := rfl
  refine beamOn_ends (.inl ?_) ((complete_iff zeroEq history).2 configured) (k := .electron) (by decide)
    ?_ ?_ tables rng n t _ (fun _ => ht)
  · rcases history_empty history (new_empty _ _) with ⟨h1 | h1, _⟩ | ⟨_, h1⟩
    · exact h1
    · obtain ⟨_, f, _, _, _, hf, _⟩ := h1.all
      cases hf
    · obtain ⟨a, b, ha, _, hs⟩ := h1
      have hm := hs.subset (List.mem_cons_self ..)
      exfalso
      simp only [settings, List.mem_cons, List.not_mem_nil, or_false] at hm
      rcases ha with ⟨_, _, ha⟩ | ⟨_, _, ha⟩ <;> rcases hm with rfl | rfl | rfl | rfl <;> cases ha
  · rw [hgen]
    have : (0 : ℝ) < (u : Units.UnitsSystem ℝ).refEnergy := si_pos.2.2.2.2
    simp only [GenArgs.convert, genArgs, real_div]
    gcongr
    norm_num
  · have : m4.timeEnd = (0 : ℝ) /. u.refTime := rfl
    rw [this]
    simp

end RunWitness

/-- Over the reals the time step in `Configured` is one that is not zero. -/
theorem C72_step_real (a : ℝ) : (a /. (u : Units.UnitsSystem ℝ).refTime ==. lit 0) = false ↔ a ≠ 0 := by
  have := RunWitness.refTime_pos.ne'
  simp [this]

open RunWitness in
/-- The hypotheses of the theorems on C71, C72 and C75 are met by a history that configures a run. -/
example (tables : Main.Tables ℝ) (rng : Rng ℝ) : ZeroEq ℝ ∧ History m0 settings m4 ∧
    Configured settings ∧ lastOf asPhysics settings = some "Quantum" ∧ "Quantum" ∈ Model.quantum.names ∧
    ∃ e m' ls, BeamOn e 3 2 m4 (.ok (.ran m' ls)) := by
  refine ⟨zeroEq, history, configured, rfl, by simp [Model.names], ?_⟩
  obtain ⟨m', ls, hb⟩ := ran tables rng 3 2 (by norm_num)
  exact ⟨_, m', ls, hb⟩

/-- A fraction that is not a number is ignored. -/
example (m : Mgr XR) : setSampleFraction XR.nan m = m :=
  (C75_request XR.nan m).2 (by simp [ValidFraction])

open RunWitness in
/-- C72 is false: with an end time of zero, which was never checked, `beamOn` runs, and replaces the
results. -/
theorem C72_refuted (tables : Main.Tables ℝ) (rng : Rng ℝ) (n : Int) (t : Nat) (ht : 0 < t) :
    ∃ (h : List (Call ℝ × Outcome ℝ)) (m : Mgr ℝ) (fa : FieldArgs ℝ) (ga : GenArgs ℝ),
      History (RunMgr.new fa ga) h m ∧ lastOf asTime h = some (1, 0) ∧
      ∃ e m' ls, BeamOn e n t m (.ok (.ran m' ls)) ∧ m'.results.input.length = t ∧
        m.results.input.length = 0 := by
  obtain ⟨m', ls, hb⟩ := ran tables rng n t ht
  refine ⟨settings, m4, _, _, history, rfl, _, m', ls, hb, ?_, rfl⟩
  obtain ⟨m1, _, ⟨_, ho⟩ | ⟨_, _, ho⟩ | ⟨_, _, s, ls, rs, r, _, hev, ho⟩⟩ := beamOn_cases hb (.inl rfl)
  · cases ho
  · cases ho
  · cases ho
    obtain ⟨h1, _⟩ := events_spec hev _ _ _ rfl
    rw [h1]
    simp [after, Results.empty, addAll_replicate]

open RunWitness in
/-- C70 is false: a run, then a change of physics to the documented name `classical`, then another
`beamOn`, and the destructor frees the objects a second time. -/
theorem C70_refuted (tables : Main.Tables ℝ) (rng : Rng ℝ) :
    ∃ (h : List (Call ℝ × Outcome ℝ)) (m : Mgr ℝ) (fa : FieldArgs ℝ) (ga : GenArgs ℝ),
      History (RunMgr.new fa ga) h m ∧ destroy m = .ub "double free" ∧
      h.map Prod.fst = calls ++ [.beamOn ⟨true, tables, zeroRaw 1, fun _ => 0, rng⟩ 1 1,
        .setPhysics "classical", .beamOn ⟨true, tables, zeroRaw 1, fun _ => 0, rng⟩ 1 1] := by
  obtain ⟨m5, ls, hb⟩ := ran tables rng 1 1 (by norm_num)
  have hu : RunMgr.u32 1 = 1 := by decide
  rw [hu] at hb
  have hh5 : History m0 (settings ++ [(.beamOn ⟨true, tables, zeroRaw 1, fun _ => 0, rng⟩ 1 1,
      .ran m5 ls), (.setPhysics "classical", .set (setPhysics "classical" m5))])
      (setPhysics "classical" m5) :=
    history.append (.cons (.beamOn hb) (.cons .setPhysics .nil))
  have hsafe := history_empty hh5 (new_empty _ _)
  have hnm : ¬ Misuse (settings ++ [(.beamOn ⟨true, tables, zeroRaw 1, fun _ => 0, rng⟩ 1 1,
      .ran m5 ls), (.setPhysics "classical", .set (setPhysics "classical" m5))]) := by
    rintro ⟨a, b, _, hbt, hs⟩
    have hm := hs.subset (show b ∈ [a, b] by simp)
    obtain ⟨_, _, _, _, rfl, _⟩ := hbt
    simp [settings] at hm
  have hold : Empty (setPhysics "classical" m5) ∨ Holding (setPhysics "classical" m5) := by
    rcases hsafe with h | h
    · exact h.1
    · exact absurd h.2 hnm
  obtain ⟨m6, h6⟩ : ∃ m6, freeOld (setPhysics "classical" m5) = .ok m6 := by
    rcases hold with h | h
    · exact ⟨_, freeOld_empty h⟩
    · obtain ⟨m6, h6, _⟩ := freeOld_holding h
      exact ⟨m6, h6⟩
  have hinc : incomplete (setPhysics "classical" m5) = true := by
    have : (setPhysics "classical" m5).physSet = false :=
      (C71_names_iff (D := ℝ) "classical").2 (by simp [passedNames]) m5
    simp [incomplete, this]
  have hb2 : BeamOn ⟨true, tables, zeroRaw 1, fun _ => 0, rng⟩ 1 1 (setPhysics "classical" m5)
      (.ok (.rejected m6)) := by
    refine .rejected ?_
    have hp := prepare_pass (e := ⟨true, tables, zeroRaw 1, fun _ => 0, rng⟩) (n := 1) (t := 1)
      (m := setPhysics "classical" m5) (.inl rfl)
    dsimp only at hp
    rw [hp, h6, Res.ok_bind, incomplete_congr (freeOld_config h6).1, hinc, if_pos rfl]
  have hh6 := hh5.append (.cons (.beamOn hb2) .nil)
  refine ⟨_, m6, _, _, hh6, ?_, by simp [settings, calls]⟩
  refine (C70_destroy_iff _ _ _ _ hh6).1
    ⟨(.beamOn ⟨true, tables, zeroRaw 1, fun _ => 0, rng⟩ 1 1, .ran m5 ls),
    (.beamOn ⟨true, tables, zeroRaw 1, fun _ => 0, rng⟩ 1 1, .rejected m6), .inl ⟨m5, ls, rfl⟩, ⟨⟨true, tables, zeroRaw 1, fun _ => 0, rng⟩, 1, 1, m6, rfl, .inl rfl⟩, ?_⟩
  simp only [List.append_assoc, List.cons_append, List.nil_append]
  exact List.sublist_append_of_sublist_right
    (List.Sublist.cons_cons _ (List.Sublist.cons _ (List.Sublist.refl _)))

open RunWitness in
/-- C81 is false: a single run leaves a process behind. -/
theorem C81_refuted (tables : Main.Tables ℝ) (rng : Rng ℝ) :
    ∃ (h : List (Call ℝ × Outcome ℝ)) (m : Mgr ℝ) (fa : FieldArgs ℝ) (ga : GenArgs ℝ) (heap : Heap),
      History (RunMgr.new fa ga) h m ∧ destroy m = .ok heap ∧ heap.live.length = 1 := by
  obtain ⟨m5, ls, hb⟩ := ran tables rng 1 1 (by norm_num)
  have hh5 := history.append (.cons (.beamOn hb) .nil)
  have hnm : ¬ Misuse (settings ++ [((.beamOn ⟨true, tables, zeroRaw (RunMgr.u32 1), fun _ => 0, rng⟩ 1 (1 : Nat),
      .ran m5 ls) : Call ℝ × Outcome ℝ)]) := by
    rintro ⟨a, b, _, hbt, hs⟩
    have hm := hs.subset (show b ∈ [a, b] by simp)
    obtain ⟨_, _, _, _, rfl, _⟩ := hbt
    simp [settings] at hm
  obtain ⟨heap, hd⟩ := (C70_destroy_iff _ _ _ _ hh5).2 hnm
  refine ⟨_, _, _, _, heap, hh5, hd, ?_⟩
  rw [C81_leak_partial _ _ _ _ hh5 heap hd]
  obtain ⟨m1, h1, ⟨_, ho⟩ | ⟨_, _, ho⟩ | ⟨_, _, s, ls, rs, r, _, hev, ho⟩⟩ := beamOn_cases hb (.inl rfl)
  · cases ho
  · cases ho
  · cases ho
    have hu : m1.useBW = false := (freeOld_config h1).1.useBW
    simp [settings, processesMade, (made_count m1).2, hu]

end QED
