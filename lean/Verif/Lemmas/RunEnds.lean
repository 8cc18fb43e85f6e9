import Verif.Lemmas.RunEvents
import Verif.Lemmas.ProgramRun

set_option linter.unusedSectionVars false
set_option autoImplicit false

/-!
# The event loop of the run manager ends
-/

namespace QED
namespace RunMgr

open Dbl MCTools Main

variable {D : Type} [Dbl D]

/-- One result vector per thread. -/
structure PerThread (n : Nat) (rs : Results D) : Prop where
  input : rs.input.length = n
  electrons : rs.electrons.length = n
  photons : rs.photons.length = n
  positrons : rs.positrons.length = n

theorem perThread_empty (n : Nat) : PerThread n (Results.empty n : Results D) := by
  constructor <;> simp [Results.empty]

theorem PerThread.stored {n tid : Nat} {rs : Results D} (h : PerThread n rs) (ht : tid < n)
    (ps : List (Particle D)) : ∃ rs', storeInput tid ps rs = .ok rs' ∧ PerThread n rs' := by
  obtain ⟨rs', e⟩ := storeInput_ok ps rs (by rw [h.input]; exact ht)
  refine ⟨rs', e, ?_⟩
  rw [storeInput_inv e]
  exact ⟨by simpa using h.input, h.electrons, h.photons, h.positrons⟩

theorem PerThread.finals {n tid : Nat} {rs : Results D} (h : PerThread n rs) (ht : tid < n)
    (ps : List (Particle D)) : ∃ rs', storeFinals tid ps rs = .ok rs' ∧ PerThread n rs' := by
  obtain ⟨rs', e⟩ := storeFinals_ok ps rs (by rw [h.electrons]; exact ht) (by rw [h.photons]; exact ht)
    (by rw [h.positrons]; exact ht)
  refine ⟨rs', e, ?_⟩
  rw [storeFinals_inv e]
  exact ⟨h.input, by simpa using h.electrons, by simpa using h.photons, by simpa using h.positrons⟩

/-- No event is undefined. -/
theorem events_defined {cfg : SimCfg D} (hg : ∀ proc ∈ cfg.procs, proc.GoodTables) {tid : Nat → Nat}
    {n i : Nat} {s : Source D} {rs : Results D} {r : Rng D}
    {o : Res (List (PList D × PList D) × Results D × Rng D)} (h : Events cfg tid i s rs r o) :
    s.Full → s.partCount = i → PerThread n rs → (∀ j < s.nPart, tid j < n) → OkOrExit o := by
  induction h with
  | done _ => exact fun _ _ _ _ => okOrExit_ok _
  | event _ _ _ _ _ _ _ => exact fun _ _ _ _ => okOrExit_ok _
  | @later i s rs r l s' r' rs1 n' es rs2 o hi h1 h2 h3 h4 _ _ ih =>
    intro hf hc hp ht
    rcases generateList_total s hf (by omega) r with e | ⟨p, l', r'', e, -, -⟩
    · rw [h1] at e; cases e
    · rw [h1] at e
      cases Res.ok.inj e
      obtain ⟨a, ha, hpa⟩ := hp.stored (ht i hi) l.items
      rw [h2] at ha
      cases Res.ok.inj ha
      obtain ⟨b, hb, hpb⟩ := hpa.finals (ht i hi) es.list.items
      rw [h4] at hb
      cases Res.ok.inj hb
      exact ih ⟨hf.x, hf.y, hf.z, hf.theta, hf.phi, hf.energy⟩ (by dsimp only; omega) hpb ht
  | @source i s rs r c hi h1 =>
    intro hf hc hp ht
    rcases generateList_total s hf (by omega) r with e | ⟨p, l', r'', e, -, -⟩
    · rw [h1] at e; cases e; exact Or.inr rfl
    · rw [h1] at e; cases e
  | @sourceUb i s rs r w hi h1 =>
    intro hf hc hp ht
    rcases generateList_total s hf (by omega) r with e | ⟨p, l', r'', e, -, -⟩ <;> rw [h1] at e <;> cases e
  | @inputUb i s rs r l s' r' w hi h1 h2 =>
    intro hf hc hp ht
    obtain ⟨a, ha, -⟩ := hp.stored (ht i hi) l.items
    rw [h2] at ha; cases ha
  | @runUb i s rs r l s' r' rs1 n' w hi h1 h2 h3 =>
    intro hf hc hp ht
    rcases C39_event cfg hg _ rfl _ _ h3 with ⟨a, ha⟩ | ha <;> cases ha
  | @runExit i s rs r l s' r' rs1 n' c hi h1 h2 h3 =>
    intro hf hc hp ht
    rcases C39_event cfg hg _ rfl _ _ h3 with ⟨a, ha⟩ | ha <;> cases ha
    exact Or.inr rfl
  | @finalUb i s rs r l s' r' rs1 n' es w hi h1 h2 h3 h4 =>
    intro hf hc hp ht
    obtain ⟨a, ha, hpa⟩ := hp.stored (ht i hi) l.items
    rw [h2] at ha
    cases Res.ok.inj ha
    obtain ⟨b, hb, -⟩ := hpa.finals (ht i hi) es.list.items
    rw [h4] at hb; cases hb

/-- The event loop ends if its events do. -/
theorem events_end {cfg : SimCfg D} (hg : ∀ proc ∈ cfg.procs, proc.GoodTables)
    (hend : ∀ (l : PList D) (r : Rng D), ∃ n o, Run cfg (.init l r []) n o) {tid : Nat → Nat} {n : Nat} :
    ∀ (k i : Nat) (s : Source D) (rs : Results D) (r : Rng D), s.Full → s.partCount = i →
      s.nPart = i + k → PerThread n rs → (∀ j < s.nPart, tid j < n) → ∃ o, Events cfg tid i s rs r o := by
  intro k
  induction k with
  | zero => intro i s rs r _ _ hn _ _; exact ⟨_, .done (by omega)⟩
  | succ k ih =>
    intro i s rs r hf hc hn hp ht
    have hi : i < s.nPart := by omega
    rcases generateList_total s hf (by omega) r with e | ⟨p, l, r', e, -, -⟩
    · exact ⟨_, .source hi e⟩
    obtain ⟨rs1, h1, hp1⟩ := hp.stored (ht i hi) l.items
    obtain ⟨m, o, hrun⟩ := hend l r'
    rcases C39_event cfg hg _ rfl _ _ hrun with ⟨es, rfl⟩ | rfl
    swap
    · exact ⟨_, .runExit hi e h1 hrun⟩
    obtain ⟨rs2, h2, hp2⟩ := hp1.finals (ht i hi) es.list.items
    obtain ⟨o, ho⟩ := ih (i + 1) { s with partCount := s.partCount + 1 } rs2 es.rng
      ⟨hf.x, hf.y, hf.z, hf.theta, hf.phi, hf.energy⟩ (by dsimp only; omega) (by dsimp only; omega) hp2 ht
    match o, ho with
    | .ok (ls, rs3, r3), ho => exact ⟨_, .event hi e h1 hrun h2 ho⟩
    | .exit c, ho => exact ⟨_, .later hi e h1 hrun h2 ho (by intro x hx; cases hx)⟩
    | .throw c, ho => exact ⟨_, .later hi e h1 hrun h2 ho (by intro x hx; cases hx)⟩
    | .ub c, ho => exact ⟨_, .later hi e h1 hrun h2 ho (by intro x hx; cases hx)⟩

/-- The samples of a source can be drawn: a Gaussian distribution, or limits in order. -/
def BeamInOrder (a : GenArgs D) : Prop :=
  a.energyDist = "gaussian" ∨ a.energyDist = "Gaussian" ∨ (a.energyParam1 <=. a.energyParam2) = true

theorem sourceOf_total (ha : AngleInOrder D) (n : Int) (raw : RawDraws D) (m : Mgr D)
    (hr : raw.Sized (RunMgr.u32 n)) :
    (BeamInOrder m.genArgs → ∃ s, sourceOf n raw m = .ok s ∧ s.Full ∧ s.partCount = 0 ∧
      s.nPart = RunMgr.u32 n) ∧
    (¬ BeamInOrder m.genArgs → ∃ w, sourceOf n raw m = .ub w) := by
  let a := m.genArgs
  exact makeSource_total ha ⟨"SI", m.timeStep, m.timeEnd, "", false⟩
    ⟨RunMgr.u32 n, "", a.particleType, a.energyDist, a.position, a.direction, a.energyParam1,
      a.energyParam2, a.radius, a.divergence, a.duration, false⟩ raw hr

theorem simOf_good (t : Main.Tables D) (ht : t.Good) (m : Mgr D) :
    ∀ proc ∈ (simOf t m).procs, proc.GoodTables := by
  have hem : (emissionOf t m).GoodTables := ⟨ht.h, ht.eta, ht.rows, ht.row⟩
  intro proc hp
  unfold simOf at hp
  rcases List.mem_cons.mp hp with rfl | hp
  · unfold physicsOf
    split
    · exact hem
    · split <;> exact hem
  · split at hp
    · rw [List.mem_singleton.mp hp]
      exact ⟨ht.pair, ht.chi, ht.bwRows, ht.bwRow⟩
    · cases hp

end RunMgr
end QED
