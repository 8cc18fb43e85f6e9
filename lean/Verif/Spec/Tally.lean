import Verif.Spec.Radiation

set_option autoImplicit false

/-!
# Totals over the history of a lepton

Used by C154: `h` is a record of emissions as in `Spec/Radiation`.
-/

namespace QED

open MeasureTheory

/-- The total of `g` over the emissions of the record `h`. `g q v` belongs to the emission by a lepton in the state `q`
of the photon that the number `v` selects. -/
def overEmissions {α : Type} (push : α → α) (kick : α → ℝ → α) (g : α → ℝ → ENNReal) : List (Option ℝ) → α → ENNReal
  | [], _ => 0
  | none :: h, q => overEmissions push kick g h (push q)
  | some v :: h, q => g (push q) v + overEmissions push kick g h (kick (push q) v)

/-- The total of `f` over all steps of the record `h`, whether something is emitted in them or not. -/
def overSteps {α : Type} (push : α → α) (kick : α → ℝ → α) (f : α → ENNReal) : List (Option ℝ) → α → ENNReal
  | [], _ => 0
  | none :: h, q => f (push q) + overSteps push kick f h (push q)
  | some v :: h, q => f (push q) + overSteps push kick f h (kick (push q) v)

/-- The mean of `g` over the photons that a lepton in the state `q` can emit. -/
noncomputable def overSpectrum {α : Type} (g : α → ℝ → ENNReal) (q : α) : ENNReal := ∫⁻ v in Set.Ico (0 : ℝ) 1, g q v

/-- `G h` for the record `h` of the first `n` steps of the program from `s`. There is one such record at most, so this is
no choice between several. -/
noncomputable def recorded (cfg : SimCfg ℝ) (s : EvState ℝ) (n : Nat) (G : List (Option ℝ) → ENNReal) : ENNReal :=
  ⨆ (h : List (Option ℝ)) (_ : (∃ t, Lived cfg s h t) ∧ h.length = n), G h

/-- The mean of `G h` over the records `h` of the first `n` steps of an event with the one particle `p`, whose `N` draws
are independent and uniform in `[0, 1)`. -/
noncomputable def meanOf (cfg : SimCfg ℝ) (p : Particle ℝ) (nm : String) (mx n N : Nat) (G : List (Option ℝ) → ENNReal) :
    ENNReal := average N fun us => recorded cfg (lonely p nm mx us) n G

/-- The total of `g` over the photons that the lepton `p` emits, as a function of the record. -/
noncomputable def radiated (cfg : SimCfg ℝ) (e : EmissionCfg ℝ) (chi : ℝ → ℝ → ℝ) (g : Particle ℝ → ℝ → ENNReal) (p : Particle ℝ)
    (h : List (Option ℝ)) : ENNReal :=
  overEmissions (pushParticle cfg.push cfg.field cfg.dt) (kicked e chi) g h p

/-- The total of `f` over all steps of the lepton `p`, as a function of the record. -/
noncomputable def expected (cfg : SimCfg ℝ) (e : EmissionCfg ℝ) (chi : ℝ → ℝ → ℝ) (f : Particle ℝ → ENNReal) (p : Particle ℝ)
    (h : List (Option ℝ)) : ENNReal :=
  overSteps (pushParticle cfg.push cfg.field cfg.dt) (kicked e chi) f h p

end QED
