import Verif.Lemmas.Processes
import Verif.Lemmas.Loop

set_option linter.unusedSectionVars false
set_option autoImplicit false

/-!
# Property C39: table lookups stay inside the tables

For every kind of scalar, so also for floating point with infinities and NaN.
-/

namespace QED

open MCTools Numerics

variable {D : Type} [Dbl D]

/-- A table of axis and data of the same length, at least two, as loaded by the code
(lengths are `unsigned int`). -/
def GoodAxis (s d : List D) : Prop := s.length = d.length ∧ 2 ≤ s.length ∧ s.length < 2 ^ 32

/-- Tables of an emission process with consistent sizes. -/
structure EmissionCfg.GoodTables (cfg : EmissionCfg D) : Prop where
  h : GoodAxis cfg.hAxis cfg.hData
  eta : 2 ≤ cfg.etaAxis.length ∧ cfg.etaAxis.length < 2 ^ 32
  rows : cfg.phEnTable.length = cfg.etaAxis.length ∧ cfg.chiAxis.length = cfg.etaAxis.length
  row : ∀ (i : Nat) (t c : List D), cfg.phEnTable[i]? = some t → cfg.chiAxis[i]? = some c → GoodAxis t c

/-- Tables of the pair-production process with consistent sizes. -/
structure BWCfg.GoodTables (cfg : BWCfg D) : Prop where
  t : GoodAxis cfg.tAxis cfg.tData
  chi : 2 ≤ cfg.chiAxis.length ∧ cfg.chiAxis.length < 2 ^ 32
  rows : cfg.fractTable.length = cfg.chiAxis.length
  row : ∀ t ∈ cfg.fractTable, GoodAxis t cfg.fractAxis

/-- `GoodTables` for every process. -/
def Proc.GoodTables : Proc D → Prop
  | .stochastic cfg => cfg.GoodTables
  | .continuous cfg _ => cfg.GoodTables
  | .breitWheeler cfg => cfg.GoodTables

/-- A value, or the end of the program with code -1. -/
def OkOrExit {α : Type} (x : Res α) : Prop := (∃ a, x = .ok a) ∨ x = .exit (-1)

theorem okOrExit_ok {α : Type} (a : α) : OkOrExit (.ok a) := Or.inl ⟨a, rfl⟩

theorem OkOrExit.bind {α β : Type} {x : Res α} {f : α → Res β} (hx : OkOrExit x)
    (hf : ∀ a, x = .ok a → OkOrExit (f a)) : OkOrExit (x >>= f) := by
  rcases hx with ⟨a, rfl⟩ | rfl
  · exact hf a rfl
  · exact Or.inr rfl

theorem calculateChi_total {cfg : EmissionCfg D} (hg : cfg.GoodTables) (eta rand : D) :
    OkOrExit (calculateChi cfg eta rand) := by
  unfold calculateChi
  rcases closestPoints_cases cfg.etaAxis (Dbl.log10 eta) hg.eta.1 hg.eta.2 with
    ⟨low, frac, h, hlt⟩ | h
  · rw [h]
    simp only [Res.ok_bind]
    have h1 : low < cfg.phEnTable.length := by rw [hg.rows.1]; omega
    have h2 : low < cfg.chiAxis.length := by rw [hg.rows.2]; omega
    have h3 : low + 1 < cfg.phEnTable.length := by rw [hg.rows.1]; omega
    have h4 : low + 1 < cfg.chiAxis.length := by rw [hg.rows.2]; omega
    rw [rd_ok h1, rd_ok h2, rd_ok h3, rd_ok h4]
    simp only [Res.ok_bind]
    obtain ⟨a1, b1, c1⟩ := hg.row low _ _ (List.getElem?_eq_getElem h1) (List.getElem?_eq_getElem h2)
    obtain ⟨a2, b2, c2⟩ := hg.row (low + 1) _ _ (List.getElem?_eq_getElem h3)
      (List.getElem?_eq_getElem h4)
    obtain ⟨v1, hv1⟩ := interpolate1D_ok _ _ rand a1 b1 c1
    obtain ⟨v2, hv2⟩ := interpolate1D_ok _ _ rand a2 b2 c2
    rw [hv1, hv2]
    exact okOrExit_ok _
  · rw [h]; exact Or.inr rfl

/-- With tables of consistent sizes, no process call ever reads outside a table (or
has any other undefined behaviour): it returns, or ends the program with code -1. -/
theorem C39_no_outside_reads (proc : Proc D) (hg : proc.GoodTables) (p : Particle D) (l : PList D)
    (r : Rng D) : OkOrExit (proc.interact p l r) := by
  cases proc with
  | stochastic cfg =>
    have hg : cfg.GoodTables := hg
    show OkOrExit (stochasticInteract cfg p l r)
    unfold stochasticInteract
    split
    · exact okOrExit_ok _
    · refine OkOrExit.bind ?_ fun logh _ => ?_
      · unfold emissionLogh
        split
        · exact okOrExit_ok _
        · exact Or.inl (interpolate1D_ok _ _ _ hg.h.1 hg.h.2.1 hg.h.2.2)
      · dsimp only
        split
        · exact (calculateChi_total hg _ _).bind fun chi _ => okOrExit_ok _
        · exact okOrExit_ok _
  | continuous cfg c =>
    have hg : cfg.GoodTables := hg
    show OkOrExit (continuousInteract cfg c p l r)
    unfold continuousInteract
    split
    · exact okOrExit_ok _
    · dsimp only
      split
      · exact okOrExit_ok _
      · refine OkOrExit.bind ?_ fun lc _ => ?_
        · unfold continuousLoghChi
          split
          · have h0 : 0 < cfg.hAxis.length := by have := hg.h.2.1; omega
            rw [rd_ok h0, Res.ok_bind]
            exact (calculateChi_total hg _ _).bind fun _ _ => okOrExit_ok _
          · refine OkOrExit.bind (Or.inl (interpolate1D_ok _ _ _ hg.h.1 hg.h.2.1 hg.h.2.2))
              fun _ _ => (calculateChi_total hg _ _).bind fun _ _ => okOrExit_ok _
        · split
          · exact okOrExit_ok _
          · exact okOrExit_ok _
  | breitWheeler cfg =>
    have hg : cfg.GoodTables := hg
    show OkOrExit (bwInteract cfg p l r)
    unfold bwInteract
    split
    · exact okOrExit_ok _
    · refine OkOrExit.bind (Or.inl (interpolate1D_ok _ _ _ hg.t.1 hg.t.2.1 hg.t.2.2)) fun _ _ => ?_
      dsimp only
      split
      · refine OkOrExit.bind ?_ fun _ _ => okOrExit_ok _
        unfold bwSplit
        rcases closestPoints_cases cfg.chiAxis (Dbl.log10 (bwChi cfg.field p)) hg.chi.1 hg.chi.2 with
          ⟨low, frac, h, hlt⟩ | h
        · rw [h]
          simp only [Res.ok_bind]
          have h1 : low < cfg.fractTable.length := by rw [hg.rows]; omega
          have h2 : low + 1 < cfg.fractTable.length := by rw [hg.rows]; omega
          rw [rd_ok h1, rd_ok h2]
          simp only [Res.ok_bind]
          obtain ⟨a1, b1, c1⟩ := hg.row _ (List.getElem_mem h1)
          obtain ⟨a2, b2, c2⟩ := hg.row _ (List.getElem_mem h2)
          obtain ⟨v1, hv1⟩ := interpolate1D_ok _ _ r.next.1 a1 b1 c1
          obtain ⟨v2, hv2⟩ := interpolate1D_ok _ _ r.next.1 a2 b2 c2
          rw [hv1, hv2]
          exact okOrExit_ok _
        · rw [h]; exact Or.inr rfl
      · exact okOrExit_ok _

theorem interactAll_okOrExit (procs : List (Proc D)) (hg : ∀ proc ∈ procs, proc.GoodTables) (k : Nat)
    (l : PList D) (r : Rng D) (hk : k < l.items.length) : OkOrExit (interactAll procs k l r) := by
  induction procs generalizing l r with
  | nil => exact okOrExit_ok _
  | cons proc rest ih =>
    rw [interactAll]
    refine OkOrExit.bind ?_ ?_
    · unfold interactAt
      rw [PList.get_eq_ok.mpr (List.getElem?_eq_getElem hk)]
      simp only [Res.ok_bind]
      exact (C39_no_outside_reads proc (hg proc List.mem_cons_self) _ _ _).bind
        fun _ _ => okOrExit_ok _
    · rintro ⟨l1, r1⟩ h1
      refine ih (fun pr hpr => hg pr (List.mem_cons_of_mem _ hpr)) l1 r1 ?_
      unfold interactAt at h1
      rw [PList.get_eq_ok.mpr (List.getElem?_eq_getElem hk)] at h1
      simp only [Res.ok_bind] at h1
      rw [Res.bind_eq_ok] at h1
      obtain ⟨⟨p', l2, r2⟩, h2, h1⟩ := h1
      simp only [Res.ok.injEq, Prod.mk.injEq] at h1
      obtain ⟨new, he⟩ := interact_effect h2
      rw [← h1.1, items_after (List.getElem?_eq_getElem hk) he]
      simp; omega

theorem advance_okOrExit (cfg : SimCfg D) (hg : ∀ proc ∈ cfg.procs, proc.GoodTables) (l : PList D)
    (r : Rng D) : OkOrExit (advance cfg l r) := by
  have hloop : ∀ fuel k l r, OkOrExit (particleLoop cfg fuel k l r) := by
    intro fuel
    induction fuel with
    | zero => intro k l r; exact okOrExit_ok _
    | succ fuel ih =>
      intro k l r
      rw [particleLoop]
      split
      · next hk =>
        refine OkOrExit.bind ?_ fun _ _ => ih _ _ _
        unfold visit
        rw [PList.get_eq_ok.mpr (List.getElem?_eq_getElem hk)]
        simp only [Res.ok_bind]
        exact interactAll_okOrExit _ hg _ _ _ (by simpa [PList.nPart] using hk)
      · exact okOrExit_ok _
  exact hloop _ _ _ _

/-- The same for whole events without histograms: with good tables for all processes, the
time loop never runs into undefined behaviour. -/
theorem C39_event (cfg : SimCfg D) (hg : ∀ proc ∈ cfg.procs, proc.GoodTables) (s : EvState D)
    (hhists : s.hists = []) (n : Nat) (o : Res (EvState D)) (h : Run cfg s n o) : OkOrExit o := by
  have hstep : ∀ (s : EvState D), s.hists = [] → OkOrExit (timeStep cfg s) := by
    intro s hs
    unfold timeStep histStep
    rw [hs]
    simp only [List.getElem?_nil, Res.ok_bind]
    exact (advance_okOrExit cfg hg _ _).bind fun _ _ => okOrExit_ok _
  have hkeep : ∀ s s', s.hists = [] → timeStep cfg s = .ok s' → s'.hists = [] := by
    intro s s' hs h
    unfold timeStep histStep at h
    rw [hs] at h
    simp only [List.getElem?_nil, Res.ok_bind] at h
    rw [Res.bind_eq_ok] at h
    obtain ⟨a, _, h⟩ := h
    simp only [Res.ok.injEq] at h
    rw [← h]; exact hs
  induction h with
  | done _ => exact okOrExit_ok _
  | step _ h2 _ ih => exact ih (hkeep _ _ hhists h2)
  | abort _ h2 _ => rw [← h2]; exact hstep _ hhists

/-- Tables that meet the hypotheses. -/
example : (Proc.breitWheeler (D := ℝ) ⟨staticField ⟨0, 0, 0⟩ ⟨0, 0, 0⟩, 1, true, [0, 1], [0, 0],
    [0, 1, 2], [0, 1], [[0, 1], [0, 1], [0, 1]]⟩).GoodTables := by
  refine ⟨⟨rfl, by simp, by simp⟩, ⟨by simp, by simp⟩, rfl, ?_⟩
  intro t ht
  simp at ht
  subst ht
  exact ⟨rfl, by simp, by simp⟩

/-- A table of a single row is not enough: the lookup then reads past its end. -/
example : closestPoints [(0 : ℝ)] 0 = .ub "out-of-bounds read" := by
  simp [closestPoints, scanLow, usub, rd]

end QED
