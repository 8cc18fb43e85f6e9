import Verif.Lemmas.ContinuousEvent
import Verif.Props.Numerics
import Verif.Props.Tables

set_option autoImplicit false

/-!
# Which values of eta the tables of continuous emission cover
-/

namespace QED

open Dbl Numerics

/-- Below the table's first value of `eta`, and in the classical model, this value is used. -/
noncomputable def lookedUp (e : EmissionCfg ℝ) (c : Bool) (eta : ℝ) : ℝ :=
  if eta < 1e-12 ∨ c = true then Real.exp (e.hAxis.getD 0 0) else eta

theorem calculateChi_ok_iff {e : EmissionCfg ℝ} (hg : e.GoodTables) (eta v : ℝ) :
    (∃ x, calculateChi e eta v = .ok x) ↔ ∃ y, closestPoints e.etaAxis (log10 eta) = .ok y := by
  constructor
  · rintro ⟨x, hx⟩
    unfold calculateChi at hx
    obtain ⟨y, hy, -⟩ := Res.bind_eq_ok.mp hx
    exact ⟨y, hy⟩
  · rintro ⟨y, hy⟩
    rcases calculateChi_total hg eta v with h | h
    · exact h
    · exfalso
      unfold calculateChi at h
      rcases closestPoints_cases e.etaAxis (log10 eta) hg.eta.1 hg.eta.2 with ⟨low, frac, h1, hlt⟩ | h1
      · rw [h1, Res.ok_bind] at h
        have h1 : low < e.phEnTable.length := by rw [hg.rows.1]; omega
        have h2 : low < e.chiAxis.length := by rw [hg.rows.2]; omega
        have h3 : low + 1 < e.phEnTable.length := by rw [hg.rows.1]; omega
        have h4 : low + 1 < e.chiAxis.length := by rw [hg.rows.2]; omega
        obtain ⟨a1, b1, c1⟩ := hg.row low _ _ (List.getElem?_eq_getElem h1) (List.getElem?_eq_getElem h2)
        obtain ⟨a2, b2, c2⟩ := hg.row (low + 1) _ _ (List.getElem?_eq_getElem h3)
          (List.getElem?_eq_getElem h4)
        obtain ⟨v1, hv1⟩ := interpolate1D_ok _ _ v a1 b1 c1
        obtain ⟨v2, hv2⟩ := interpolate1D_ok _ _ v a2 b2 c2
        simp only [rd_ok h1, rd_ok h2, rd_ok h3, rd_ok h4, Res.ok_bind, hv1, hv2] at h
        cases h
      · rw [hy] at h1; cases h1

theorem loghChi_ok_iff {e : EmissionCfg ℝ} (hg : e.GoodTables) (c : Bool) (eta v : ℝ) :
    (∃ x, continuousLoghChi e c eta v = .ok x) ↔ ∃ x, calculateChi e (lookedUp e c eta) v = .ok x := by
  unfold continuousLoghChi lookedUp
  by_cases h : eta < 1e-12 ∨ c = true
  · rw [if_pos h, if_pos (by rcases h with h | h <;> simp only [real_lt, real_lit, Bool.or_eq_true,
      decide_eq_true_eq] <;> [left; right] <;> norm_num <;> first | exact h | linarith)]
    have h0 : 0 < e.hAxis.length := by have := hg.h.2.1; omega
    rw [rd_ok h0, Res.ok_bind]
    have : e.hAxis.getD 0 0 = e.hAxis[0] := by
      rw [List.getD_eq_getElem?_getD, List.getElem?_eq_getElem h0, Option.getD_some]
    rw [this]
    constructor
    · rintro ⟨x, hx⟩
      obtain ⟨y, hy, -⟩ := Res.bind_eq_ok.mp hx
      exact ⟨y, hy⟩
    · rintro ⟨y, hy⟩
      have hy' : calculateChi e (exp e.hAxis[0]) v = .ok y := hy
      exact ⟨_, Res.bind_eq_ok.mpr ⟨y, hy', rfl⟩⟩
  · rw [if_neg h]
    push Not at h
    rw [if_neg (by
      simp only [real_lt, real_lit, Bool.or_eq_true, decide_eq_true_eq, not_or]
      exact ⟨by push_cast; linarith [h.1], h.2⟩)]
    obtain ⟨a, ha⟩ := interpolate1D_ok e.hAxis e.hData (log10 eta) hg.h.1 hg.h.2.1 hg.h.2.2
    rw [ha, Res.ok_bind]
    constructor
    · rintro ⟨x, hx⟩
      obtain ⟨y, hy, -⟩ := Res.bind_eq_ok.mp hx
      exact ⟨y, hy⟩
    · rintro ⟨y, hy⟩
      exact ⟨_, Res.bind_eq_ok.mpr ⟨y, hy, rfl⟩⟩

/-- With an increasing axis, the values up to the last but one entry are covered. -/
theorem covered_iff {e : EmissionCfg ℝ} (hg : e.GoodTables) (hs : e.etaAxis.Pairwise (· < ·))
    (h3 : 3 ≤ e.etaAxis.length) (c : Bool) (eta : ℝ) :
    Covered e c eta ↔ Real.logb 10 (lookedUp e c eta) ≤ e.etaAxis[e.etaAxis.length - 2] := by
  have key : (∃ y, closestPoints e.etaAxis (log10 (lookedUp e c eta)) = .ok y) ↔
      Real.logb 10 (lookedUp e c eta) ≤ e.etaAxis[e.etaAxis.length - 2] := by
    have hl : (log10 (lookedUp e c eta) : ℝ) = Real.logb 10 (lookedUp e c eta) := by
      simp [Real.logb]
    rw [hl]
    constructor
    · rintro ⟨y, hy⟩
      by_contra h
      rw [C08_last_interval_refuted hs hg.eta.1 hg.eta.2 _ (not_le.mp h)] at hy
      cases hy
    · intro h
      by_cases h0 : e.etaAxis[0] ≤ Real.logb 10 (lookedUp e c eta)
      · obtain ⟨low, f, -, h1, -⟩ := C08_bracket_partial hs hg.eta.1 hg.eta.2 _ h0 h h3
        exact ⟨_, h1⟩
      · have hscan := scanLow_eq (q := Real.logb 10 (lookedUp e c eta)) e.etaAxis 0 0 0 (Nat.zero_le _)
          (fun i hi => absurd hi (Nat.not_lt_zero _)) (fun _ => not_lt.mpr (not_le.mp h0).le)
        unfold closestPoints
        dsimp only
        rw [hscan, if_pos rfl, usub_of_le hg.eta.1 hg.eta.2, if_pos (by omega),
          rd_ok (show 0 < e.etaAxis.length by omega), Res.ok_bind,
          rd_ok (show 0 + 1 < e.etaAxis.length by omega), Res.ok_bind]
        exact ⟨_, rfl⟩
  unfold Covered
  constructor
  · intro h
    exact key.mp ((calculateChi_ok_iff hg _ 0).mp ((loghChi_ok_iff hg c eta 0).mp (h 0)))
  · intro h v
    exact (loghChi_ok_iff hg c eta v).mpr ((calculateChi_ok_iff hg _ v).mpr (key.mpr h))

end QED
