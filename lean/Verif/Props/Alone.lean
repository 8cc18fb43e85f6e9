import Verif.Props.Watching
import Verif.Props.Example

set_option autoImplicit false

/-!
# Property C142: histograms in their order do not disturb each other

`C142_others_refuted` shows a histogram that is disturbed by one in front of it. If the times are in order and at least one
time step apart, each histogram shows what it would show if it were the only one.
-/

namespace QED

open MCTools

theorem steps_plain {cfg : SimCfg ℝ} {s t : EvState ℝ} {n : Nat} (h : Steps cfg s n t) :
    Steps cfg (Watch.plain s) n (Watch.plain t) := by
  induction h with
  | zero => exact .zero
  | succ _ b c ih => exact .succ ih b (Watch.timeStep_plain c)

theorem run_det {cfg : SimCfg ℝ} {s t t' : EvState ℝ} {n n' : Nat} (h : Run cfg s n (.ok t))
    (h' : Run cfg s n' (.ok t')) : n = n' ∧ t = t' := by
  have key : ∀ {s : EvState ℝ} {n : Nat} {o : Res (EvState ℝ)}, Run cfg s n o → ∀ t, o = .ok t →
      ∀ {n' t'}, Run cfg s n' (.ok t') → n = n' ∧ t = t' := by
    intro s n o h
    induction h with
    | done hd =>
      intro t e n' t' h'
      cases e
      cases h' with
      | done => exact ⟨rfl, rfl⟩
      | step hlt => rw [hd] at hlt; cases hlt
      | abort hlt => rw [hd] at hlt; cases hlt
    | step hlt hs _ ih =>
      intro t e n' t' h'
      cases h' with
      | done hd => rw [hd] at hlt; cases hlt
      | step _ hs' hr =>
        rw [hs] at hs'
        cases hs'
        obtain ⟨a, b⟩ := ih t e hr
        exact ⟨by rw [a], b⟩
      | abort _ _ hno => exact absurd rfl (hno _)
    | abort _ _ hno => intro t e; exact absurd e (hno t)
  exact key h t rfl h'

/-- C142 for histograms whose times are in order, at least one time step apart: each shows what it would show if it were the
only one.
Missing: other lists of histograms, see `C142_others_refuted`. -/
theorem C142_others_partial (cfg : SimCfg ℝ) (hdt : 0 < cfg.dt) (l l' l1 : PList ℝ) (r r' r1 : Rng ℝ)
    (hists hists' hs1 : List (Hist ℝ)) (n n1 : Nat) (h : Event cfg l r hists n l' r' hists')
    (hfirst : ∀ h0, hists[0]? = some h0 → 0 ≤ h0.time)
    (hapart : ∀ k a b, hists[k]? = some a → hists[k + 1]? = some b → a.time + cfg.dt ≤ b.time)
    (k : Nat) (h0 : Hist ℝ) (hk : hists[k]? = some h0) (ho : Event cfg l r [h0] n1 l1 r1 hs1) :
    n1 = n ∧ l1 = l' ∧ r1 = r' ∧ ∃ h1, hs1 = [h1] ∧ hists'[k]? = some h1 := by
  have e1 := C142_histograms h
  have e2 := C142_histograms ho
  have hnn : n = n1 ∧ l' = l1 ∧ r' = r1 := by
    cases e1 with
    | mk a _ =>
      generalize hl : l1 = l2 at e2
      generalize hr : r1 = r2 at e2
      cases e2 with
      | mk b _ =>
        obtain ⟨c, d⟩ := run_det a b
        exact ⟨c, by rw [d], by rw [d]⟩
  obtain ⟨hn, hl, hr⟩ := hnn
  refine ⟨hn.symm, hl.symm, hr.symm, ?_⟩
  have hnonneg : ∀ (k : Nat) (h0 : Hist ℝ), hists[k]? = some h0 → 0 ≤ h0.time := by
    intro k
    induction k with
    | zero => exact hfirst
    | succ k ih =>
      intro h0 hk
      have hlt : k < hists.length := by
        have := (List.getElem?_eq_some_iff.1 hk).1
        omega
      have := hapart k _ h0 (List.getElem?_eq_getElem hlt) hk
      have := ih _ (List.getElem?_eq_getElem hlt)
      linarith
  obtain ⟨m, t, h1, hm, ht, -, hf, hk1, ha, hb⟩ := C41_timing cfg hdt l l' r r' hists hists' n h hfirst hapart k h0 hk
  obtain ⟨m', t', h1', hm', ht', -, hf', hk1', ha', hb'⟩ := C41_timing cfg hdt l l1 r r1 [h0] hs1 n1 ho
    (fun x hx => by cases hx; exact hnonneg k h0 hk) (fun j a b _ hj => by simp at hj) 0 h0 rfl
  have hlen := (C41_filled_once cfg l l1 r r1 [h0] hs1 n1 ho).1
  have hmm : m = m' := by
    rcases lt_trichotomy m m' with hlt | he | hlt
    · exact absurd (ha' m hlt) (not_lt.2 (hb (by omega)))
    · exact he
    · exact absurd (ha m' hlt) (not_lt.2 (hb' (by omega)))
  subst hmm
  have e3 := steps_plain ht'
  have e4 := steps_det (steps_plain ht) e3
  have e : t.list = t'.list := show (Watch.plain t).list = (Watch.plain t').list by rw [e4]
  rw [← e, hf] at hf'
  cases hf'
  refine ⟨h1, ?_, hk1⟩
  match hs1, hlen, hk1' with
  | [x], _, hx => cases hx; rfl

open WatchWitness in
/-- The hypotheses are met by the histograms of `C142_others_refuted` in the other order: now both show what they would show
alone. -/
example (r : Rng ℝ) : ∃ l' hists' h1 h2, Event cfg list r [hist 0, hist 5] 1 l' r hists' ∧
    Event cfg list r [hist 0] 1 l' r [h1] ∧ Event cfg list r [hist 5] 1 l' r [h2] ∧ hists' = [h1, h2] := by
  have he : Event cfg list r [] 1 ⟨"0", 10, [later]⟩ r [] :=
    Event.mk (s := ⟨⟨"0", 10, [later]⟩, r, 1, 0, []⟩) (.step (by simp [EvState.init, cfg])
      ((timeStep_nil rfl).mpr ⟨_, _, advance_later r, by simp [EvState.init, cfg]⟩)
      (.done (by simp [cfg]))) rfl
  have hu : ∀ x, (hist x).Usable := by
    intro x
    exact ⟨by simp [hist, Hist.new], by simp [hist, Hist.new], by simp [hist, Hist.new, Hist.binCentres], by simp [hist, Hist.new]⟩
  obtain ⟨hists', h⟩ := C142_histograms_partial he [hist 0, hist 5] (by intro x hx; simp at hx; rcases hx with rfl | rfl <;> exact hu _)
  obtain ⟨a, ha⟩ := C142_histograms_partial he [hist 0] (by intro x hx; simp at hx; rw [hx]; exact hu _)
  obtain ⟨b, hb⟩ := C142_histograms_partial he [hist 5] (by intro x hx; simp at hx; rw [hx]; exact hu _)
  have hdt : (0 : ℝ) < cfg.dt := by simp [cfg]
  have hfirst : ∀ h0, ([hist 0, hist 5] : List (Hist ℝ))[0]? = some h0 → 0 ≤ h0.time := by
    intro h0 e; cases e; simp [hist, Hist.new]
  have hapart : ∀ k a b, ([hist 0, hist 5] : List (Hist ℝ))[k]? = some a → ([hist 0, hist 5] : List (Hist ℝ))[k + 1]? = some b →
      a.time + cfg.dt ≤ b.time := by
    intro k a b ha hb
    match k with
    | 0 => cases ha; cases hb; simp [hist, Hist.new, cfg]
    | k + 1 => simp at hb
  obtain ⟨-, -, -, h1, rfl, k1⟩ := C142_others_partial cfg hdt _ _ _ r r r _ _ _ 1 1 h hfirst hapart 0 _ rfl ha
  obtain ⟨-, -, -, h2, rfl, k2⟩ := C142_others_partial cfg hdt _ _ _ r r r _ _ _ 1 1 h hfirst hapart 1 _ rfl hb
  refine ⟨_, hists', h1, h2, h, ha, hb, ?_⟩
  have hlen := (C41_filled_once cfg _ _ r r _ hists' 1 h).1
  match hists', hlen, k1, k2 with
  | [x, y], _, k1, k2 => cases k1; cases k2; rfl

end QED
