import Verif.Lemmas.Survival
import Verif.Lemmas.Radiation
import Verif.Lemmas.Events
import Verif.Lemmas.Independence
import Verif.Spec.Radiation

set_option autoImplicit false

/-!
# A second generation in the same step

Used by C155.
-/

namespace QED.Rare

open Dbl MCTools MeasureTheory

/-- An emission adds nothing, or a photon whose optical depth comes from the third draw. -/
theorem emission_adds {e : EmissionCfg ℝ} {q q' : Particle ℝ} {l l' : PList ℝ} {r r' : Rng ℝ}
    (h : stochasticInteract e q l r = .ok (q', l', r')) : q'.kind = q.kind ∧ (l' = l ∨
      (∃ logh, emissionLogh e (calculateEta e.field q) = .ok logh ∧
        q.opticalDepth < emissionDelta e.dt (calculateEta e.field q) logh q.gamma) ∧
      ∃ x : Particle ℝ, l' = l.add x ∧ x.kind = .photon ∧ x.mass = 0 ∧ x.opticalDepth = initDepth (r.draw (r.pos + 2))) := by
  unfold stochasticInteract at h
  by_cases h0 : ((q.mass ==. Dbl.lit 0) || !q.isAlive) = true
  · rw [if_pos h0] at h
    cases h
    exact ⟨rfl, Or.inl rfl⟩
  · rw [if_neg h0] at h
    obtain ⟨logh, hl, h⟩ := Res.bind_eq_ok.1 h
    dsimp only at h
    by_cases h1 : ((q.updateOpticalDepth (emissionDelta e.dt (calculateEta e.field q) logh q.gamma)).opticalDepth <.
        Dbl.lit 0) = true
    · rw [if_pos h1] at h
      obtain ⟨chi, -, h⟩ := Res.bind_eq_ok.1 h
      have hk : ∀ (y : Particle ℝ) (a b : V3 ℝ), (y.updateTrack a b).kind = y.kind := by
        intro y a b
        unfold Particle.updateTrack
        split_ifs <;> rfl
      have hd : q.opticalDepth < emissionDelta e.dt (calculateEta e.field q) logh q.gamma := by
        simp only [Particle.updateOpticalDepth, real_sub, real_lit, real_lt] at h1
        push_cast at h1
        linarith [of_decide_eq_true h1]
      unfold storePhoton at h
      by_cases h2 : (e.eMin <. Dbl.lit 2 *. chi *. (q.updateOpticalDepth
          (emissionDelta e.dt (calculateEta e.field q) logh q.gamma)).gamma /. calculateEta e.field q) = true
      · rw [if_pos h2] at h
        by_cases h3 : (e.sampleFrac <. r.next.2.next.1) = true
        · rw [if_pos h3] at h
          cases h
          exact ⟨hk _ _ _, Or.inr ⟨⟨logh, hl, hd⟩, _, rfl, rfl, by simp [Particle.newPhotonE, Particle.new], rfl⟩⟩
        · rw [if_neg h3] at h
          cases h
          exact ⟨hk _ _ _, Or.inl rfl⟩
      · rw [if_neg h2] at h
        cases h
        exact ⟨hk _ _ _, Or.inl rfl⟩
    · rw [if_neg h1] at h
      cases h
      exact ⟨rfl, Or.inl rfl⟩

/-- A process leaves a massless particle, or one that is not a photon, as the list. -/
theorem pair_adds {w : BWCfg ℝ} {q q' : Particle ℝ} {l l' : PList ℝ} {r r' : Rng ℝ}
    (h : bwInteract w q l r = .ok (q', l', r')) : l' = l ∨ q.kind = .photon ∧
      ∃ logt, Numerics.interpolate1D w.tAxis w.tData (Dbl.log10 (bwChi w.field q)) = .ok logt ∧
        q.opticalDepth < bwDelta w.dt (bwChi w.field q) logt q.energy := by
  rcases bw_cases h with ⟨-, -, hl, -⟩ | ⟨⟨hk, -⟩, delta, logt, hl, hd, h⟩
  · exact Or.inl hl
  · rcases h with ⟨-, -, hl, -⟩ | ⟨h1, -⟩
    · exact Or.inl hl
    · refine Or.inr ⟨hk, logt, hl, ?_⟩
      rw [← hd]
      simp only [real_sub, real_lit, real_lt] at h1
      push_cast at h1
      linarith [of_decide_eq_true h1]

theorem at_inv {proc : Proc ℝ} {k : Nat} {l l' : PList ℝ} {r r' : Rng ℝ} (h : interactAt proc k l r = .ok (l', r')) :
    ∃ p p' l1, l.get k = .ok p ∧ proc.interact p l r = .ok (p', l1, r') ∧ l' = l1.set k p' := by
  unfold interactAt at h
  obtain ⟨p, hp, h⟩ := Res.bind_eq_ok.1 h
  obtain ⟨⟨p', l1, r1⟩, h1, h⟩ := Res.bind_eq_ok.1 h
  cases h
  exact ⟨p, p', l1, hp, h1, rfl⟩

theorem both_inv {cfg : SimCfg ℝ} {e : EmissionCfg ℝ} {w : BWCfg ℝ} (hc : cfg.procs = [.stochastic e, .breitWheeler w])
    {k : Nat} {l l' : PList ℝ} {r r' : Rng ℝ} (h : visit cfg k l r = .ok (l', r')) :
    ∃ p l1 r1, l.get k = .ok p ∧
      interactAt (.stochastic e) k (l.set k (pushParticle cfg.push cfg.field cfg.dt p)) r = .ok (l1, r1) ∧
      interactAt (.breitWheeler w) k l1 r1 = .ok (l', r') := by
  unfold visit at h
  obtain ⟨p, hp, h⟩ := Res.bind_eq_ok.1 h
  rw [hc] at h
  unfold interactAll at h
  obtain ⟨⟨l1, r1⟩, h1, h⟩ := Res.bind_eq_ok.1 h
  dsimp only at h
  unfold interactAll at h
  obtain ⟨⟨l2, r2⟩, h2, h⟩ := Res.bind_eq_ok.1 h
  cases h
  exact ⟨p, l1, r1, hp, h1, h2⟩

section step

variable {cfg : SimCfg ℝ} {e : EmissionCfg ℝ} {w : BWCfg ℝ} {nm : String} {mx : Nat}

/-- The visit of the lepton. -/
theorem visit_lepton (hc : cfg.procs = [.stochastic e, .breitWheeler w]) {p : Particle ℝ} (hp : p.kind ≠ .photon)
    {l' : PList ℝ} {r r' : Rng ℝ} (h : visit cfg 0 ⟨nm, mx, [p]⟩ r = .ok (l', r')) :
    ∃ a, l' = ⟨nm, mx, [a]⟩ ∨ ∃ x : Particle ℝ, l' = ⟨nm, mx, [a, x]⟩ ∧ x.kind = .photon ∧ x.mass = 0 ∧
      x.opticalDepth = initDepth (r.draw (r.pos + 2)) ∧ ∃ logh,
        emissionLogh e (calculateEta e.field (pushParticle cfg.push cfg.field cfg.dt p)) = .ok logh ∧
        p.opticalDepth < emissionDelta e.dt (calculateEta e.field (pushParticle cfg.push cfg.field cfg.dt p)) logh
          (pushParticle cfg.push cfg.field cfg.dt p).gamma := by
  obtain ⟨i1, -, -, -, -, -, i7⟩ := push_identity cfg.push cfg.field cfg.dt p
  obtain ⟨p0, l1, r1, hg, h1, h2⟩ := both_inv hc h
  cases hg
  set q := pushParticle cfg.push cfg.field cfg.dt p with hq
  obtain ⟨q0, q', l2, hg, h1, rfl⟩ := at_inv h1
  cases hg
  obtain ⟨hk, h3⟩ := emission_adds h1
  have bw : ∀ {l : PList ℝ} {b : Particle ℝ} {l' r'}, b.kind ≠ .photon → l.get 0 = .ok b →
      interactAt (.breitWheeler w) 0 l r1 = .ok (l', r') → ∃ a, l' = l.set 0 a := by
    intro l b l' r' hb hl h
    obtain ⟨b0, b', l3, hg, h, rfl⟩ := at_inv h
    rw [hl] at hg
    cases hg
    rcases pair_adds h with rfl | ⟨h, -⟩
    · exact ⟨_, rfl⟩
    · exact absurd h hb
  have hq' : q'.kind ≠ .photon := by rw [hk, i1]; exact hp
  have single : l2 = ⟨nm, mx, [q]⟩ → ∃ a, l' = ⟨nm, mx, [a]⟩ := by
    rintro rfl
    obtain ⟨a, ha⟩ := bw (b := q') hq' rfl h2
    exact ⟨a, ha⟩
  rcases h3 with h3 | ⟨⟨logh, hl, hd⟩, x, h3, hx⟩
  · obtain ⟨a, ha⟩ := single h3
    exact ⟨a, Or.inl ha⟩
  · by_cases hm : 1 < mx
    · have e2 : l2 = ⟨nm, mx, [q, x]⟩ := by
        rw [h3]
        show PList.add ⟨nm, mx, [q]⟩ x = _
        exact if_pos hm
      subst e2
      obtain ⟨a, ha⟩ := bw (b := q') hq' rfl h2
      exact ⟨a, Or.inr ⟨x, ha, hx.1, hx.2.1, hx.2.2, logh, hl, i7 ▸ hd⟩⟩
    · have e2 : l2 = ⟨nm, mx, [q]⟩ := by
        rw [h3]
        exact if_neg hm
      obtain ⟨a, ha⟩ := single e2
      exact ⟨a, Or.inl ha⟩

/-- The visit of the photon. -/
theorem visit_photon (hc : cfg.procs = [.stochastic e, .breitWheeler w]) {a x : Particle ℝ}
    (hm : x.mass = 0) {l' : PList ℝ} {r r' : Rng ℝ} (h : visit cfg 1 ⟨nm, mx, [a, x]⟩ r = .ok (l', r')) :
    (∃ y, l' = ⟨nm, mx, [a, y]⟩) ∨ ∃ y : Particle ℝ, y.kind = .photon ∧ ∃ logt,
      Numerics.interpolate1D w.tAxis w.tData (Dbl.log10 (bwChi w.field y)) = .ok logt ∧
        x.opticalDepth < bwDelta w.dt (bwChi w.field y) logt y.energy := by
  obtain ⟨i1, i2, -, -, -, -, i7⟩ := push_identity cfg.push cfg.field cfg.dt x
  obtain ⟨p0, l1, r1, hg, h1, h2⟩ := both_inv hc h
  cases hg
  set q := pushParticle cfg.push cfg.field cfg.dt x with hq
  obtain ⟨q0, q', l2, hg, h1, rfl⟩ := at_inv h1
  cases hg
  have h0 : stochasticInteract e q ⟨nm, mx, [a, q]⟩ r = .ok (q, ⟨nm, mx, [a, q]⟩, r) := by
    unfold stochasticInteract
    exact if_pos (by rw [i2, hm]; simp)
  have h1' : stochasticInteract e q ⟨nm, mx, [a, q]⟩ r = .ok (q', l2, r1) := h1
  rw [h0] at h1'
  cases h1'
  obtain ⟨q0, q', l3, hg, h2, rfl⟩ := at_inv h2
  cases hg
  rcases pair_adds h2 with rfl | ⟨hk', logt, hl, hd⟩
  · exact Or.inl ⟨q', rfl⟩
  · exact Or.inr ⟨q, hk', logt, hl, i7 ▸ hd⟩

/-- Two generations in a step: the lepton has emitted, and its photon has converted. -/
theorem second_generation (hc : cfg.procs = [.stochastic e, .breitWheeler w]) {p : Particle ℝ} (hp : p.kind ≠ .photon)
    {a b : ℝ} (ha : ∀ logh, emissionLogh e (calculateEta e.field (pushParticle cfg.push cfg.field cfg.dt p)) = .ok logh →
      emissionDelta e.dt (calculateEta e.field (pushParticle cfg.push cfg.field cfg.dt p)) logh
        (pushParticle cfg.push cfg.field cfg.dt p).gamma ≤ a)
    (hb : ∀ x : Particle ℝ, x.kind = .photon → ∀ logt,
      Numerics.interpolate1D w.tAxis w.tData (Dbl.log10 (bwChi w.field x)) = .ok logt →
      bwDelta w.dt (bwChi w.field x) logt x.energy ≤ b) {us : List ℝ} {t : EvState ℝ}
    (h : timeStep cfg (lonely p nm mx us) = .ok t) (ht : 2 < t.list.items.length) :
    initDepth (us.headD 0) < a ∧ initDepth (us.getD 3 0) < b := by
  obtain ⟨h, -⟩ := timeStep_advance h
  have h : particleLoop cfg mx 0 ⟨nm, mx, [p.initOpticalDepth (us.headD 0)]⟩ ⟨fun i => us.getD i 0, 1⟩ =
      .ok (t.list, t.rng) := h
  have hpush : ∀ d, pushParticle cfg.push cfg.field cfg.dt (p.initOpticalDepth d) =
      (pushParticle cfg.push cfg.field cfg.dt p).withDepth (initDepth d) := fun d =>
    push_withDepth cfg.push cfg.field cfg.dt p (initDepth d)
  generalize t.list = L at *
  generalize t.rng = R at *
  obtain _ | n := mx
  · cases h
    simp at ht
  · unfold particleLoop at h
    rw [if_pos (by simp [PList.nPart])] at h
    obtain ⟨⟨l1, r1⟩, h1, h⟩ := Res.bind_eq_ok.1 h
    dsimp only at h
    obtain ⟨a', h2 | ⟨x, h2, hk, hm, hx, logh, hlogh, hd⟩⟩ := visit_lepton (p := p.initOpticalDepth (us.headD 0)) hc hp h1
    · subst h2
      obtain _ | n := n
      · cases h
        simp at ht
      · unfold particleLoop at h
        rw [if_neg (by simp [PList.nPart])] at h
        cases h
        simp at ht
    · subst h2
      rw [hpush] at hlogh hd
      refine ⟨lt_of_lt_of_le hd (ha logh hlogh), ?_⟩
      obtain _ | n := n
      · cases h
        simp at ht
      · unfold particleLoop at h
        rw [if_pos (by simp [PList.nPart])] at h
        obtain ⟨⟨l2, r2⟩, h2, h⟩ := Res.bind_eq_ok.1 h
        dsimp only at h
        rcases visit_photon hc hm h2 with ⟨y, h3⟩ | ⟨y, hy, logt, hlogt, hd⟩
        · subst h3
          obtain _ | n := n
          · cases h
            simp at ht
          · unfold particleLoop at h
            rw [if_neg (by simp [PList.nPart])] at h
            cases h
            simp at ht
        · rw [hx] at hd
          exact lt_of_lt_of_le hd (hb y hy logt hlogt)

end step

/-- The probability that two independent optical depths are small. -/
theorem two_depths {a b : ℝ} (ha : 0 ≤ a) (hb : 0 ≤ b) (N : Nat) (hN : 4 ≤ N) :
    (likelihood N fun us => initDepth (us.headD 0) < a ∧ initDepth (us.getD 3 0) < b) =
      ENNReal.ofReal (1 - Real.exp (-a)) * ENNReal.ofReal (1 - Real.exp (-b)) := by
  obtain ⟨N, rfl⟩ : ∃ M, N = M + 1 + 1 + 1 + 1 := ⟨N - 4, by omega⟩
  have one : ∀ {c : ℝ}, 0 ≤ c → (∫⁻ u in Set.Ico (0 : ℝ) 1, indic (initDepth u < c)) =
      ENNReal.ofReal (1 - Real.exp (-c)) := by
    intro c hc
    have h := lintegral_depth hc (fun _ => 0) 1
    rw [lintegral_unit, mul_zero, zero_add, mul_one] at h
    rw [← h]
    refine lintegral_congr fun u => ?_
    unfold indic
    by_cases h : c ≤ initDepth u
    · rw [if_neg (not_lt.mpr h), if_pos h]
    · rw [if_pos (not_le.mp h), if_neg h]
  have prod : ∀ p q : Prop, indic (p ∧ q) = indic p * indic q := by
    intro p q
    unfold indic
    split_ifs <;> simp_all
  have top : ∀ p : Prop, indic p ≠ ⊤ := by
    intro p
    unfold indic
    split_ifs <;> simp
  unfold likelihood
  rw [average_succ, ← one ha, ← lintegral_mul_const' _ _ ENNReal.ofReal_ne_top]
  refine lintegral_congr fun u => ?_
  have h : ∀ us : List ℝ, indic (initDepth ((u :: us).headD 0) < a ∧ initDepth ((u :: us).getD 3 0) < b) =
      indic (initDepth u < a) * indic (initDepth (us.getD 2 0) < b) := fun us => prod _ _
  simp only [h]
  rw [Independence.average_mul _ (top _)]
  congr 1
  rw [average_succ]
  refine Eq.trans (lintegral_congr fun v => ?_) (lintegral_unit _)
  rw [average_succ]
  refine Eq.trans (lintegral_congr fun v' => ?_) (lintegral_unit _)
  rw [average_succ, ← one hb]
  refine lintegral_congr fun x => ?_
  exact average_const N (indic (initDepth x < b))

end QED.Rare
