import Verif.Spec.Balance
import Verif.Lemmas.ShippedMean
import Verif.Lemmas.Gain
import Verif.Lemmas.Budget
import Verif.Props.Spectrum
import Verif.Props.RatesShipped

set_option autoImplicit false

/-!
# C145: photons and radiation reaction in a classical or semiclassical run
-/

namespace QED

open MCTools MeasureTheory

section law

variable {cfg : SimCfg ℝ} {e : EmissionCfg ℝ} {c : Bool} {logh : ℝ → ℝ} {chi : ℝ → ℝ → ℝ} {p : Particle ℝ}
  {n N mx : Nat} {nm : String}

theorem calculateChi_pos {eta v x : ℝ} (h : calculateChi e eta v = .ok x) : 0 < x := by
  unfold calculateChi at h
  obtain ⟨⟨low, frac⟩, -, h⟩ := Res.bind_eq_ok.mp h
  obtain ⟨_, -, h⟩ := Res.bind_eq_ok.mp h
  obtain ⟨_, -, h⟩ := Res.bind_eq_ok.mp h
  obtain ⟨_, -, h⟩ := Res.bind_eq_ok.mp h
  obtain ⟨_, -, h⟩ := Res.bind_eq_ok.mp h
  obtain ⟨_, -, h⟩ := Res.bind_eq_ok.mp h
  obtain ⟨_, -, h⟩ := Res.bind_eq_ok.mp h
  rw [← Res.ok.inj h]
  simp only [real_pow, real_lit]
  exact Real.rpow_pos_of_pos (by norm_num) _

/-- The photons that the tables select have a positive energy, and none at `eta = 0`. -/
theorem loghChi_sign {eta v : ℝ} {x : ℝ × ℝ} (h0 : 0 ≤ eta) (h : continuousLoghChi e c eta v = .ok x) :
    0 ≤ x.2 ∧ (0 < x.2 ↔ 0 < eta) := by
  unfold continuousLoghChi at h
  split at h
  · obtain ⟨a, -, h⟩ := Res.bind_eq_ok.mp h
    obtain ⟨y, hy, h⟩ := Res.bind_eq_ok.mp h
    have hpos := calculateChi_pos hy
    rw [← Res.ok.inj h]
    simp only [real_mul, real_div, real_exp]
    have := Real.exp_pos a
    refine ⟨by positivity, fun hh => ?_, fun hh => by positivity⟩
    refine lt_of_le_of_ne h0 fun h00 => ?_
    rw [← h00] at hh
    simp at hh
  · rename_i hc
    obtain ⟨_, -, h⟩ := Res.bind_eq_ok.mp h
    obtain ⟨y, hy, h⟩ := Res.bind_eq_ok.mp h
    have hpos := calculateChi_pos hy
    rw [← Res.ok.inj h]
    refine ⟨hpos.le, fun _ => ?_, fun _ => hpos⟩
    simp only [real_lt, real_lit, Bool.or_eq_true, decide_eq_true_eq, not_or, not_lt] at hc
    have h1 := hc.1
    norm_num at h1
    linarith

theorem kind_pushes (p : Particle ℝ) (k : Nat) :
    (pushes cfg p k).kind = p.kind ∧ (pushes cfg p k).mass = p.mass := by
  induction k with
  | zero => exact ⟨rfl, rfl⟩
  | succ k ih =>
    rw [pushes_succ]
    have hid := push_identity cfg.push cfg.field cfg.dt (pushes cfg p k)
    exact ⟨hid.1.trans ih.1, hid.2.1.trans ih.2⟩

theorem lepton_gamma {q : Particle ℝ} (hk : q.kind ≠ .photon) : q.gamma = pushGamma q.mass q.momentum := by
  unfold Particle.gamma pushGamma
  split
  · exact absurd ‹_› hk
  · rfl

/-- Emission and the pushers use the same quantum parameter. -/
theorem eta_push {field : Field ℝ} {q : Particle ℝ} (hk : q.kind ≠ .photon) :
    calculateEta field q = pushEta q.mass q.momentum (field q.time q.position).1 (field q.time q.position).2 := by
  have hβ : q.beta = Real.sqrt (1 - 1 / (q.gamma * q.gamma)) := by
    unfold Particle.beta
    split
    · exact absurd ‹_› hk
    · simp
  unfold calculateEta pushEta
  rw [hβ, ← lepton_gamma hk]
  simp [Particle.direction]

/-- C145, what the photons carry: the mean, over the draws, of the weighted sum of the momenta of the photons is
the sum over the steps of what the tables say the lepton radiates. The threshold is 0, and the list has room for
one photon per step. -/
theorem C145_carried_partial (hprocs : cfg.procs = [.continuous e c]) (hL : InTables cfg e c logh chi p n)
    (hm : p.mass ≠ 0) (hk : p.kind ≠ .photon) (ha : p.isAlive = true) (hw : 0 ≤ p.weight) (hdt : 0 ≤ e.dt)
    (hmom : ∀ k < n, (pushes cfg p (k + 1)).momentum ≠ ⟨0, 0, 0⟩) (hE : e.eMin = 0)
    (h0 : 0 < e.sampleFrac) (h1 : e.sampleFrac ≤ 1) (hmx : n < mx)
    (hend : ∀ k < n, (k : ℝ) * cfg.dt < cfg.timeEnd) (hN : 3 * n < N) (F : List ℝ → ENNReal)
    (hF : ∀ us t, Steps cfg (lonely p nm mx us) n t →
      F us = ((photonsIn t).map fun x => ENNReal.ofReal x.weight * ENNReal.ofReal (len x.momentum.toVec)).sum) :
    average N F = ∑ k ∈ Finset.range n,
      ENNReal.ofReal (p.weight * e.dt) * meanRadiated logh chi (calculateEta e.field (pushes cfg p (k + 1))) := by
  rw [C125_unbiased_partial hprocs hL hm ha h0 h1 hmx hend hN F (fun x => ENNReal.ofReal (len x.toVec)) hF]
  refine Finset.sum_congr rfl fun k hkn => ?_
  have hkn := Finset.mem_range.1 hkn
  obtain ⟨q, hq⟩ : ∃ q, q = pushes cfg p (k + 1) := ⟨_, rfl⟩
  have hqk : q.kind ≠ .photon := by rw [hq, (kind_pushes p _).1]; exact hk
  have hqm : q.momentum ≠ ⟨0, 0, 0⟩ := by rw [hq]; exact hmom k hkn
  have hT : ∀ v, 0 ≤ v → v < 1 → continuousLoghChi e c (calculateEta e.field q) v =
      .ok (logh (calculateEta e.field q), chi (calculateEta e.field q) v) := by
    rw [hq]; exact hL k hkn
  rw [← hq]
  have hη : 0 ≤ calculateEta e.field q := by rw [eta_push hqk]; exact (pushEta_le _ _ _ _).1
  have hγ : 0 < q.gamma := by rw [lepton_gamma hqk]; exact pushGamma_pos _ _
  have hα := alpha_pos
  have hπ : (0 : ℝ) < Units.pi := by norm_num [Units.pi]
  unfold meanRadiated
  rw [← mul_assoc, ← ENNReal.ofReal_mul (by positivity)]
  have hdir : ∀ x : ℝ, len (q.direction.norm.smul x).toVec = |x| := by
    intro x
    unfold Particle.direction
    rw [V3.norm_norm hqm]
    exact len_smul_unit hqm x
  simp only [hdir, hE]
  rcases hη.eq_or_lt with hz | hz
  · have e1 : emissionRate e logh q = 0 := by unfold emissionRate; rw [← hz]; simp
    rw [e1, mul_zero, ENNReal.ofReal_zero, zero_mul]
    symm
    rw [setLIntegral_congr_fun measurableSet_Ico (g := fun _ => 0), lintegral_zero, mul_zero]
    intro v hv
    have := (loghChi_sign hη (hT v hv.1 hv.2)).2
    rw [← hz] at this ⊢
    simp only [lt_irrefl, iff_false, not_lt] at this
    exact ENNReal.ofReal_of_nonpos this
  · have e1 : ∀ v ∈ Set.Ico (0 : ℝ) 1, indic (0 < photonEnergy e chi q v) *
        ENNReal.ofReal |photonEnergy e chi q v| =
        ENNReal.ofReal (2 * q.gamma / calculateEta e.field q) *
          ENNReal.ofReal (chi (calculateEta e.field q) v) := by
      intro v hv
      have hc := (loghChi_sign hη (hT v hv.1 hv.2)).2.2 hz
      dsimp only at hc
      have hp : 0 < photonEnergy e chi q v := by unfold photonEnergy; positivity
      unfold indic
      rw [if_pos hp, one_mul, abs_of_pos hp, ← ENNReal.ofReal_mul (by positivity)]
      congr 1
      unfold photonEnergy
      ring
    rw [setLIntegral_congr_fun measurableSet_Ico e1, lintegral_const_mul' _ _ ENNReal.ofReal_ne_top, ← mul_assoc,
      ← ENNReal.ofReal_mul (by unfold emissionRate; positivity)]
    congr 2
    unfold emissionRate
    field_simp

/-- C145, what radiation reaction takes: `2/3 α eta ^ 2`, in the modified model times the Gaunt factor. -/
theorem C145_reaction (field : Field ℝ) (q : Particle ℝ) (hk : q.kind ≠ .photon) (hm : q.momentum ≠ ⟨0, 0, 0⟩) :
    reactionLoss lorentzForce field q = 0 ∧
    reactionLoss landauForce field q = 2 / 3 * Units.alpha * calculateEta field q ^ 2 ∧
    reactionLoss modLandauForce field q =
      2 / 3 * Units.alpha * calculateEta field q ^ 2 * gaunt (calculateEta field q) := by
  have hα := alpha_pos
  have key : ∀ (a : V3 ℝ) (x : ℝ), 0 ≤ x → len (a.sub (a.add (q.momentum.norm.smul (-x)))).toVec = x := by
    intro a x hx
    have : a.sub (a.add (q.momentum.norm.smul (-x))) = q.momentum.norm.smul x := by
      simp only [V3.sub, V3.add, V3.smul, real_sub, real_add, real_mul]
      congr 1 <;> ring
    rw [this, len_smul_unit hm, abs_of_nonneg hx]
  have hη := (pushEta_le q.mass q.momentum (field q.time q.position).1 (field q.time q.position).2).1
  rw [eta_push hk]
  refine ⟨?_, ?_, ?_⟩
  · unfold reactionLoss
    simp [V3.sub, V3.toVec, len]
  · unfold reactionLoss landauForce landauReaction
    rw [← key (lorentzForce q.mass q.charge q.momentum (field q.time q.position).1 (field q.time q.position).2)
      (2 / 3 * Units.alpha * pushEta q.mass q.momentum (field q.time q.position).1
        (field q.time q.position).2 ^ 2) (by positivity)]
    congr 4
    simp only [real_mul, real_div, real_lit]
    push_cast
    ring_nf
  · unfold reactionLoss modLandauForce modLandauReaction
    rw [← key (lorentzForce q.mass q.charge q.momentum (field q.time q.position).1 (field q.time q.position).2)
      (2 / 3 * Units.alpha * pushEta q.mass q.momentum (field q.time q.position).1
        (field q.time q.position).2 ^ 2 * gaunt (pushEta q.mass q.momentum (field q.time q.position).1
        (field q.time q.position).2)) (by have := (gaunt_range hη).1; positivity)]
    congr 4
    simp only [real_mul, real_div, real_lit]
    push_cast
    ring_nf

theorem sums_iff {a b : Nat → ENNReal} (hb : ∀ k, b k ≠ ⊤) (M : Nat) :
    (∀ n ≤ M, ∑ k ∈ Finset.range n, a k = ∑ k ∈ Finset.range n, b k) ↔ ∀ k < M, a k = b k := by
  constructor
  · intro h k hk
    have h1 := h (k + 1) hk
    rw [Finset.sum_range_succ, Finset.sum_range_succ, h k hk.le] at h1
    exact (ENNReal.add_right_inj (ENNReal.sum_ne_top.2 fun j _ => hb j)).1 h1
  · intro h n hn
    exact Finset.sum_congr rfl fun k hk => h k (lt_of_lt_of_le (Finset.mem_range.1 hk) hn)

/-- C145, the balance: during the first `M` steps the photons always carry, on average, what the pusher takes
from the lepton if and only if in each step the tables agree with the pusher. -/
theorem C145_balance_iff {M : Nat} (hprocs : cfg.procs = [.continuous e c]) (hL : InTables cfg e c logh chi p M)
    (hm : p.mass ≠ 0) (hk : p.kind ≠ .photon) (ha : p.isAlive = true) (hw : 0 < p.weight) (hdt : 0 < e.dt)
    (hmom : ∀ k < M, (pushes cfg p (k + 1)).momentum ≠ ⟨0, 0, 0⟩) (hE : e.eMin = 0)
    (h0 : 0 < e.sampleFrac) (h1 : e.sampleFrac ≤ 1) (hmx : M < mx)
    (hend : ∀ k < M, (k : ℝ) * cfg.dt < cfg.timeEnd) (hN : 3 * M < N) (F : Nat → List ℝ → ENNReal)
    (hF : ∀ n us t, Steps cfg (lonely p nm mx us) n t →
      F n us = ((photonsIn t).map fun x => ENNReal.ofReal x.weight * ENNReal.ofReal (len x.momentum.toVec)).sum) :
    (∀ n ≤ M, average N (F n) = ENNReal.ofReal (p.weight *
      ∑ k ∈ Finset.range n, e.dt * reactionLoss cfg.push e.field (pushes cfg p (k + 1)))) ↔
    ∀ k < M, meanRadiated logh chi (calculateEta e.field (pushes cfg p (k + 1))) =
      ENNReal.ofReal (reactionLoss cfg.push e.field (pushes cfg p (k + 1))) := by
  have hpos : ∀ q, 0 ≤ reactionLoss cfg.push e.field q := fun q => Real.sqrt_nonneg _
  have e1 : ∀ n ≤ M, average N (F n) = ∑ k ∈ Finset.range n, ENNReal.ofReal (p.weight * e.dt) *
      meanRadiated logh chi (calculateEta e.field (pushes cfg p (k + 1))) := fun n hn =>
    C145_carried_partial hprocs (fun k hkn => hL k (lt_of_lt_of_le hkn hn)) hm hk ha hw.le hdt.le
      (fun k hkn => hmom k (lt_of_lt_of_le hkn hn)) hE h0 h1 (lt_of_le_of_lt hn hmx)
      (fun k hkn => hend k (lt_of_lt_of_le hkn hn)) (by omega) (F n) (hF n)
  have e2 : ∀ n, ENNReal.ofReal (p.weight *
      ∑ k ∈ Finset.range n, e.dt * reactionLoss cfg.push e.field (pushes cfg p (k + 1))) =
      ∑ k ∈ Finset.range n, ENNReal.ofReal (p.weight * e.dt) *
        ENNReal.ofReal (reactionLoss cfg.push e.field (pushes cfg p (k + 1))) := by
    intro n
    rw [Finset.mul_sum, ENNReal.ofReal_sum_of_nonneg fun k _ =>
      mul_nonneg hw.le (mul_nonneg hdt.le (hpos _))]
    refine Finset.sum_congr rfl fun k _ => ?_
    rw [← ENNReal.ofReal_mul (by positivity), mul_assoc]
  have hc0 : ENNReal.ofReal (p.weight * e.dt) ≠ 0 := by
    rw [Ne, ENNReal.ofReal_eq_zero, not_le]; positivity
  rw [show (∀ n ≤ M, average N (F n) = ENNReal.ofReal (p.weight *
      ∑ k ∈ Finset.range n, e.dt * reactionLoss cfg.push e.field (pushes cfg p (k + 1)))) ↔
      ∀ n ≤ M, ∑ k ∈ Finset.range n, ENNReal.ofReal (p.weight * e.dt) *
        meanRadiated logh chi (calculateEta e.field (pushes cfg p (k + 1))) =
      ∑ k ∈ Finset.range n, ENNReal.ofReal (p.weight * e.dt) *
        ENNReal.ofReal (reactionLoss cfg.push e.field (pushes cfg p (k + 1))) from
    forall_congr' fun n => forall_congr' fun hn => by rw [e1 n hn, e2],
    sums_iff (fun k => ENNReal.mul_ne_top ENNReal.ofReal_ne_top ENNReal.ofReal_ne_top)]
  refine forall_congr' fun k => forall_congr' fun _ => ?_
  exact ENNReal.mul_right_inj hc0 ENNReal.ofReal_ne_top

end law

/-! ## The hypotheses are satisfiable -/

open Witness in
open Classical in
/-- An electron that the Lorentz pusher accelerates while it radiates: with the first photon the balance is lost,
because the pusher takes nothing for it. -/
example (M : Nat) (hM : 0 < M) : ∃ F : Nat → List ℝ → ENNReal,
    (∀ n us t, Steps (sampledCfg 1 M) (lonely electron "0" (M + 1) us) n t →
      F n us = ((photonsIn t).map fun x => ENNReal.ofReal x.weight * ENNReal.ofReal (len x.momentum.toVec)).sum) ∧
    average (3 * M + 1) (F M) = ∑ _k ∈ Finset.range M, ENNReal.ofReal (√3 * Units.alpha / Units.pi * (1 / 4)) ∧
    ¬ ∀ n ≤ M, average (3 * M + 1) (F n) = ENNReal.ofReal (electron.weight * ∑ k ∈ Finset.range n,
      1 * reactionLoss lorentzForce (sampleCfg 1).field (pushes (sampledCfg 1 M) electron (k + 1))) := by
  have hF : ∀ n us t, Steps (sampledCfg 1 M) (lonely electron "0" (M + 1) us) n t →
      (if h : ∃ t, Steps (sampledCfg 1 M) (lonely electron "0" (M + 1) us) n t then
        ((photonsIn h.choose).map fun x => ENNReal.ofReal x.weight * ENNReal.ofReal (len x.momentum.toVec)).sum
        else 0) =
      ((photonsIn t).map fun x => ENNReal.ofReal x.weight * ENNReal.ofReal (len x.momentum.toVec)).sum := by
    intro n us t ht
    rw [dif_pos ⟨t, ht⟩, steps_det (Exists.choose_spec (⟨t, ht⟩ : ∃ t, Steps _ _ _ t)) ht]
  have hw : electron.weight = 1 := rfl
  have hd : (sampleCfg 1).dt = 1 := rfl
  have hm : electron.mass ≠ 0 := by rw [electron_forward.mass]; norm_num
  have hk : electron.kind ≠ .photon := by rw [electron_forward.kind]; simp
  have hmom : ∀ k < M, (pushes (sampledCfg 1 M) electron (k + 1)).momentum ≠ ⟨0, 0, 0⟩ := by
    intro k _ h
    obtain ⟨z, hz, hmom⟩ := (sampled_forward 1 M (k + 1)).momentum
    rw [hmom] at h
    have := congrArg V3.z h
    dsimp only at this
    linarith
  have hmean : ∀ eta, meanRadiated (fun _ => 0) (fun _ _ => 1 / 4) eta =
      ENNReal.ofReal (√3 * Units.alpha / Units.pi * (1 / 4)) := by
    intro eta
    unfold meanRadiated
    rw [setLIntegral_const, Real.volume_Ico, Real.rpow_zero, mul_one, sub_zero, ENNReal.ofReal_one, mul_one,
      ← ENNReal.ofReal_mul]
    have := alpha_pos
    have : (0 : ℝ) < Units.pi := by simp only [Units.pi, real_lit]; positivity
    positivity
  refine ⟨_, hF, ?_, ?_⟩
  · rw [C145_carried_partial rfl (sampled_inTables 1 M) hm hk rfl (by rw [hw]; norm_num) (by rw [hd]; norm_num) hmom
      rfl (by norm_num [sampleCfg, emCfg]) (by norm_num [sampleCfg, emCfg]) (by omega) (sampled_end 1 M) (by omega) _
      (hF M)]
    refine Finset.sum_congr rfl fun k _ => ?_
    rw [hmean, hw, hd]
    simp
  · intro h
    have h0 := (C145_balance_iff rfl (sampled_inTables 1 M) hm hk rfl (by rw [hw]; norm_num) (by rw [hd]; norm_num)
      hmom rfl (by norm_num [sampleCfg, emCfg]) (by norm_num [sampleCfg, emCfg]) (by omega) (sampled_end 1 M) (by omega) _
      hF).1 h 0 hM
    rw [hmean, show (sampledCfg 1 M).push = lorentzForce from rfl,
      (C145_reaction _ _ (by rw [(sampled_forward 1 M 1).kind]; simp) (hmom 0 hM)).1, ENNReal.ofReal_zero,
      ENNReal.ofReal_eq_zero] at h0
    have : 0 < √3 * Units.alpha / Units.pi * (1 / 4) := by
      have := alpha_pos
      have : (0 : ℝ) < Units.pi := by simp only [Units.pi, real_lit]; positivity
      positivity
    linarith

end QED
