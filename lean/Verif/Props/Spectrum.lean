import Verif.Spec.Spectrum
import Verif.Lemmas.Spectrum
import Verif.Lemmas.Covered
import Verif.Props.Radiation
import Verif.Props.Example

set_option autoImplicit false

/-!
# C125: what the photons of a classical or semiclassical run stand for
-/

namespace QED

open MCTools MeasureTheory

section law

variable {cfg : SimCfg ℝ} {e : EmissionCfg ℝ} {c : Bool} {logh : ℝ → ℝ} {chi : ℝ → ℝ → ℝ} {p : Particle ℝ}
  {n N mx : Nat} {nm : String}

/-- In the first `n` steps of the lepton `p` the tables give the logarithm `logh η` of the rate and the
photon `chi η v` that the number `v` selects. -/
def InTables (cfg : SimCfg ℝ) (e : EmissionCfg ℝ) (c : Bool) (logh : ℝ → ℝ) (chi : ℝ → ℝ → ℝ)
    (p : Particle ℝ) (n : Nat) : Prop :=
  ∀ k < n, ∀ v, 0 ≤ v → v < 1 →
    continuousLoghChi e c (calculateEta e.field (pushes cfg p (k + 1))) v =
      .ok (logh (calculateEta e.field (pushes cfg p (k + 1))),
        chi (calculateEta e.field (pushes cfg p (k + 1))) v)

theorem photonsAfter_withDepth (cfg : SimCfg ℝ) (e : EmissionCfg ℝ) (logh : ℝ → ℝ) (chi : ℝ → ℝ → ℝ)
    (h : List (Option ℝ)) (q : Particle ℝ) (d : ℝ) :
    photonsAfter cfg e logh chi h (q.withDepth d) = photonsAfter cfg e logh chi h q := by
  induction h generalizing q with
  | nil => rfl
  | cons x h ih =>
    cases x with
    | none => rw [photonsAfter, photonsAfter, push_withDepth, ih]
    | some v =>
      rw [photonsAfter, photonsAfter, push_withDepth, ih]
      rfl

theorem choices_withDepth (cfg : SimCfg ℝ) (e : EmissionCfg ℝ) (chi : ℝ → ℝ → ℝ) (n : Nat) (q : Particle ℝ)
    (d : ℝ) (us : List ℝ) :
    eventChoices cfg e chi n (q.withDepth d) us = eventChoices cfg e chi n q us := by
  induction n generalizing q us with
  | zero => rfl
  | succ n ih =>
    have e1 : ∀ q' : Particle ℝ, eventChoices cfg e chi (n + 1) q' us = if e.sampleFrac < us.headD 0 then
        none :: eventChoices cfg e chi n (pushParticle cfg.push cfg.field cfg.dt q') us.tail else
        some (us.tail.headD 0) :: eventChoices cfg e chi n (pushParticle cfg.push cfg.field cfg.dt q')
          (us.tail.tail.drop (if isStored e chi (pushParticle cfg.push cfg.field cfg.dt q')
            (us.tail.headD 0) then 1 else 0)) := fun _ => rfl
    rw [e1, e1, push_withDepth, ih, ih]
    rfl

/-- The photons of an event are those of its choices. -/
theorem lonely_choices (hprocs : cfg.procs = [.continuous e c]) (hL : InTables cfg e c logh chi p n)
    (hm : p.mass ≠ 0) (ha : p.isAlive = true) (hmx : 0 < mx)
    (hend : ∀ k < n, (k : ℝ) * cfg.dt < cfg.timeEnd) (u : ℝ) (us : List ℝ)
    (hus : ∀ v ∈ us, 0 ≤ v ∧ v < 1) (hN : 3 * n ≤ us.length) :
    ∃ t, Steps cfg (lonely p nm mx (u :: us)) n t ∧
      photonsIn t = (photonsAfter cfg e logh chi (eventChoices cfg e chi n p us) p).take (mx - 1) := by
  have hb : (lonely p nm mx (u :: us)).rng.Begins us := by
    intro i d hi
    show (u :: us).getD (1 + i) 0 = d
    rw [Nat.add_comm, List.getD_cons_succ, List.getD_eq_getElem?_getD, hi]
    rfl
  obtain ⟨t, h1, h2⟩ := alone_choices (logh := logh) (chi := chi) hprocs n (lonely p nm mx (u :: us))
    (p.withDepth (initDepth u)) [] us ⟨rfl, by simp, by show 1 ≤ mx; omega, rfl⟩ hm ha hb hN hus
    (fun k hk => by
      have := hend k hk
      simpa [lonely, EvState.init] using this)
    (fun k hk v a b => by
      rw [pushes_withDepth]
      exact hL k hk v a b)
  refine ⟨t, h1, ?_⟩
  rw [h2, photonsAfter_withDepth, choices_withDepth]
  rfl

/-- C125, the run: all `n` steps take place, and the path of the lepton does not depend on the draws. -/
theorem C125_path (hprocs : cfg.procs = [.continuous e c]) (hL : InTables cfg e c logh chi p n)
    (hm : p.mass ≠ 0) (ha : p.isAlive = true) (hmx : 0 < mx)
    (hend : ∀ k < n, (k : ℝ) * cfg.dt < cfg.timeEnd) (us : List ℝ)
    (hus : ∀ v ∈ us, 0 ≤ v ∧ v < 1) (hN : 3 * n < us.length) :
    ∃ t, Steps cfg (lonely p nm mx us) n t ∧
      t.list.items.head? = some { pushes cfg p n with opticalDepth := initDepth (us.headD 0) } := by
  obtain ⟨u, us, rfl⟩ : ∃ u vs, us = u :: vs := List.exists_cons_of_ne_nil (by
    rintro rfl
    simp at hN)
  obtain ⟨t, h1, -⟩ := lonely_choices (nm := nm) hprocs hL hm ha hmx hend u us
    (fun v hv => hus v (by simp [hv])) (by simp only [List.length_cons] at hN; omega)
  refine ⟨t, h1, ?_⟩
  have := steps_continuous (s := lonely p nm mx (u :: us)) (by
      rw [hprocs]
      intro proc hm
      exact ⟨e, c, List.mem_singleton.mp hm⟩) (show 1 ≤ mx by omega) h1 (i := 0)
    (p := p.withDepth (initDepth u)) rfl
  rw [List.head?_eq_getElem?, this, pushes_withDepth]
  rfl

/-- C125, the law: in every step, independently of everything else, one photon of the spectrum of that step
is selected with a probability that is the sample fraction. Those above the threshold are stored as long as
the list has room. `F` is any quantity that is determined by the photons that are there after `n` steps. -/
theorem C125_law (hprocs : cfg.procs = [.continuous e c]) (hL : InTables cfg e c logh chi p n)
    (hm : p.mass ≠ 0) (ha : p.isAlive = true) (h0 : 0 ≤ e.sampleFrac) (h1 : e.sampleFrac ≤ 1) (hmx : 0 < mx)
    (hend : ∀ k < n, (k : ℝ) * cfg.dt < cfg.timeEnd) (hN : 3 * n < N)
    (F : List ℝ → ENNReal) (G : List (Particle ℝ) → ENNReal)
    (hF : ∀ us t, Steps cfg (lonely p nm mx us) n t → F us = G (photonsIn t)) :
    average N F = sampled e.sampleFrac n fun h =>
      G ((photonsAfter cfg e logh chi h p).take (mx - 1)) := by
  obtain ⟨N, rfl⟩ : ∃ M, N = M + 1 := ⟨N - 1, by omega⟩
  rw [← choices_law (pushParticle cfg.push cfg.field cfg.dt) (isStored e chi) h0 h1 n N (by omega) p,
    average_succ, ← lintegral_unit (average N _)]
  refine setLIntegral_congr_fun measurableSet_Ico fun u hu => average_congr fun us hus hv => ?_
  obtain ⟨t, g1, g2⟩ := lonely_choices (nm := nm) hprocs hL hm ha hmx hend u us hv (by omega)
  rw [hF _ t g1, g2]
  rfl

/-! ## Sums over the photons -/

theorem photonsAfter_length (h : List (Option ℝ)) (q : Particle ℝ) :
    (photonsAfter cfg e logh chi h q).length ≤ h.length := by
  induction h generalizing q with
  | nil => exact le_rfl
  | cons x h ih =>
    have := ih (pushParticle cfg.push cfg.field cfg.dt q)
    cases x with
    | none => rw [photonsAfter, List.length_cons]; omega
    | some v =>
      rw [photonsAfter, List.length_append, List.length_cons]
      split_ifs
      · simp only [List.length_singleton]; omega
      · simp only [List.length_nil]; omega

theorem photonsAfter_sum (g : Particle ℝ → ENNReal) (h : List (Option ℝ)) (q : Particle ℝ) :
    ((photonsAfter cfg e logh chi h q).map g).sum =
      ∑ k ∈ Finset.range h.length, (h.getD k none).elim 0 fun v =>
        indic (e.eMin < photonEnergy e chi (pushes cfg q (k + 1)) v) *
          g (pushes cfg (spectrumPhoton e logh chi (pushes cfg q (k + 1)) v) (h.length - k)) := by
  induction h generalizing q with
  | nil => rfl
  | cons x h ih =>
    have hsucc : ∀ k, (x :: h).length - (k + 1) = h.length - k := by
      intro k; simp
    have hsum : ∑ k ∈ Finset.range h.length, ((x :: h).getD (k + 1) none).elim 0 (fun v =>
        indic (e.eMin < photonEnergy e chi (pushes cfg q (k + 1 + 1)) v) *
          g (pushes cfg (spectrumPhoton e logh chi (pushes cfg q (k + 1 + 1)) v)
            ((x :: h).length - (k + 1)))) =
        ((photonsAfter cfg e logh chi h (pushParticle cfg.push cfg.field cfg.dt q)).map g).sum := by
      rw [ih]
      refine Finset.sum_congr rfl fun k _ => ?_
      rw [List.getD_cons_succ, hsucc, pushes_first]
    rw [List.length_cons, Finset.sum_range_succ', ← List.length_cons (a := x) (as := h), hsum,
      List.getD_cons_zero]
    cases x with
    | none => simp [photonsAfter]
    | some v =>
      rw [photonsAfter, List.map_append, List.sum_append, add_comm]
      congr 1
      show _ = indic (e.eMin < photonEnergy e chi (pushParticle cfg.push cfg.field cfg.dt q) v) * _
      unfold indic
      split_ifs
      · simp; rfl
      · simp

/-- C125, means: the mean of the sum of any quantity `g` over the photons is the sum, over the steps, of the
sample fraction times the mean of `g` over the spectrum of that step. It is assumed that the list has room
for one photon per step. -/
theorem C125_mean_partial (hprocs : cfg.procs = [.continuous e c]) (hL : InTables cfg e c logh chi p n)
    (hm : p.mass ≠ 0) (ha : p.isAlive = true) (h0 : 0 ≤ e.sampleFrac) (h1 : e.sampleFrac ≤ 1) (hmx : n < mx)
    (hend : ∀ k < n, (k : ℝ) * cfg.dt < cfg.timeEnd) (hN : 3 * n < N)
    (F : List ℝ → ENNReal) (g : Particle ℝ → ENNReal)
    (hF : ∀ us t, Steps cfg (lonely p nm mx us) n t → F us = ((photonsIn t).map g).sum) :
    average N F = ∑ k ∈ Finset.range n, ENNReal.ofReal e.sampleFrac *
      ∫⁻ v in Set.Ico (0 : ℝ) 1, indic (e.eMin < photonEnergy e chi (pushes cfg p (k + 1)) v) *
        g (pushes cfg (spectrumPhoton e logh chi (pushes cfg p (k + 1)) v) (n - k)) := by
  rw [C125_law (nm := nm) hprocs hL hm ha h0 h1 (by omega) hend hN F (fun l => (l.map g).sum) hF,
    ← sampled_sum h0 h1]
  refine sampled_congr fun h hn _ => ?_
  have hlen := photonsAfter_length (cfg := cfg) (e := e) (logh := logh) (chi := chi) h p
  rw [List.take_of_length_le (by omega), photonsAfter_sum, hn]

theorem push_photon_keeps {x : Particle ℝ} (hx : x.mass = 0) :
    (pushParticle cfg.push cfg.field cfg.dt x).momentum = x.momentum := by
  unfold pushParticle
  split
  · rfl
  · rw [if_pos (by simp [hx])]
    unfold Particle.updateTrack Particle.updateTime
    split <;> rfl

theorem pushes_photon_keeps {x : Particle ℝ} (hx : x.mass = 0) (k : Nat) :
    (pushes cfg x k).momentum = x.momentum ∧ (pushes cfg x k).weight = x.weight ∧
      (pushes cfg x k).mass = 0 := by
  induction k with
  | zero => exact ⟨rfl, rfl, hx⟩
  | succ k ih =>
    have hid := push_identity cfg.push cfg.field cfg.dt (pushes cfg x k)
    rw [pushes_succ]
    exact ⟨(push_photon_keeps ih.2.2).trans ih.1, hid.2.2.2.1.trans ih.2.1, hid.2.1.trans ih.2.2⟩

theorem pushes_weight (p : Particle ℝ) (k : Nat) : (pushes cfg p k).weight = p.weight := by
  induction k with
  | zero => rfl
  | succ k ih =>
    rw [pushes_succ, (push_identity cfg.push cfg.field cfg.dt (pushes cfg p k)).2.2.2.1, ih]

/-- C125, no bias: the mean of the weighted sum of any function `φ` of the momentum of the photons is what
the lepton radiates: the sum, over the steps, of its weight times the number of photons it radiates in the
step times the mean of `φ` over the spectrum. The sample fraction has dropped out. It is assumed that the list has
room for one photon per step. -/
theorem C125_unbiased_partial (hprocs : cfg.procs = [.continuous e c]) (hL : InTables cfg e c logh chi p n)
    (hm : p.mass ≠ 0) (ha : p.isAlive = true) (h0 : 0 < e.sampleFrac) (h1 : e.sampleFrac ≤ 1) (hmx : n < mx)
    (hend : ∀ k < n, (k : ℝ) * cfg.dt < cfg.timeEnd) (hN : 3 * n < N)
    (F : List ℝ → ENNReal) (φ : V3 ℝ → ENNReal)
    (hF : ∀ us t, Steps cfg (lonely p nm mx us) n t →
      F us = ((photonsIn t).map fun x => ENNReal.ofReal x.weight * φ x.momentum).sum) :
    average N F = ∑ k ∈ Finset.range n,
      ENNReal.ofReal (p.weight * emissionRate e logh (pushes cfg p (k + 1))) *
        ∫⁻ v in Set.Ico (0 : ℝ) 1, indic (e.eMin < photonEnergy e chi (pushes cfg p (k + 1)) v) *
          φ ((pushes cfg p (k + 1)).direction.norm.smul (photonEnergy e chi (pushes cfg p (k + 1)) v)) := by
  rw [C125_mean_partial (nm := nm) hprocs hL hm ha h0.le h1 hmx hend hN F _ hF]
  refine Finset.sum_congr rfl fun k hk => ?_
  have hw : (pushes cfg p (k + 1)).weight = p.weight := pushes_weight p (k + 1)
  have e1 : ∀ v, indic (e.eMin < photonEnergy e chi (pushes cfg p (k + 1)) v) *
      (ENNReal.ofReal (pushes cfg (spectrumPhoton e logh chi (pushes cfg p (k + 1)) v) (n - k)).weight *
        φ (pushes cfg (spectrumPhoton e logh chi (pushes cfg p (k + 1)) v) (n - k)).momentum) =
      ENNReal.ofReal (p.weight * emissionRate e logh (pushes cfg p (k + 1)) / e.sampleFrac) *
        (indic (e.eMin < photonEnergy e chi (pushes cfg p (k + 1)) v) *
        φ ((pushes cfg p (k + 1)).direction.norm.smul (photonEnergy e chi (pushes cfg p (k + 1)) v))) := by
    intro v
    obtain ⟨k1, k2, -⟩ := pushes_photon_keeps (cfg := cfg)
      (x := spectrumPhoton e logh chi (pushes cfg p (k + 1)) v) rfl (n - k)
    rw [k1, k2, mul_left_comm, ← hw]
    rfl
  simp only [e1]
  rw [lintegral_const_mul' _ _ ENNReal.ofReal_ne_top, ← mul_assoc, ← ENNReal.ofReal_mul h0.le,
    mul_div_cancel₀ _ h0.ne']

/-! ## The number of photons -/

/-- In the first `n` steps of `p` all photons of the spectra are above the threshold. -/
def AboveThreshold (cfg : SimCfg ℝ) (e : EmissionCfg ℝ) (chi : ℝ → ℝ → ℝ) (p : Particle ℝ) (n : Nat) : Prop :=
  ∀ k < n, ∀ v, 0 ≤ v → v < 1 → e.eMin < photonEnergy e chi (pushes cfg p (k + 1)) v

theorem photonsAfter_count (h : List (Option ℝ)) (q : Particle ℝ)
    (hv : ∀ v, some v ∈ h → 0 ≤ v ∧ v < 1) (hE : AboveThreshold cfg e chi q h.length) :
    (photonsAfter cfg e logh chi h q).length = h.countP Option.isSome := by
  induction h generalizing q with
  | nil => rfl
  | cons x h ih =>
    have h1 := ih (pushParticle cfg.push cfg.field cfg.dt q)
      (fun v hm => hv v (List.mem_cons_of_mem _ hm)) (fun k hk v a b => by
        rw [pushes_first]
        exact hE (k + 1) (by simpa using hk) v a b)
    cases x with
    | none => rw [photonsAfter, h1]; rfl
    | some v =>
      obtain ⟨a, b⟩ := hv v (by simp)
      rw [photonsAfter, if_pos (show e.eMin < photonEnergy e chi (pushParticle cfg.push cfg.field cfg.dt q) v
        from hE 0 (by simp) v a b), List.length_append, h1,
        List.countP_cons_of_pos (by rfl), List.length_singleton, Nat.add_comm]

/-- C125, the number of photons: where all photons of the spectra are above the threshold, the number of
photons in the list has a binomial distribution that depends only on the number of steps and on the sample
fraction, and not on how much is radiated. -/
theorem C125_number_partial (hprocs : cfg.procs = [.continuous e c]) (hL : InTables cfg e c logh chi p n)
    (hE : AboveThreshold cfg e chi p n)
    (hm : p.mass ≠ 0) (ha : p.isAlive = true) (h0 : 0 ≤ e.sampleFrac) (h1 : e.sampleFrac ≤ 1) (hmx : n < mx)
    (hend : ∀ k < n, (k : ℝ) * cfg.dt < cfg.timeEnd) (hN : 3 * n < N) (j : Nat) :
    likelihood N (fun us => ∃ t, Steps cfg (lonely p nm mx us) n t ∧ (photonsIn t).length = j) =
      ENNReal.ofReal (n.choose j * e.sampleFrac ^ j * (1 - e.sampleFrac) ^ (n - j)) := by
  unfold likelihood
  rw [C125_law (nm := nm) (mx := mx) hprocs hL hm ha h0 h1 (by omega) hend hN _ (fun l => indic (l.length = j)),
    ← sampled_binomial h0 h1]
  · refine sampled_congr fun h hn hv => ?_
    have hlen := photonsAfter_length (cfg := cfg) (e := e) (logh := logh) (chi := chi) h p
    have htake : (photonsAfter cfg e logh chi h p).take (mx - 1) = photonsAfter cfg e logh chi h p :=
      List.take_of_length_le (by omega)
    rw [htake, photonsAfter_count h p hv (by rw [hn]; exact hE)]
  · intro us t ht
    congr 1
    apply propext
    constructor
    · rintro ⟨t', h1, h2⟩
      rw [steps_det ht h1]
      exact h2
    · exact fun h => ⟨t, ht, h⟩

/-! ## A list that is full -/

theorem sampled_one_congr {n : Nat} {G G' : List (Option ℝ) → ENNReal}
    (h : ∀ vs : List ℝ, vs.length = n → (∀ v ∈ vs, 0 ≤ v ∧ v < 1) → G (vs.map some) = G' (vs.map some)) :
    sampled 1 n G = sampled 1 n G' := by
  induction n generalizing G G' with
  | zero => exact h [] rfl (by simp)
  | succ n ih =>
    rw [sampled, sampled]
    simp only [sub_self, ENNReal.ofReal_zero, zero_mul, zero_add]
    congr 1
    refine setLIntegral_congr_fun measurableSet_Ico fun v hv => ih fun us h1 h2 => ?_
    refine h (v :: us) (by simp [h1]) fun w hw => ?_
    rcases List.mem_cons.mp hw with rfl | hw
    · exact hv
    · exact h2 w hw

theorem photonsAfter_some (vs : List ℝ) (q : Particle ℝ) (hv : ∀ v ∈ vs, 0 ≤ v ∧ v < 1)
    (hE : AboveThreshold cfg e chi q vs.length) :
    photonsAfter cfg e logh chi (vs.map some) q = (List.range vs.length).map fun k =>
      pushes cfg (spectrumPhoton e logh chi (pushes cfg q (k + 1)) (vs.getD k 0)) (vs.length - k) := by
  induction vs generalizing q with
  | nil => rfl
  | cons v vs ih =>
    obtain ⟨a, b⟩ := hv v (by simp)
    rw [List.map_cons, photonsAfter, if_pos (show e.eMin < photonEnergy e chi
        (pushParticle cfg.push cfg.field cfg.dt q) v from hE 0 (by simp) v a b),
      ih _ (fun v hm => hv v (List.mem_cons_of_mem _ hm)) (fun k hk v a b => by
        rw [pushes_first]
        exact hE (k + 1) (by simpa using hk) v a b),
      List.length_cons, List.range_succ_eq_map, List.map_cons, List.map_map, List.singleton_append]
    congr 1
    · rw [List.length_map]
      rfl
    · refine List.map_congr_left fun k _ => ?_
      simp only [Function.comp, Nat.succ_eq_add_one, List.getD_cons_succ, Nat.add_sub_add_right, pushes_first]

/-- C125 is false of long events: with the sample fraction 1 one photon is stored in every step, so that the
list is full after `mx - 1` steps, and nothing that is radiated later is recorded. -/
theorem C125_capacity_refuted (hprocs : cfg.procs = [.continuous e c])
    (hL : InTables cfg e c logh chi p n) (hE : AboveThreshold cfg e chi p n)
    (hm : p.mass ≠ 0) (ha : p.isAlive = true) (h1 : e.sampleFrac = 1) (hmx : 0 < mx) (hn : mx ≤ n + 1)
    (hend : ∀ k < n, (k : ℝ) * cfg.dt < cfg.timeEnd) (hN : 3 * n < N)
    (F : List ℝ → ENNReal) (φ : V3 ℝ → ENNReal)
    (hF : ∀ us t, Steps cfg (lonely p nm mx us) n t →
      F us = ((photonsIn t).map fun x => ENNReal.ofReal x.weight * φ x.momentum).sum) :
    average N F = ∑ k ∈ Finset.range (mx - 1),
      ENNReal.ofReal (p.weight * emissionRate e logh (pushes cfg p (k + 1))) *
        ∫⁻ v in Set.Ico (0 : ℝ) 1,
          φ ((pushes cfg p (k + 1)).direction.norm.smul (photonEnergy e chi (pushes cfg p (k + 1)) v)) := by
  rw [C125_law (nm := nm) hprocs hL hm ha (by rw [h1]; norm_num) h1.le hmx hend hN F
    (fun l => (l.map fun x => ENNReal.ofReal x.weight * φ x.momentum).sum) hF, h1]
  set g : Nat → ℝ → ENNReal := fun k v => if k < mx - 1 then
    ENNReal.ofReal (p.weight * emissionRate e logh (pushes cfg p (k + 1))) *
      φ ((pushes cfg p (k + 1)).direction.norm.smul (photonEnergy e chi (pushes cfg p (k + 1)) v)) else 0
    with hg
  rw [sampled_one_congr (G' := fun h => ∑ k ∈ Finset.range n, (h.getD k none).elim 0 (g k))]
  · rw [sampled_sum zero_le_one le_rfl]
    simp only [ENNReal.ofReal_one, one_mul]
    rw [← Finset.sum_subset (Finset.range_mono (show mx - 1 ≤ n by omega))]
    · refine Finset.sum_congr rfl fun k hk => ?_
      simp only [hg, if_pos (Finset.mem_range.mp hk)]
      rw [lintegral_const_mul' _ _ ENNReal.ofReal_ne_top]
    · intro k _ hk
      simp only [hg, if_neg (fun h => hk (Finset.mem_range.mpr h)), lintegral_zero]
  · intro vs hvs hv
    rw [photonsAfter_some vs p hv (by rw [hvs]; exact hE), hvs, ← List.map_take, List.take_range,
      min_eq_left (by omega), List.map_map,
      ← Finset.sum_subset (Finset.range_mono (show mx - 1 ≤ n by omega)), ← List.sum_toFinset _ List.nodup_range,
      List.toFinset_range]
    · refine Finset.sum_congr rfl fun k hk => ?_
      have hk' := Finset.mem_range.mp hk
      obtain ⟨k1, k2, -⟩ := pushes_photon_keeps (cfg := cfg)
        (x := spectrumPhoton e logh chi (pushes cfg p (k + 1)) (vs.getD k 0)) rfl (n - k)
      have hget : (vs.map some).getD k none = some (vs.getD k 0) := by
        rw [List.getD_eq_getElem?_getD, List.getD_eq_getElem?_getD, List.getElem?_map,
          List.getElem?_eq_getElem (by omega)]
        rfl
      simp only [Function.comp, hget, Option.elim, hg, if_pos hk', k1, k2]
      simp only [spectrumPhoton, h1, div_one, pushes_weight]
    · intro k _ hk
      cases hx : (vs.map some).getD k none with
      | none => rfl
      | some v => simp only [Option.elim, hg, if_neg (fun h => hk (Finset.mem_range.mpr h))]

/-! ## The tables -/

theorem logh_indep {eta v w : ℝ} {x y : ℝ × ℝ} (hv : continuousLoghChi e c eta v = .ok x)
    (hw : continuousLoghChi e c eta w = .ok y) : x.1 = y.1 := by
  unfold continuousLoghChi at hv hw
  split at hv
  · rename_i h
    rw [if_pos h] at hw
    obtain ⟨a, -, hv⟩ := Res.bind_eq_ok.mp hv
    obtain ⟨b, -, hw⟩ := Res.bind_eq_ok.mp hw
    obtain ⟨_, -, hv⟩ := Res.bind_eq_ok.mp hv
    obtain ⟨_, -, hw⟩ := Res.bind_eq_ok.mp hw
    rw [← Res.ok.inj hv, ← Res.ok.inj hw]
  · rename_i h
    rw [if_neg h] at hw
    obtain ⟨a, ha, hv⟩ := Res.bind_eq_ok.mp hv
    obtain ⟨b, hb, hw⟩ := Res.bind_eq_ok.mp hw
    obtain ⟨_, -, hv⟩ := Res.bind_eq_ok.mp hv
    obtain ⟨_, -, hw⟩ := Res.bind_eq_ok.mp hw
    rw [ha] at hb
    rw [← Res.ok.inj hv, ← Res.ok.inj hw]
    exact Res.ok.inj hb

/-- C125, the tables: with tables of the proper shape and an increasing axis the lookups succeed if and only if
the quantum parameter stays below the last but one entry of the axis. -/
theorem C125_tables_iff (hg : e.GoodTables) (hs : e.etaAxis.Pairwise (· < ·)) (h3 : 3 ≤ e.etaAxis.length) :
    (∃ (logh : ℝ → ℝ) (chi : ℝ → ℝ → ℝ), ∀ k < n, ∀ v, continuousLoghChi e c (calculateEta e.field (pushes cfg p (k + 1))) v =
      .ok (logh (calculateEta e.field (pushes cfg p (k + 1))),
        chi (calculateEta e.field (pushes cfg p (k + 1))) v)) ↔
    ∀ k < n, Real.logb 10 (lookedUp e c (calculateEta e.field (pushes cfg p (k + 1)))) ≤
      e.etaAxis[e.etaAxis.length - 2] := by
  simp only [← covered_iff hg hs h3]
  constructor
  · rintro ⟨logh, chi, h⟩ k hk v
    exact ⟨_, h k hk v⟩
  · intro h
    classical
    refine ⟨fun eta => if h : ∃ x, continuousLoghChi e c eta 0 = .ok x then h.choose.1 else 0,
      fun eta v => if h : ∃ x, continuousLoghChi e c eta v = .ok x then h.choose.2 else 0,
      fun k hk v => ?_⟩
    have hv := h k hk v
    have h0 := h k hk 0
    dsimp only
    rw [dif_pos h0, dif_pos hv, logh_indep h0.choose_spec hv.choose_spec]
    exact hv.choose_spec

end law

/-! ## The hypotheses are satisfiable -/

namespace Witness

/-- The tables of C118 with the sample fraction `f`. -/
noncomputable def sampleCfg (f : ℝ) : EmissionCfg ℝ :=
  { emCfg (1 / 4) f 0 with field := staticField ⟨0, 0, -1⟩ ⟨0, 0, 0⟩ }

/-- An electron that is accelerated along its path. -/
noncomputable def sampledCfg (f : ℝ) (n : Nat) : SimCfg ℝ :=
  ⟨lorentzForce, staticField ⟨0, 0, -1⟩ ⟨0, 0, 0⟩, 1, n, [.continuous (sampleCfg f) false]⟩

theorem sampled_forward (f : ℝ) (n k : Nat) : Forward (pushes (sampledCfg f n) electron k) := by
  induction k with
  | zero => exact electron_forward
  | succ k ih =>
    rw [pushes_succ]
    exact (forward_push n ih).1

theorem sampled_inTables (f : ℝ) (n : Nat) :
    InTables (sampledCfg f n) (sampleCfg f) false (fun _ => 0) (fun _ _ => 1 / 4) electron n := by
  intro k _ v h0 h1
  have heta : calculateEta (sampleCfg f).field (pushes (sampledCfg f n) electron (k + 1)) = 1 :=
    forward_eta (sampled_forward f n (k + 1))
  rw [heta]
  unfold continuousLoghChi
  rw [if_neg (by simp only [real_lit, real_lt]; norm_num)]
  have hchi : calculateChi (sampleCfg f) 1 v = .ok (1 / 4) :=
    chi_const (1 / 4) f 0 v (by norm_num) h0 h1
  rw [hchi]
  simp [sampleCfg, Numerics.interpolate1D, emCfg, Numerics.firstAbove, Numerics.usub, rd]

theorem sampled_above (f : ℝ) (n : Nat) :
    AboveThreshold (sampledCfg f n) (sampleCfg f) (fun _ _ => 1 / 4) electron n := by
  intro k _ v _ _
  have hf := sampled_forward f n (k + 1)
  have heta : calculateEta (sampleCfg f).field (pushes (sampledCfg f n) electron (k + 1)) = 1 := forward_eta hf
  have hg : 0 < (pushes (sampledCfg f n) electron (k + 1)).gamma := by
    unfold Particle.gamma
    rw [hf.kind]
    obtain ⟨z, hz, hmom⟩ := hf.momentum
    rw [hmom, hf.mass]
    simp [V3.mag2, V3.dot]
    positivity
  unfold photonEnergy
  rw [heta]
  show (0 : ℝ) < 2 * (1 / 4) * _ / 1
  positivity

theorem sampled_end (f : ℝ) (n : Nat) : ∀ k < n, (k : ℝ) * (sampledCfg f n).dt < (sampledCfg f n).timeEnd := by
  intro k hk
  simpa [sampledCfg] using hk

end Witness

open Witness

/-- An accelerated electron of which a third of the photons is sampled: the number of photons. -/
example (n j : Nat) : likelihood (3 * n + 1) (fun us => ∃ t,
    Steps (sampledCfg (1 / 3) n) (lonely electron "0" (n + 1) us) n t ∧ (photonsIn t).length = j) =
      ENNReal.ofReal (n.choose j * (1 / 3) ^ j * (1 - 1 / 3) ^ (n - j)) :=
  C125_number_partial rfl (sampled_inTables _ n) (sampled_above _ n)
    (by rw [electron_forward.mass]; norm_num) rfl (by norm_num [sampleCfg, emCfg]) (by norm_num [sampleCfg, emCfg])
    (by omega) (sampled_end _ n) (by omega) j

open Classical in
/-- The hypotheses of the other theorems are met by the same electron; `F` exists because the steps are
determined by the draws. -/
example (n N : Nat) (φ : V3 ℝ → ENNReal) (hN : 3 * n < N) : ∃ F : List ℝ → ENNReal,
    (∀ us t, Steps (sampledCfg (1 / 3) n) (lonely electron "0" (n + 1) us) n t →
      F us = ((photonsIn t).map fun x => ENNReal.ofReal x.weight * φ x.momentum).sum) ∧
    average N F = ∑ k ∈ Finset.range n, ENNReal.ofReal (electron.weight *
        emissionRate (sampleCfg (1 / 3)) (fun _ => 0) (pushes (sampledCfg (1 / 3) n) electron (k + 1))) *
      ∫⁻ v in Set.Ico (0 : ℝ) 1, indic (0 < photonEnergy (sampleCfg (1 / 3)) (fun _ _ => 1 / 4)
          (pushes (sampledCfg (1 / 3) n) electron (k + 1)) v) *
        φ ((pushes (sampledCfg (1 / 3) n) electron (k + 1)).direction.norm.smul
          (photonEnergy (sampleCfg (1 / 3)) (fun _ _ => 1 / 4)
            (pushes (sampledCfg (1 / 3) n) electron (k + 1)) v)) := by
  have hF : ∀ us t, Steps (sampledCfg (1 / 3) n) (lonely electron "0" (n + 1) us) n t →
      (if h : ∃ t, Steps (sampledCfg (1 / 3) n) (lonely electron "0" (n + 1) us) n t then
        ((photonsIn h.choose).map fun x => ENNReal.ofReal x.weight * φ x.momentum).sum else 0) =
      ((photonsIn t).map fun x => ENNReal.ofReal x.weight * φ x.momentum).sum := by
    intro us t ht
    rw [dif_pos ⟨t, ht⟩, steps_det (Exists.choose_spec (⟨t, ht⟩ : ∃ t, Steps _ _ _ t)) ht]
  exact ⟨_, hF, C125_unbiased_partial rfl (sampled_inTables _ n) (by rw [electron_forward.mass]; norm_num) rfl
    (by norm_num [sampleCfg, emCfg]) (by norm_num [sampleCfg, emCfg]) (by omega) (sampled_end _ n) hN _ φ hF⟩

/-- A list of ten particles and an event of a hundred steps: what is radiated after the ninth is lost. -/
example : InTables (sampledCfg 1 100) (sampleCfg 1) false (fun _ => 0) (fun _ _ => 1 / 4) electron 100 ∧
    AboveThreshold (sampledCfg 1 100) (sampleCfg 1) (fun _ _ => 1 / 4) electron 100 ∧
    (sampleCfg 1).sampleFrac = 1 ∧ 0 < 10 ∧ 10 ≤ 100 + 1 :=
  ⟨sampled_inTables 1 100, sampled_above 1 100, rfl, by norm_num, by norm_num⟩

end QED
