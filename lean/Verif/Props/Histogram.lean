import Verif.Lemmas.Histogram

set_option autoImplicit false

/-!
# Histograms (C45–C50)

`Hist.new name particle type time lo hi n g` is a histogram made by its constructor with `n` bins
from `lo` to `hi`; `g` is the value the uninitialised entry counter happens to have. `binCentre`
and `InBin` (in `Lemmas/Histogram.lean`) say which bin a value belongs to.
-/

namespace QED

open Numerics

/-! ## C45 -/

open Classical in
/-- C45: adding any sequence of particles one by one never fails; bin `i` holds the number of
particles whose energy is strictly inside the range and nearest to centre `i`, and the bins sum to
the number of particles strictly inside the range. -/
theorem C45_counts (name part type : String) (time : ℝ) {lo hi : ℝ} {n : Nat} (g : Nat)
    (hlt : lo < hi) (hn : 2 ≤ n) (hb : n < 2 ^ 32) (ps : List (Particle ℝ)) :
    ∃ h, ps.foldlM Hist.appParticle (Hist.new name part type time lo hi n g) = .ok h ∧
      h.values.length = n ∧
      (∀ i < n, h.values[i]? = some (ps.countP (fun p => InBin lo hi n i p.energy) : ℝ)) ∧
      h.values.sum = ps.countP (fun p => lo < p.energy ∧ p.energy < hi) := by
  have hs := Hist.new_shape name part type time lo hi n g
  obtain ⟨h, e, s, -, -, v, t⟩ := Hist.counts_spec hlt hn hb (ps.map Particle.energy) hs
  refine ⟨h, by rw [Hist.appParticles_eq hlt hn hb ps hs, e], s.values, ?_, ?_⟩
  · intro i hi'
    rw [v i 0 (by simp [Hist.new, hi']), List.countP_map]
    simp [Function.comp_def]
  · rw [t, List.countP_map]
    simp [Hist.new, Function.comp_def]

open Classical in
/-- C45 for the histograms of a run: filling one from the particles of an event counts exactly
those of the histogram's species. -/
theorem C45_event (name part type : String) (time : ℝ) {lo hi : ℝ} {n : Nat} (g : Nat)
    (hlt : lo < hi) (hn : 2 ≤ n) (hb : n < 2 ^ 32) (ps : List (Particle ℝ)) :
    ∃ h, fillHist (Hist.new name part type time lo hi n g) ps = .ok h ∧
      h.values.length = n ∧
      (∀ i < n, h.values[i]? =
        some (ps.countP (fun p => p.name = part ∧ InBin lo hi n i p.energy) : ℝ)) ∧
      h.values.sum = ps.countP (fun p => p.name = part ∧ lo < p.energy ∧ p.energy < hi) := by
  have hs := Hist.new_shape name part type time lo hi n g
  obtain ⟨h, e, s, -, -, v, t⟩ := Hist.counts_spec hlt hn hb
    ((ps.filter (fun p => part = p.name)).map Particle.energy) hs
  refine ⟨h, by rw [fillHist_eq hlt hn hb ps hs]; exact e, s.values, ?_, ?_⟩
  · intro i hi'
    rw [v i 0 (by simp [Hist.new, hi']), List.countP_map, List.countP_filter]
    simp [and_comm, eq_comm]
  · rw [t, List.countP_map, List.countP_filter]
    simp only [Hist.new, Function.comp_def, List.sum_replicate, real_lit, Rat.cast_zero, smul_zero,
      zero_add, Nat.cast_inj]
    apply List.countP_congr
    intro p _
    simp only [Bool.and_eq_true, decide_eq_true_eq]
    tauto

/-- Every value strictly inside the range belongs to exactly one bin, so nothing is lost or counted
twice. -/
theorem C45_one_bin {lo hi x : ℝ} {n : Nat} (hn : 2 ≤ n) (hb : n < 2 ^ 32) (h1 : lo < x)
    (h2 : x < hi) : ∃! i, InBin lo hi n i x := by
  obtain ⟨i, hi1, -, hi3, hi4⟩ := C07_nearest (centres_sorted (h1.trans h2) hn)
    (by intro h0; have := congrArg List.length h0; simp at this; omega)
    (by simpa using hb) x
  have hi1' : i < n := by simpa using hi1
  have hin : InBin lo hi n i x := by
    refine ⟨h1, h2, hi1', ?_, ?_⟩
    · intro j hj
      have := hi3 j (by simpa using hj)
      rwa [List.getElem_map, List.getElem_map, List.getElem_range, List.getElem_range] at this
    · intro j hj
      have := hi4 j (by simpa using hj)
      rwa [List.getElem_map, List.getElem_map, List.getElem_range, List.getElem_range] at this
  exact ⟨i, hin, fun j hj => hj.unique hin⟩

/-- The hypotheses are met by a histogram with five bins from 0 to 8, and 3 goes to the bin with
centre 4 (not to the one with centre 2, which is as near). -/
example : (0 : ℝ) < 8 ∧ 2 ≤ 5 ∧ 5 < 2 ^ 32 ∧ InBin 0 8 5 2 3 := by
  refine ⟨by norm_num, by norm_num, by norm_num, by norm_num, by norm_num, by norm_num, ?_, ?_⟩
  · intro j hj
    interval_cases j <;> norm_num [binCentre, abs_le]
  · intro j hj
    interval_cases j <;> norm_num [binCentre, abs]

/-! ## C46 and C47 -/

/-- The quantity a histogram of the given type is meant to bin (the names tested at
`Histogram.cpp:47-108`). -/
noncomputable def histQuantity (type : String) (p : Particle ℝ) : Option ℝ :=
  if type = "Energy" ∨ type = "energy" then some p.energy
  else if type = "X" ∨ type = "x" then some p.position.x
  else if type = "Y" ∨ type = "y" then some p.position.y
  else if type = "Z" ∨ type = "z" then some p.position.z
  else if type = "PX" ∨ type = "px" then some p.momentum.x
  else if type = "PY" ∨ type = "py" then some p.momentum.y
  else if type = "PZ" ∨ type = "pz" then some p.momentum.z
  else none

open Classical in
/-- The full C46, for histograms of one type: particle by particle, the bin of the chosen quantity
grows by one. -/
def BinsQuantity (type : String) : Prop :=
  ∀ (lo hi : ℝ) (n g : Nat) (p : Particle ℝ) (q : ℝ), lo < hi → 2 ≤ n → n < 2 ^ 32 →
    histQuantity type p = some q →
    ∃ h, (Hist.new "h" "Electron" type 0 lo hi n g).appParticle p = .ok h ∧
      ∀ i < n, h.values[i]? = some (if InBin lo hi n i q then (1 : ℝ) else 0)

/-- What `appParticle` does to a fresh histogram. -/
theorem appParticle_new (name part type : String) (time : ℝ) {lo hi : ℝ} {n : Nat} (g : Nat)
    (hlt : lo < hi) (hn : 2 ≤ n) (hb : n < 2 ^ 32) (p : Particle ℝ) :
    ∃ h, (Hist.new name part type time lo hi n g).appParticle p = .ok h ∧
      (∀ (i : Nat), InBin lo hi n i p.energy → h.values[i]? = some (1 : ℝ)) ∧
      (∀ i < n, ¬ InBin lo hi n i p.energy → h.values[i]? = some (0 : ℝ)) := by
  classical
  obtain ⟨h, e, -, v, -⟩ := C45_counts name part type time g hlt hn hb [p]
  rw [List.foldlM_cons] at e
  obtain ⟨h', e', e''⟩ : ∃ h', (Hist.new name part type time lo hi n g).appParticle p = .ok h' ∧
      h' = h := by
    cases hc : (Hist.new name part type time lo hi n g).appParticle p with
    | ok k => rw [hc] at e; cases e; exact ⟨_, rfl, rfl⟩
    | exit c => rw [hc] at e; cases e
    | throw => rw [hc] at e; cases e
    | ub => rw [hc] at e; cases e
  subst e''
  refine ⟨h', e', ?_, ?_⟩
  · intro i hi'
    rw [v i hi'.2.2.1]
    simp [hi']
  · intro i hi' hn'
    rw [v i hi']
    simp [hn']

/-- C46, the part that holds: histograms of type energy bin the energy. Missing: the six other
types, see `C46_refuted`. -/
theorem C46_energy_partial (type : String) (ht : type = "Energy" ∨ type = "energy") :
    BinsQuantity type := by
  intro lo hi n g p q hlt hn hb hq
  rw [histQuantity, if_pos ht, Option.some_inj] at hq
  subst hq
  obtain ⟨h, e, a, b⟩ := appParticle_new "h" "Electron" type 0 g hlt hn hb p
  refine ⟨h, e, ?_⟩
  intro i hi'
  by_cases hc : InBin lo hi n i p.energy
  · rw [a i hc, if_pos hc]
  · rw [b i hi' hc, if_neg hc]

/-- The type is never looked at: histograms that differ in their type only get the same bins from
any particles. -/
theorem C46_type_ignored (h : Hist ℝ) (t : String) (p : Particle ℝ) :
    ({ h with type := t }).appParticle p =
      (do let h' ← h.appParticle p; .ok { h' with type := t }) := by
  unfold Hist.appParticle
  by_cases h0 : h.nBins = 0
  · rw [if_pos h0, if_pos h0]; rfl
  · rw [if_neg h0, if_neg h0]
    unfold Hist.count
    dsimp only
    cases rd h.centres 0 with
    | ok a =>
      rw [Res.ok_bind, Res.ok_bind]
      cases rd h.centres (usub h.nBins 1) with
      | ok b =>
        rw [Res.ok_bind, Res.ok_bind]
        by_cases hc : ((a <. p.energy) && (p.energy <. b)) = true
        · rw [if_pos hc, if_pos hc]
          cases arrayIndex h.centres p.energy with
          | ok k =>
            rw [Res.ok_bind, Res.ok_bind]
            cases rd h.values k <;> rfl
          | exit c => rfl
          | throw => rfl
          | ub => rfl
        · rw [if_neg hc, if_neg hc]; rfl
      | exit c => rfl
      | throw => rfl
      | ub => rfl
    | exit c => rfl
    | throw => rfl
    | ub => rfl

/-- A photon of energy 3 at `(1, 1, 1)` with momentum `(1, 2, 2)`. -/
noncomputable def histPhoton (weight : ℝ) : Particle ℝ :=
  Particle.newPhoton ⟨1, 1, 1⟩ ⟨1, 2, 2⟩ weight 0 false 0

theorem histPhoton_energy (w : ℝ) : (histPhoton w).energy = 3 := by
  have : (histPhoton w).energy = Real.sqrt (1 * 1 + 2 * 2 + 2 * 2) := by
    simp [histPhoton, Particle.newPhoton, Particle.new, Particle.energy, V3.mag, V3.dot]
  rw [this, show (1 * 1 + 2 * 2 + 2 * 2 : ℝ) = 3 ^ 2 by norm_num]
  exact Real.sqrt_sq (by norm_num)

/-- C46 is false for each of the six types other than energy: the photon above has every coordinate
between 0 and 5/2, but is not counted in a histogram over that range. -/
theorem C46_refuted (type : String)
    (ht : type ∈ ["X", "x", "Y", "y", "Z", "z", "PX", "px", "PY", "py", "PZ", "pz"]) :
    ¬ BinsQuantity type := by
  intro H
  have hq : ∃ q : ℝ, histQuantity type (histPhoton 1) = some q ∧ 0 < q ∧ q < 5 / 2 := by
    simp only [List.mem_cons, List.not_mem_nil, or_false] at ht
    rcases ht with h | h | h | h | h | h | h | h | h | h | h | h <;> subst h <;>
      simp [histQuantity, histPhoton, Particle.newPhoton, Particle.new] <;> norm_num
  obtain ⟨q, hq, q0, q1⟩ := hq
  obtain ⟨h, e, v⟩ := H 0 (5 / 2) 2 0 (histPhoton 1) q (by norm_num) (by norm_num) (by norm_num) hq
  obtain ⟨h', e', -, b⟩ := appParticle_new "h" "Electron" type 0 0 (by norm_num : (0 : ℝ) < 5 / 2)
    (by norm_num : 2 ≤ 2) (by norm_num) (histPhoton 1)
  rw [e] at e'
  cases e'
  obtain ⟨i, hi, -⟩ := C45_one_bin (n := 2) (by norm_num) (by norm_num) q0 q1
  have h1 := v i hi.2.2.1
  rw [b i hi.2.2.1 (by rw [histPhoton_energy]; intro hx; have := hx.2.1; norm_num at this),
    if_pos hi] at h1
  norm_num at h1

/-- The full C47: a particle whose energy belongs to bin `i` adds its weight to that bin. -/
def CountsWeight (w : ℝ) : Prop :=
  ∀ (lo hi : ℝ) (n g i : Nat) (p : Particle ℝ), lo < hi → 2 ≤ n → n < 2 ^ 32 →
    p.weight = w → InBin lo hi n i p.energy →
    ∃ h, (Hist.new "h" "Electron" "energy" 0 lo hi n g).appParticle p = .ok h ∧
      h.values[i]? = some w

/-- C47, the part that holds: particles of weight one. Missing: all other weights, see
`C47_refuted`. -/
theorem C47_unit_weight_partial : CountsWeight 1 := by
  intro lo hi n g i p hlt hn hb hw hi
  obtain ⟨h, e, a, -⟩ := appParticle_new "h" "Electron" "energy" 0 g hlt hn hb p
  exact ⟨h, e, a i hi⟩

/-- C47 is false for every weight other than one. -/
theorem C47_refuted (w : ℝ) (hw : w ≠ 1) : ¬ CountsWeight w := by
  intro H
  have he := histPhoton_energy w
  obtain ⟨i, hi, -⟩ := C45_one_bin (n := 2) (lo := 0) (hi := 5) (x := 3) (by norm_num) (by norm_num)
    (by norm_num) (by norm_num)
  rw [← he] at hi
  obtain ⟨h, e, v⟩ := H 0 5 2 0 i (histPhoton w) (by norm_num) (by norm_num) (by norm_num) rfl hi
  obtain ⟨h', e', a, -⟩ := appParticle_new "h" "Electron" "energy" 0 0 (by norm_num : (0 : ℝ) < 5)
    (by norm_num : 2 ≤ 2) (by norm_num) (histPhoton w)
  rw [e] at e'
  cases e'
  rw [a i hi, Option.some_inj] at v
  exact hw v.symm

/-! ## C48 -/

/-- The full C48, first half: filling a fresh histogram with a list in which some particle lies
inside the range gives bins that sum to one. -/
def FillSumsToOne (g : Nat) (l : PList ℝ) : Prop :=
  ∀ (lo hi : ℝ) (n : Nat), lo < hi → 2 ≤ n → n < 2 ^ 32 →
    (∃ p ∈ l.items, lo < p.energy ∧ p.energy < hi) →
    ∃ h, (Hist.new "h" "Electron" "energy" 0 lo hi n g).fill l = .ok h ∧ h.values.sum = 1

/-- C48, the part that holds: if the entry counter, which starts with the indeterminate value `g`,
does not happen to wrap round to zero, the bins sum to one. Missing: the case in which it does, see
`C48_refuted`. -/
theorem C48_sum_one_partial (g : Nat) (hg : g < 2 ^ 32) (l : PList ℝ)
    (hw : (g + l.items.length) % 2 ^ 32 ≠ 0) : FillSumsToOne g l := by
  classical
  intro lo hi n hlt hn hb hp
  have hs := Hist.new_shape "h" "Electron" "energy" 0 lo hi n g
  obtain ⟨h, e, s, en, -, -, t⟩ := Hist.counts_spec hlt hn hb (l.items.map Particle.energy) hs
  have en' : h.entries ≠ 0 := by
    rw [en hg, List.length_map]; exact hw
  have ht : h.values.sum ≠ 0 := by
    rw [t]
    have : 0 < (l.items.map Particle.energy).countP (fun x => lo < x ∧ x < hi) := by
      rw [List.countP_pos_iff]
      obtain ⟨p, hp1, hp2⟩ := hp
      exact ⟨p.energy, List.mem_map_of_mem hp1, by simpa using hp2⟩
    have h' : (0 : ℝ) < (l.items.map Particle.energy).countP (fun x => lo < x ∧ x < hi) := by
      exact_mod_cast this
    simp only [Hist.new, List.sum_replicate, real_lit, Rat.cast_zero, smul_zero, zero_add]
    exact h'.ne'
  refine ⟨h.normalise, ?_, ?_⟩
  · unfold Hist.fill
    rw [if_neg (by rw [hs.nBins]; omega), Hist.countAll_eq, e]
    rfl
  · unfold Hist.normalise
    rw [if_pos (by omega)]
    simp only [Hist.total_real, real_div]
    have : (h.values.map fun x => x / h.values.sum) = h.values.map (fun x => x * (h.values.sum)⁻¹) := by
      simp [div_eq_mul_inv]
    rw [this, List.sum_map_mul_right, List.map_id', mul_inv_cancel₀ ht]

/-- C48 is false when the uninitialised counter starts at its largest value: two photons inside the
range are counted, the counter wraps to zero, and `Fill` does not normalise. -/
theorem C48_refuted : ∃ (g : Nat) (l : PList ℝ), g < 2 ^ 32 ∧ ¬ FillSumsToOne g l := by
  classical
  refine ⟨2 ^ 32 - 2, ⟨"Event", 10, [histPhoton 1, histPhoton 1]⟩,
    by norm_num, ?_⟩
  intro H
  obtain ⟨h, e, hsum⟩ := H 0 5 2 (by norm_num) (by norm_num) (by norm_num)
    ⟨histPhoton 1, by simp, by rw [histPhoton_energy]; norm_num⟩
  have hs := Hist.new_shape "h" "Electron" "energy" 0 0 5 2 (2 ^ 32 - 2)
  obtain ⟨h', e', s, en, -, -, t⟩ := Hist.counts_spec (by norm_num : (0 : ℝ) < 5) (by norm_num)
    (by norm_num) ([histPhoton 1, histPhoton 1].map Particle.energy) hs
  unfold Hist.fill at e
  rw [if_neg (by rw [hs.nBins]; omega), Hist.countAll_eq, e', Res.ok_bind] at e
  have hz : h'.entries = 0 := by
    rw [en (by simp [Hist.new])]
    simp [Hist.new]
  rw [Hist.normalise, if_neg (by omega)] at e
  cases e
  rw [t] at hsum
  simp only [Hist.new, List.map_cons, List.map_nil, histPhoton_energy] at hsum
  norm_num [List.countP_cons] at hsum

/-- C48, second half: `Normalise` keeps the ratio of any two bins. -/
theorem C48_ratios (h : Hist ℝ) (ht : h.values.sum ≠ 0) (i j : Nat) (a b a' b' : ℝ)
    (ha : h.values[i]? = some a) (hb : h.values[j]? = some b)
    (ha' : h.normalise.values[i]? = some a') (hb' : h.normalise.values[j]? = some b') :
    a' * b = a * b' ∧ (b ≠ 0 → a' / b' = a / b) := by
  unfold Hist.normalise at ha' hb'
  by_cases he : 0 < h.entries
  · rw [if_pos he] at ha' hb'
    simp only [Hist.total_real, List.getElem?_map, ha, hb, Option.map_some, Option.some_inj,
      real_div] at ha' hb'
    subst ha' hb'
    constructor
    · field_simp
    · intro _; field_simp
  · rw [if_neg he] at ha' hb'
    rw [ha] at ha'
    rw [hb] at hb'
    cases ha'
    cases hb'
    exact ⟨rfl, fun _ => rfl⟩

/-- If nothing lies inside the range, `Fill` divides zero by zero: with a normal entry count every
bin of an all-zero histogram becomes not-a-number. -/
theorem C48_empty_is_nan (h : Hist XR) (n : Nat) (he : 0 < h.entries)
    (hv : h.values = List.replicate n (.fin 0)) :
    h.normalise.values = List.replicate n .nan := by
  have ht : h.total = .fin 0 := by
    unfold Hist.total
    rw [hv]
    clear hv
    induction n with
    | zero => simp
    | succ n ih => simpa [List.replicate_succ] using ih
  unfold Hist.normalise
  rw [if_pos he, ht, hv, List.map_replicate, XR.div_zero]
  simp [XR.infSign]

/-- The hypotheses of `C48_sum_one_partial` are met by one photon and a counter at zero. -/
example : FillSumsToOne 0 ⟨"Event", 10, [histPhoton 1]⟩ ∧
    ∃ p ∈ [histPhoton 1], (0 : ℝ) < p.energy ∧ p.energy < 5 :=
  ⟨C48_sum_one_partial 0 (by norm_num) _ (by norm_num),
    histPhoton 1, by simp, by rw [histPhoton_energy]; norm_num⟩

/-! ## C49 -/

/-- C49: merging a compatible histogram adds it bin by bin (and adds the entry counts). -/
theorem C49_merge_adds {h g : Hist ℝ} (hh : h.WF) (hg : g.WF) (hc : h.Compatible g) :
    ∃ h', h.merge g = .ok h' ∧ h'.centres = h.centres ∧
      h'.entries = (h.entries + g.entries) % 2 ^ 32 ∧ h'.values.length = h.nBins ∧
      ∀ (i : Nat) (a b : ℝ), h.values[i]? = some a → g.values[i]? = some b →
        h'.values[i]? = some (a + b) := by
  rw [Hist.merge_eq hh hg, if_pos hc]
  refine ⟨_, rfl, rfl, rfl, ?_, ?_⟩
  · dsimp only
    rw [List.length_zipWith, hh.values, hg.values, ← hc.1, min_self]
  · intro i a b ha hb
    dsimp only
    rw [List.getElem?_zipWith, ha, hb]

/-- C49: merging an incompatible histogram leaves the target unchanged. -/
theorem C49_incompatible {h g : Hist ℝ} (hh : h.WF) (hg : g.WF) (hc : ¬ h.Compatible g) :
    h.merge g = .ok h := by
  rw [Hist.merge_eq hh hg, if_neg hc]

open Classical in
/-- Merging as a plain function. -/
noncomputable def mergeInto (h g : Hist ℝ) : Hist ℝ :=
  if h.Compatible g then
    { h with entries := (h.entries + g.entries) % 2 ^ 32
             values := List.zipWith (· + ·) h.values g.values } else h

theorem mergeInto_frame (h g : Hist ℝ) :
    (mergeInto h g).nBins = h.nBins ∧ (mergeInto h g).centres = h.centres := by
  unfold mergeInto
  split <;> exact ⟨rfl, rfl⟩

theorem mergeInto_compat (h g k : Hist ℝ) :
    (mergeInto h g).Compatible k ↔ h.Compatible k := by
  unfold Hist.Compatible
  rw [(mergeInto_frame h g).1, (mergeInto_frame h g).2]

theorem mergeInto_wf {h g : Hist ℝ} (hh : h.WF) (hg : g.WF) : (mergeInto h g).WF := by
  by_cases hc : h.Compatible g
  · unfold mergeInto
    rw [if_pos hc]
    exact ⟨hh.pos, hh.bound, hh.centres, by
      dsimp only; rw [List.length_zipWith, hh.values, hg.values, ← hc.1, min_self]⟩
  · unfold mergeInto
    rw [if_neg hc]
    exact hh

theorem zipWith_add_swap : ∀ a b c : List ℝ,
    List.zipWith (· + ·) (List.zipWith (· + ·) a b) c =
      List.zipWith (· + ·) (List.zipWith (· + ·) a c) b
  | [], _, _ => by simp
  | _ :: _, [], c => by cases c <;> simp
  | _ :: _, _ :: _, [] => by simp
  | a :: as, b :: bs, c :: cs => by
    simp only [List.zipWith_cons_cons, zipWith_add_swap as bs cs, List.cons.injEq, and_true]
    ring

theorem mergeInto_swap (h g k : Hist ℝ) :
    mergeInto (mergeInto h g) k = mergeInto (mergeInto h k) g := by
  by_cases hg : h.Compatible g
  · by_cases hk : h.Compatible k
    · have e1 := (mergeInto_compat h g k).mpr hk
      have e2 := (mergeInto_compat h k g).mpr hg
      rw [mergeInto, if_pos e1, mergeInto.eq_def (mergeInto h k) g, if_pos e2]
      simp only [mergeInto, if_pos hg, if_pos hk]
      rw [zipWith_add_swap h.values g.values k.values]
      have : ((h.entries + g.entries) % 2 ^ 32 + k.entries) % 2 ^ 32 =
          ((h.entries + k.entries) % 2 ^ 32 + g.entries) % 2 ^ 32 := by
        rw [Nat.mod_add_mod, Nat.mod_add_mod]
        congr 1
        omega
      rw [this]
    · have e1 : ¬ (mergeInto h g).Compatible k := fun h' => hk ((mergeInto_compat h g k).mp h')
      rw [mergeInto, if_neg e1, mergeInto.eq_def h k, if_neg hk]
  · have e2 : ¬ (mergeInto h k).Compatible g := fun h' => hg ((mergeInto_compat h k g).mp h')
    rw [mergeInto.eq_def (mergeInto h k) g, if_neg e2, mergeInto.eq_def h g, if_neg hg]

theorem mergeAll_eq : ∀ (gs : List (Hist ℝ)) {h : Hist ℝ}, h.WF → (∀ g ∈ gs, g.WF) →
    gs.foldlM Hist.merge h = .ok (gs.foldl mergeInto h)
  | [], h, _, _ => rfl
  | g :: gs, h, hh, hg => by
    rw [List.foldlM_cons, Hist.merge_eq hh (hg g (by simp)), Res.ok_bind, List.foldl_cons]
    exact mergeAll_eq gs (mergeInto_wf hh (hg g (by simp))) (fun k hk => hg k (by simp [hk]))

/-- C49: any number of histograms, compatible or not, can be merged in any order with the same
result. -/
theorem C49_any_order {h : Hist ℝ} {gs gs' : List (Hist ℝ)} (hp : gs.Perm gs') (hh : h.WF)
    (hg : ∀ g ∈ gs, g.WF) :
    ∃ h', gs.foldlM Hist.merge h = .ok h' ∧ gs'.foldlM Hist.merge h = .ok h' := by
  refine ⟨_, mergeAll_eq gs hh hg, ?_⟩
  rw [mergeAll_eq gs' hh (fun g hg' => hg g (hp.mem_iff.mpr hg'))]
  have : RightCommutative (mergeInto) := ⟨mergeInto_swap⟩
  rw [hp.foldl_eq]

open Classical in
/-- C49 in closed form: after merging, bin `i` is the old content plus the sum of bin `i` of all
compatible histograms. -/
theorem C49_sum {h : Hist ℝ} (hh : h.WF) (gs : List (Hist ℝ)) (hg : ∀ g ∈ gs, g.WF) :
    ∃ h', gs.foldlM Hist.merge h = .ok h' ∧ ∀ i < h.nBins,
      h'.values[i]?.getD 0 = h.values[i]?.getD 0 +
        ((gs.filter (fun g => h.Compatible g)).map (fun g => g.values[i]?.getD 0)).sum := by
  refine ⟨_, mergeAll_eq gs hh hg, ?_⟩
  intro i hi
  induction gs generalizing h with
  | nil => simp
  | cons g gs ih =>
    rw [List.foldl_cons]
    have hgw := hg g (by simp)
    have := ih (mergeInto_wf hh hgw) (fun k hk => hg k (by simp [hk]))
      (by rw [(mergeInto_frame h g).1]; exact hi)
    rw [this]
    simp only [mergeInto_compat, List.filter_cons]
    by_cases hc : h.Compatible g
    · rw [if_pos (by simpa using hc), List.map_cons, List.sum_cons, ← add_assoc]
      congr 1
      rw [mergeInto, if_pos hc]
      dsimp only
      have l1 := hh.values
      have l2 := hgw.values
      have l3 := hc.1
      rw [List.getElem?_zipWith, List.getElem?_eq_getElem (by omega : i < h.values.length),
        List.getElem?_eq_getElem (by omega : i < g.values.length)]
      rfl
    · rw [if_neg (by simpa using hc), mergeInto, if_neg hc]

/-- Two compatible histograms and an incompatible one. -/
example : ∃ h g k : Hist ℝ, h.WF ∧ g.WF ∧ k.WF ∧ h.Compatible g ∧ ¬ h.Compatible k := by
  refine ⟨Hist.new "a" "Electron" "energy" 0 0 1 3 0, Hist.new "b" "Electron" "energy" 0 0 1 3 7,
    Hist.new "c" "Electron" "energy" 0 0 1 4 0, Hist.new_wf _ _ _ _ _ _ _ (by norm_num) (by norm_num),
    Hist.new_wf _ _ _ _ _ _ _ (by norm_num) (by norm_num),
    Hist.new_wf _ _ _ _ _ _ _ (by norm_num) (by norm_num), ⟨rfl, rfl, rfl⟩, ?_⟩
  rintro ⟨h, -, -⟩
  simp [Hist.new] at h

/-! ## C50 -/

/-- C50 is false: with one bin the centre is computed as `0 / 0` or `∞ · 0`, so no particle of any
energy is ever counted, whatever the range (real numbers extended by infinities and not-a-number). -/
theorem C50_refuted (name part type : String) (time : XR) (lo hi : ℝ) (g : Nat)
    (ps : List (Particle XR)) :
    ∃ h, ps.foldlM Hist.appParticle (Hist.new name part type time (.fin lo) (.fin hi) 1 g) = .ok h ∧
      h.centres = [XR.nan] ∧ h.values = [XR.fin 0] := by
  have hc : Hist.binCentres (XR.fin lo) (XR.fin hi) 1 = [XR.nan] := by
    have h0 : (XR.fin hi -. XR.fin lo) /. (Dbl.lit ((1 : Nat) : ℚ) -. Dbl.lit 1) =
        XR.infSign (hi - lo) := by
      rw [XR.sub_fin, XR.lit_eq, XR.lit_eq, XR.sub_fin]
      norm_num
      exact XR.div_zero _
    unfold Hist.binCentres
    rw [h0]
    have h1 : (Dbl.lit ((0 : Nat) : ℚ) : XR) *. XR.infSign (hi - lo) = XR.nan := by
      rw [XR.lit_eq]
      simp only [Nat.cast_zero, Rat.cast_zero]
      unfold XR.infSign
      split <;> [simp [Dbl.mul, XR.mul, XR.infSign]; split] <;> simp [Dbl.mul, XR.mul, XR.infSign]
    simp only [List.range_one, List.map_cons, List.map_nil, h1, XR.add_nan]
  suffices H : ∀ h : Hist XR, h.nBins = 1 → h.centres = [XR.nan] → h.values = [XR.fin 0] →
      ∃ h', ps.foldlM Hist.appParticle h = .ok h' ∧ h'.centres = [XR.nan] ∧
        h'.values = [XR.fin 0] by
    refine H _ rfl hc ?_
    simp [Hist.new]
  induction ps with
  | nil => intro h _ h2 h3; exact ⟨h, rfl, h2, h3⟩
  | cons p ps ih =>
    intro h h1 h2 h3
    have e : h.appParticle p = .ok { h with entries := Hist.incr h.entries } := by
      unfold Hist.appParticle Hist.count
      rw [if_neg (by omega)]
      dsimp only
      rw [h2, h1, rd_ok (by simp), Res.ok_bind]
      have hu : usub 1 1 = 0 := by rw [usub_of_le (by omega) (by norm_num)]
      rw [hu, rd_ok (by simp), Res.ok_bind]
      simp only [List.getElem_cons_zero, XR.nan_lt, Bool.false_and]
      cases h
      simp_all
    rw [List.foldlM_cons, e]
    exact ih _ h1 h2 h3

end QED
