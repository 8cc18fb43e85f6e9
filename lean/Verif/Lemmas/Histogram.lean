import Verif.Model.Sim
import Verif.Props.Numerics
import Mathlib.Algebra.BigOperators.Group.List.Basic
import Mathlib.Algebra.Order.BigOperators.Group.List

set_option autoImplicit false

/-! # Helper lemmas for histograms, over the reals -/

namespace QED

open Numerics

/-- The centre of bin `i` of a histogram with `n` bins from `lo` to `hi`. -/
noncomputable def binCentre (lo hi : ℝ) (n i : Nat) : ℝ := lo + i * ((hi - lo) / (n - 1))

/-- `x` lies strictly inside the range and bin `i` has the nearest centre (the upper one of two
equally near centres). -/
def InBin (lo hi : ℝ) (n i : Nat) (x : ℝ) : Prop :=
  lo < x ∧ x < hi ∧ i < n ∧
    (∀ j < n, |x - binCentre lo hi n i| ≤ |x - binCentre lo hi n j|) ∧
    (∀ j < n, |x - binCentre lo hi n j| = |x - binCentre lo hi n i| → j ≤ i)

theorem InBin.unique {lo hi x : ℝ} {n i j : Nat} (h : InBin lo hi n i x) (h' : InBin lo hi n j x) :
    i = j := by
  obtain ⟨_, _, hi, a, b⟩ := h
  obtain ⟨_, _, hj, c, d⟩ := h'
  have e : |x - binCentre _ _ n i| = |x - binCentre _ _ n j| := le_antisymm (a j hj) (c i hi)
  have h1 := b j hj e.symm
  have h2 := d i hi e
  omega

/-- The shape of a histogram made by the constructor: `n` bins from `lo` to `hi`. -/
structure Hist.Shape (h : Hist ℝ) (lo hi : ℝ) (n : Nat) : Prop where
  nBins : h.nBins = n
  centres : h.centres = (List.range n).map (binCentre lo hi n)
  values : h.values.length = n

theorem Hist.new_shape (name part type : String) (time lo hi : ℝ) (n g : Nat) :
    (Hist.new name part type time lo hi n g).Shape lo hi n := by
  refine ⟨rfl, ?_, by simp [Hist.new]⟩
  simp only [Hist.new, Hist.binCentres]
  apply List.map_congr_left
  intro i _
  simp [binCentre]

theorem binCentre_lt {lo hi : ℝ} (h : lo < hi) {n i j : Nat} (hn : 2 ≤ n) (hij : i < j) :
    binCentre lo hi n i < binCentre lo hi n j := by
  have hd : 0 < (hi - lo) / ((n : ℝ) - 1) := by
    apply div_pos (by linarith)
    have : (2 : ℝ) ≤ n := by exact_mod_cast hn
    linarith
  have : (i : ℝ) < j := by exact_mod_cast hij
  unfold binCentre
  nlinarith

theorem centres_sorted {lo hi : ℝ} (h : lo < hi) {n : Nat} (hn : 2 ≤ n) :
    ((List.range n).map (binCentre lo hi n)).Pairwise (· < ·) := by
  rw [List.pairwise_map]
  exact (List.pairwise_lt_range (n := n)).imp fun h' => binCentre_lt h hn h'

theorem binCentre_zero (lo hi : ℝ) (n : Nat) : binCentre lo hi n 0 = lo := by simp [binCentre]

theorem binCentre_last (lo hi : ℝ) {n : Nat} (hn : 2 ≤ n) : binCentre lo hi n (n - 1) = hi := by
  unfold binCentre
  rw [Nat.cast_sub (by omega)]
  have : ((n : ℝ) - 1) ≠ 0 := by
    have : (2 : ℝ) ≤ n := by exact_mod_cast hn
    linarith
  push_cast
  field_simp
  ring

open Classical in
/-- What one counted value does to a histogram. -/
theorem Hist.count_spec {h : Hist ℝ} {lo hi : ℝ} {n : Nat} (hs : h.Shape lo hi n) (hlt : lo < hi)
    (hn : 2 ≤ n) (hb : n < 2 ^ 32) (x : ℝ) :
    ∃ h', h.count x = .ok h' ∧ h'.Shape lo hi n ∧ h'.entries = Hist.incr h.entries ∧
      h'.name = h.name ∧ h'.type = h.type ∧ h'.particle = h.particle ∧ h'.time = h.time ∧
      (∀ (i : Nat) (v : ℝ), h.values[i]? = some v →
        h'.values[i]? = some (v + if InBin lo hi n i x then 1 else 0)) ∧
      h'.values.sum = h.values.sum + if lo < x ∧ x < hi then 1 else 0 := by
  obtain ⟨h1, h2, h3⟩ := hs
  have hlen : h.centres.length = n := by rw [h2]; simp
  have hget : ∀ i (hi' : i < h.centres.length), h.centres[i] = binCentre lo hi n i := by
    intro i hi'
    simp [h2]
  unfold Hist.count
  dsimp only
  rw [rd_ok (by omega : 0 < h.centres.length), Res.ok_bind, h1, usub_of_le (by omega) hb,
    rd_ok (by omega : n - 1 < h.centres.length), Res.ok_bind, hget, hget, binCentre_zero,
    binCentre_last lo hi hn]
  by_cases hin : lo < x ∧ x < hi
  · rw [if_pos (by simpa using hin)]
    have hsort : h.centres.Pairwise (· < ·) := by rw [h2]; exact centres_sorted hlt hn
    obtain ⟨i, hi1, hi2, hi3, hi4⟩ := C07_nearest hsort
      (by intro h0; rw [h0] at hlen; simp at hlen; omega) (by rw [hlen]; exact hb) x
    have hin' : InBin lo hi n i x := by
      refine ⟨hin.1, hin.2, by omega, ?_, ?_⟩
      · intro j hj
        have := hi3 j (by omega)
        rwa [hget, hget] at this
      · intro j hj
        have := hi4 j (by omega)
        rwa [hget, hget] at this
    rw [hi2, Res.ok_bind, rd_ok (by omega : i < h.values.length), Res.ok_bind]
    refine ⟨_, rfl, ⟨rfl, h2, by simp [h3]⟩, rfl, rfl, rfl, rfl, rfl, ?_, ?_⟩
    · intro j v hv
      dsimp only
      rw [List.getElem?_set]
      by_cases hj : i = j
      · subst hj
        rw [if_pos rfl, if_pos (by omega), if_pos hin']
        have : h.values[i]? = some h.values[i] := List.getElem?_eq_getElem (by omega)
        rw [this] at hv
        cases hv
        simp
      · rw [if_neg hj, hv, if_neg (fun h' => hj (hin'.unique h'))]
        simp
    · dsimp only
      rw [if_pos hin, List.sum_set', dif_pos (by omega)]
      simp
  · rw [if_neg (by simpa using hin)]
    refine ⟨_, rfl, ⟨rfl, h2, h3⟩, rfl, rfl, rfl, rfl, rfl, ?_, ?_⟩
    · intro j v hv
      rw [if_neg (fun h' => hin ⟨h'.1, h'.2.1⟩)]
      simpa using hv
    · rw [if_neg hin]; simp


open Classical in
/-- What a sequence of counted values does to a histogram. -/
theorem Hist.counts_spec {lo hi : ℝ} {n : Nat} (hlt : lo < hi) (hn : 2 ≤ n) (hb : n < 2 ^ 32) :
    ∀ (xs : List ℝ) {h : Hist ℝ}, h.Shape lo hi n →
    ∃ h', xs.foldlM Hist.count h = .ok h' ∧ h'.Shape lo hi n ∧
      (h.entries < 2 ^ 32 → h'.entries = (h.entries + xs.length) % 2 ^ 32) ∧
      h'.particle = h.particle ∧
      (∀ (i : Nat) (v : ℝ), h.values[i]? = some v →
        h'.values[i]? = some (v + xs.countP (fun x => InBin lo hi n i x))) ∧
      h'.values.sum = h.values.sum + xs.countP (fun x => lo < x ∧ x < hi) := by
  intro xs
  induction xs with
  | nil =>
    intro h hs
    exact ⟨h, rfl, hs, by intro he; rw [List.length_nil, Nat.add_zero, Nat.mod_eq_of_lt he], rfl, by simp, by simp⟩
  | cons x xs ih =>
    intro h hs
    obtain ⟨h1, e1, s1, n1, -, -, p1, -, v1, t1⟩ := Hist.count_spec hs hlt hn hb x
    obtain ⟨h2, e2, s2, n2, p2, v2, t2⟩ := ih s1
    refine ⟨h2, ?_, s2, ?_, p2.trans p1, ?_, ?_⟩
    · rw [List.foldlM_cons, e1]; exact e2
    · intro he
      rw [n2 (by rw [n1, Hist.incr]; exact Nat.mod_lt _ (by norm_num)), n1, Hist.incr,
        List.length_cons, Nat.mod_add_mod]
      congr 1
      omega
    · intro i v hv
      rw [v2 i _ (v1 i v hv), List.countP_cons]
      congr 1
      by_cases hi' : InBin lo hi n i x <;> simp [hi'] <;> ring
    · rw [t2, t1, List.countP_cons]
      by_cases hi' : lo < x ∧ x < hi
      · simp [hi']; ring
      · rw [if_neg hi', if_neg (by simpa using hi')]; simp

theorem Hist.appParticles_eq {lo hi : ℝ} {n : Nat} (hlt : lo < hi) (hn : 2 ≤ n) (hb : n < 2 ^ 32) :
    ∀ (ps : List (Particle ℝ)) {h : Hist ℝ}, h.Shape lo hi n →
    ps.foldlM Hist.appParticle h = (ps.map Particle.energy).foldlM Hist.count h := by
  intro ps
  induction ps with
  | nil => intro h _; rfl
  | cons p ps ih =>
    intro h hs
    obtain ⟨h1, e1, s1, -⟩ := Hist.count_spec hs hlt hn hb p.energy
    rw [List.map_cons, List.foldlM_cons, List.foldlM_cons, Hist.appParticle,
      if_neg (by rw [hs.nBins]; omega), e1]
    exact ih s1

theorem Hist.countAll_eq : ∀ (ps : List (Particle ℝ)) (h : Hist ℝ),
    h.countAll ps = (ps.map Particle.energy).foldlM Hist.count h := by
  intro ps
  induction ps with
  | nil => intro h; rfl
  | cons p ps ih =>
    intro h
    rw [List.map_cons, List.foldlM_cons, Hist.countAll]
    congr 1
    funext h'
    exact ih h'

theorem fillHist_eq {lo hi : ℝ} {n : Nat} (hlt : lo < hi) (hn : 2 ≤ n) (hb : n < 2 ^ 32) :
    ∀ (ps : List (Particle ℝ)) {h : Hist ℝ}, h.Shape lo hi n →
    fillHist h ps = ((ps.filter (fun p => h.particle = p.name)).map Particle.energy).foldlM
      Hist.count h := by
  intro ps
  induction ps with
  | nil => intro h _; rfl
  | cons p ps ih =>
    intro h hs
    rw [fillHist, List.filter_cons]
    by_cases hp : h.particle = p.name
    · obtain ⟨h1, e1, s1, -, -, -, p1, -⟩ := Hist.count_spec hs hlt hn hb p.energy
      rw [if_pos hp, if_pos (by simpa using hp), List.map_cons, List.foldlM_cons, Hist.appParticle,
        if_neg (by rw [hs.nBins]; omega), e1]
      have := ih s1
      rw [p1] at this
      exact this
    · rw [if_neg hp, if_neg (by simpa using hp)]
      exact ih hs

theorem Hist.total_real (h : Hist ℝ) : h.total = h.values.sum := by
  rw [List.sum_eq_foldl]
  simp [Hist.total]

/-- Bins that can be merged: as many bins, the same first and last centre. -/
def Hist.Compatible (h g : Hist ℝ) : Prop :=
  h.nBins = g.nBins ∧ h.centres[0]? = g.centres[0]? ∧
    h.centres[h.nBins - 1]? = g.centres[g.nBins - 1]?

/-- At least one bin, and arrays of the declared length. -/
structure Hist.WF (h : Hist ℝ) : Prop where
  pos : 0 < h.nBins
  bound : h.nBins < 2 ^ 32
  centres : h.centres.length = h.nBins
  values : h.values.length = h.nBins

theorem Hist.new_wf (name part type : String) (time lo hi : ℝ) {n : Nat} (g : Nat) (hn : 0 < n)
    (hb : n < 2 ^ 32) : (Hist.new name part type time lo hi n g).WF := by
  refine ⟨hn, hb, ?_, ?_⟩ <;> simp [Hist.new, Hist.binCentres]

theorem Hist.addBins_eq : ∀ (a b : List ℝ), Hist.addBins a b = List.zipWith (· + ·) a b
  | [], _ => by simp [Hist.addBins]
  | _ :: _, [] => by simp [Hist.addBins]
  | a :: as, b :: bs => by simp [Hist.addBins, Hist.addBins_eq as bs]

open Classical in
theorem Hist.merge_eq {h g : Hist ℝ} (hh : h.WF) (hg : g.WF) :
    h.merge g = .ok (if h.Compatible g then
      { h with entries := (h.entries + g.entries) % 2 ^ 32
               values := List.zipWith (· + ·) h.values g.values } else h) := by
  unfold Hist.merge Hist.Compatible
  by_cases hn : h.nBins = g.nBins
  · have a1 := hh.pos
    have a2 := hh.centres
    have a3 := hg.centres
    rw [if_pos hn, rd_ok (by omega : 0 < h.centres.length), Res.ok_bind,
      rd_ok (by omega : 0 < g.centres.length), Res.ok_bind, usub_of_le (by omega) hh.bound]
    rw [List.getElem?_eq_getElem (by omega : 0 < h.centres.length),
      List.getElem?_eq_getElem (by omega : 0 < g.centres.length)]
    by_cases h0 : h.centres[0] = g.centres[0]
    · rw [if_pos (by simpa using h0), rd_ok (by omega : h.nBins - 1 < h.centres.length), Res.ok_bind,
        rd_ok (by omega : h.nBins - 1 < g.centres.length), Res.ok_bind,
        List.getElem?_eq_getElem (by omega : h.nBins - 1 < h.centres.length),
        List.getElem?_eq_getElem (by omega : g.nBins - 1 < g.centres.length)]
      have hix : g.centres[h.nBins - 1] = g.centres[g.nBins - 1] := by simp only [hn]
      by_cases h1 : h.centres[h.nBins - 1] = g.centres[h.nBins - 1]
      · rw [if_pos (by simpa using h1), if_pos ⟨hn, by rw [h0], by rw [h1, hix]⟩, Hist.addBins_eq]
      · rw [if_neg (by simpa using h1), if_neg]
        rintro ⟨-, -, h'⟩
        rw [Option.some_inj] at h'
        exact h1 (h'.trans hix.symm)
    · rw [if_neg (by simpa using h0), if_neg]
      rintro ⟨-, h', -⟩
      exact h0 (by simpa using h')
  · rw [if_neg hn, if_neg (fun h' => hn h'.1)]

end QED
