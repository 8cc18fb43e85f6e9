import Verif.Lemmas.F64
import Verif.Lemmas.Histogram
import Verif.Spec.Doubles

set_option autoImplicit false

/-! # Helper lemmas for histograms of doubles -/

namespace QED

open Dbl Numerics

namespace F64

theorem sub_val (a b : F64) : (a -. b).1 = rnd (a.1 -. b.1) := rfl

theorem lt_val (a b : F64) : (a <. b) = (a.1 <. b.1) := rfl

theorem rnd_fin {x : ℝ} (h : |x| < 2 ^ 1023) : rnd (.fin x) = .fin (round x) := by
  have hf : Form ((2 : ℝ) ^ 1023) := by
    have := form_zpow (e := 1023) (by norm_num)
    rwa [zpow_ofNat] at this
  have h1 := round_le hf (abs_lt.mp h).2.le
  have h2 := le_round hf.neg (abs_lt.mp h).1.le
  simp only [rnd]
  rw [if_pos]
  refine (abs_le.mpr ⟨h2, h1⟩).trans_lt ?_
  exact pow_lt_pow_right₀ (by norm_num) (by norm_num)

theorem sub_small {x y : ℝ} (hx : |x| ≤ 2 ^ 1021) (hy : |y| ≤ 2 ^ 1021) : |x - y| < 2 ^ 1023 := by
  have h : (2 : ℝ) ^ 1021 + 2 ^ 1021 < 2 ^ 1023 := by
    have e : (2 : ℝ) ^ 1023 = 2 ^ 1021 * 2 ^ 2 := by rw [← pow_add]
    have hp : (0 : ℝ) < 2 ^ 1021 := by positivity
    generalize (2 : ℝ) ^ 1021 = P at *
    rw [e]
    clear e
    linarith
  have := abs_sub x y
  exact (this.trans (add_le_add hx hy)).trans_lt h

/-- Counting up by one in doubles stops at `2 ^ 53`. -/
theorem succ_nat (k : ℕ) : fin ((min k (2 ^ 53) : ℕ) : ℝ) (rep_nat (min_le_right _ _)) +. lit 1 =
    fin ((min (k + 1) (2 ^ 53) : ℕ) : ℝ) (rep_nat (min_le_right _ _)) := by
  have h1 : Rep ((1 : ℚ) : ℝ) := by simpa using rep_nat (n := 1) (by norm_num)
  rw [lit_rep h1]
  refine add_round _ _ _ ?_
  rw [Rat.cast_one]
  by_cases hk : k < 2 ^ 53
  · rw [min_eq_left (by omega), min_eq_left (by omega)]
    have := round_form_eq (rep_nat (n := k + 1) (by omega)).1
    push_cast at this ⊢
    exact this
  · rw [min_eq_right (by omega), min_eq_right (by omega)]
    have := round_normal (x := (2 ^ 53 : ℕ) + 1) (m := 2 ^ 52) (e := 1) (by norm_num)
      (by norm_num) (by norm_num) (Or.inr ⟨by norm_num, ⟨2 ^ 51, by norm_num⟩⟩)
    rw [this]
    norm_num

end F64

section
variable {D : Type} [Dbl D]

/-- `scanLow` after a leading run of exactly `j` samples below the query, in any arithmetic. -/
theorem scanLow_run {q : D} : ∀ (s : List D) (k low j : Nat) (hj : j ≤ s.length),
    (∀ m (hm : m < j), (s[m]'(hm.trans_le hj) <. q) = true) →
    (∀ h : j < s.length, (s[j] <. q) = false) →
    scanLow q s k low = if j = 0 then low else k + j - 1
  | [], k, low, j, hj, _, _ => by
    have : j = 0 := by simpa using hj
    simp [scanLow, this]
  | a :: ss, k, low, 0, _, _, h => by
    have : (a <. q) = false := h (by simp)
    simp [scanLow, this]
  | a :: ss, k, low, j + 1, hj, h, h' => by
    have h0 : (a <. q) = true := h 0 (Nat.succ_pos _)
    have := scanLow_run (q := q) ss (k + 1) k j (by simpa using hj)
      (fun m hm => by simpa using h (m + 1) (Nat.succ_lt_succ hm))
      (fun hh => h' (Nat.succ_lt_succ hh))
    rw [scanLow, if_pos h0, this]
    split <;> simp_all

end

/-- A histogram of doubles whose `n` bin centres have the finite values `c`. -/
structure Hist.Dbls (h : Hist F64) (c : Nat → ℝ) (n : Nat) : Prop where
  nBins : h.nBins = n
  length : h.centres.length = n
  centres : ∀ i (hi : i < h.centres.length), h.centres[i].1 = .fin (c i)
  values : h.values.length = n

/-- Non-decreasing bin centres of moderate size. -/
structure Centres (c : Nat → ℝ) (n : Nat) : Prop where
  two : 2 ≤ n
  small : n < 2 ^ 32
  mono : ∀ i j, i ≤ j → j < n → c i ≤ c j
  size : ∀ i < n, |c i| ≤ 2 ^ 1021

theorem Centres.bracket {c : Nat → ℝ} {n : Nat} (hc : Centres c n) {x : ℝ} (h0 : c 0 < x)
    (h1 : x < c (n - 1)) : ∃ k, k + 1 < n ∧ c k < x ∧ x ≤ c (k + 1) := by
  by_contra hcon
  have hcon' : ∀ k, k + 1 < n → c k < x → c (k + 1) < x := by
    intro k hk h
    by_contra hh
    exact hcon ⟨k, hk, h, not_lt.mp hh⟩
  have all : ∀ k, k < n → c k < x := by
    intro k
    induction k with
    | zero => intro _; exact h0
    | succ k ih => intro hk; exact hcon' k hk (ih (by omega))
  exact absurd (all (n - 1) (by have := hc.two; omega)) (not_lt.mpr h1.le)

theorem Centres.bracket_unique {c : Nat → ℝ} {n : Nat} (hc : Centres c n) {x : ℝ} {k k' : Nat}
    (hk : k + 1 < n) (hk' : k' + 1 < n) (h1 : c k < x) (h2 : x ≤ c (k + 1)) (h1' : c k' < x)
    (h2' : x ≤ c (k' + 1)) : k = k' := by
  rcases lt_trichotomy k k' with h | h | h
  · have := hc.mono (k + 1) k' (by omega) (by omega)
    linarith
  · exact h
  · have := hc.mono (k' + 1) k (by omega) (by omega)
    linarith

theorem RoundedBin.unique {c : Nat → ℝ} {n i j : Nat} {x : ℝ} (hc : Centres c n)
    (h : RoundedBin c n i x) (h' : RoundedBin c n j x) : i = j := by
  obtain ⟨-, -, k, hk, a, b, d⟩ := h
  obtain ⟨-, -, k', hk', a', b', d'⟩ := h'
  obtain rfl := hc.bracket_unique hk hk' a b a' b'
  rcases d with ⟨rfl, d⟩ | ⟨rfl, d⟩ <;> rcases d' with ⟨rfl, d'⟩ | ⟨rfl, d'⟩
  · rfl
  · exact absurd d (not_lt.mpr d')
  · exact absurd d' (not_lt.mpr d)
  · rfl

theorem FallsIn.unique {c : Nat → ℝ} {n i j : Nat} {a : F64} (hc : Centres c n)
    (h : FallsIn c n i a) (h' : FallsIn c n j a) : i = j := by
  obtain ⟨x, hx, h⟩ := h
  obtain ⟨y, hy, h'⟩ := h'
  rw [hx] at hy
  cases hy
  exact h.unique hc h'

theorem RoundedBin.lt {c : Nat → ℝ} {n i : Nat} {x : ℝ} (h : RoundedBin c n i x) : i < n := by
  obtain ⟨-, -, k, hk, -, -, ⟨rfl, -⟩ | ⟨rfl, -⟩⟩ := h <;> omega

/-- The index found for a number strictly inside the range. -/
theorem arrayIndex_dbls {h : Hist F64} {c : Nat → ℝ} {n : Nat} (hs : h.Dbls c n) (hc : Centres c n)
    {a : F64} {x : ℝ} (hx : a.1 = .fin x) (h0 : c 0 < x) (h1 : x < c (n - 1)) :
    ∃ i, arrayIndex h.centres a = .ok i ∧ RoundedBin c n i x := by
  obtain ⟨k, hk, hl, hr⟩ := hc.bracket h0 h1
  have hlen := hs.length
  have hcmp : ∀ m (hm : m < h.centres.length), (h.centres[m] <. a) = decide (c m < x) := by
    intro m hm
    rw [F64.lt_val, hs.centres m hm, hx]
    exact XR.lt_fin _ _
  have hscan : scanLow a h.centres 0 0 = k := by
    rw [scanLow_run h.centres 0 0 (k + 1) (by omega)]
    · simp
    · intro m hm
      rw [hcmp m (by omega), decide_eq_true_eq]
      exact (hc.mono m k (by omega) (by omega)).trans_lt hl
    · intro hh
      rw [hcmp (k + 1) hh, decide_eq_false_iff_not]
      exact not_lt.mpr hr
  have b0 := hc.size 0 (by omega)
  have b1 := hc.size (n - 1) (by omega)
  have bx : |x| ≤ 2 ^ 1021 :=
    abs_le.mpr ⟨(abs_le.mp b0).1.trans h0.le, h1.le.trans (abs_le.mp b1).2⟩
  have e1 : (a -. h.centres[k]'(by omega)).1 = .fin (F64.round (x - c k)) := by
    rw [F64.sub_val, hs.centres k (by omega), hx]
    exact F64.rnd_fin (F64.sub_small bx (hc.size k (by omega)))
  have e2 : (h.centres[k + 1]'(by omega) -. a).1 = .fin (F64.round (c (k + 1) - x)) := by
    rw [F64.sub_val, hs.centres (k + 1) (by omega), hx]
    exact F64.rnd_fin (F64.sub_small (hc.size (k + 1) hk) bx)
  have hlt : ((a -. h.centres[k]'(by omega)) <. (h.centres[k + 1]'(by omega) -. a)) =
      decide (F64.round (x - c k) < F64.round (c (k + 1) - x)) := by
    rw [F64.lt_val, e1, e2]
    exact XR.lt_fin _ _
  have hus : usub h.centres.length 1 = n - 1 := by
    rw [hlen, usub_of_le (by have := hc.two; omega) hc.small]
  have hind : arrayIndex h.centres a =
      .ok (if F64.round (x - c k) < F64.round (c (k + 1) - x) then k else k + 1) := by
    unfold arrayIndex
    dsimp only
    rw [hscan, hus, if_pos (by omega), rd_ok (by omega : k < h.centres.length), Res.ok_bind,
      rd_ok (by omega : k + 1 < h.centres.length), Res.ok_bind, hlt]
    by_cases hd : F64.round (x - c k) < F64.round (c (k + 1) - x) <;> simp [hd]
  refine ⟨_, hind, h0, h1, k, hk, hl, hr, ?_⟩
  split
  · next hd => exact Or.inl ⟨rfl, hd⟩
  · next hd => exact Or.inr ⟨rfl, not_lt.mp hd⟩

/-- A bin that has been counted up `k` times from zero. -/
def Counted (v : F64) (k : Nat) : Prop := v.1 = .fin ((min k (2 ^ 53) : ℕ) : ℝ)

theorem Counted.succ {v : F64} {k : Nat} (h : Counted v k) : Counted (v +. lit 1) (k + 1) := by
  obtain rfl : v = F64.fin ((min k (2 ^ 53) : ℕ) : ℝ) (F64.rep_nat (min_le_right _ _)) :=
    Subtype.ext h
  rw [F64.succ_nat]
  rfl

theorem counted_zero : Counted (lit 0) 0 := by
  have h0 : F64.Rep ((0 : ℚ) : ℝ) := by simpa using F64.rep_nat (n := 0) (by norm_num)
  rw [F64.lit_rep h0]
  show XR.fin _ = XR.fin _
  simp

open Classical in
/-- What one counted number does to a histogram of doubles. -/
theorem Hist.count_dbls {h : Hist F64} {c : Nat → ℝ} {n : Nat} (hs : h.Dbls c n) (hc : Centres c n)
    (a : F64) :
    ∃ h', h.count a = .ok h' ∧ h'.Dbls c n ∧ h'.particle = h.particle ∧
      (∀ (i : Nat) (v : F64) (k : Nat), h.values[i]? = some v → Counted v k →
        ∃ v', h'.values[i]? = some v' ∧ Counted v' (k + if FallsIn c n i a then 1 else 0)) := by
  have h2 := hc.two
  have hlen := hs.length
  unfold Hist.count
  dsimp only
  rw [rd_ok (by omega : 0 < h.centres.length), Res.ok_bind, hs.nBins, usub_of_le (by omega) hc.small,
    rd_ok (by omega : n - 1 < h.centres.length), Res.ok_bind]
  by_cases hin : ∃ x, a.1 = .fin x ∧ c 0 < x ∧ x < c (n - 1)
  · obtain ⟨x, hx, h0, h1⟩ := hin
    have t1 : (h.centres[0]'(by omega) <. a) = true := by
      rw [F64.lt_val, hs.centres 0 (by omega), hx]
      exact (XR.lt_fin _ _).trans (decide_eq_true h0)
    have t2 : (a <. h.centres[n - 1]'(by omega)) = true := by
      rw [F64.lt_val, hs.centres (n - 1) (by omega), hx]
      exact (XR.lt_fin _ _).trans (decide_eq_true h1)
    obtain ⟨i, hi, hbin⟩ := arrayIndex_dbls hs hc hx h0 h1
    have hil : i < h.values.length := by rw [hs.values]; exact hbin.lt
    rw [t1, t2, Bool.and_true, if_pos rfl, hi, Res.ok_bind, rd_ok hil, Res.ok_bind]
    refine ⟨_, rfl, ⟨hs.nBins.symm ▸ rfl, hs.length, hs.centres, by simpa using hs.values⟩, rfl, ?_⟩
    intro j v k hv hk
    dsimp only
    rw [List.getElem?_set]
    by_cases hj : i = j
    · subst hj
      rw [List.getElem?_eq_getElem hil] at hv
      cases hv
      rw [if_pos rfl, if_pos hil, if_pos ⟨x, hx, hbin⟩]
      exact ⟨_, rfl, hk.succ⟩
    · rw [if_neg hj, if_neg]
      · exact ⟨v, hv, hk⟩
      · intro hf
        exact hj (FallsIn.unique hc ⟨x, hx, hbin⟩ hf)
  · have hf : ((h.centres[0]'(by omega) <. a) && (a <. h.centres[n - 1]'(by omega))) = false := by
      rw [F64.lt_val, F64.lt_val, hs.centres 0 (by omega), hs.centres (n - 1) (by omega)]
      cases ha : a.1 with
      | fin x =>
        have e1 : (XR.fin (c 0) <. XR.fin x) = decide (c 0 < x) := XR.lt_fin _ _
        have e2 : (XR.fin x <. XR.fin (c (n - 1))) = decide (x < c (n - 1)) := XR.lt_fin _ _
        rw [e1, e2]
        by_contra hcon
        simp only [Bool.not_eq_false, Bool.and_eq_true, decide_eq_true_eq] at hcon
        exact hin ⟨x, ha, hcon⟩
      | pinf => exact Bool.and_false _
      | ninf => rfl
      | nan => rfl
    rw [hf, if_neg (by simp)]
    refine ⟨_, rfl, ⟨hs.nBins.symm ▸ rfl, hs.length, hs.centres, hs.values⟩, rfl, ?_⟩
    intro j v k hv hk
    rw [if_neg]
    · exact ⟨v, hv, hk⟩
    · rintro ⟨x, hx, h0, h1, -⟩
      exact hin ⟨x, hx, h0, h1⟩

open Classical in
/-- What a sequence of counted numbers does to a histogram of doubles. -/
theorem Hist.counts_dbls {c : Nat → ℝ} {n : Nat} (hc : Centres c n) :
    ∀ (as : List F64) {h : Hist F64}, h.Dbls c n →
    ∃ h', as.foldlM Hist.count h = .ok h' ∧ h'.Dbls c n ∧ h'.particle = h.particle ∧
      (∀ (i : Nat) (v : F64) (k : Nat), h.values[i]? = some v → Counted v k →
        ∃ v', h'.values[i]? = some v' ∧ Counted v' (k + as.countP (fun a => FallsIn c n i a))) := by
  intro as
  induction as with
  | nil =>
    intro h hs
    exact ⟨h, rfl, hs, rfl, fun i v k hv hk => ⟨v, hv, by simpa using hk⟩⟩
  | cons a as ih =>
    intro h hs
    obtain ⟨h1, e1, s1, p1, v1⟩ := Hist.count_dbls hs hc a
    obtain ⟨h2, e2, s2, p2, v2⟩ := ih s1
    refine ⟨h2, by rw [List.foldlM_cons, e1]; exact e2, s2, p2.trans p1, ?_⟩
    intro i v k hv hk
    obtain ⟨w, hw, hk'⟩ := v1 i v k hv hk
    obtain ⟨w', hw', hk''⟩ := v2 i w _ hw hk'
    refine ⟨w', hw', ?_⟩
    rw [List.countP_cons]
    convert hk'' using 1
    by_cases hi' : FallsIn c n i a <;> simp [hi'] <;> ring

theorem fillHist_dbls {c : Nat → ℝ} {n : Nat} (hc : Centres c n) :
    ∀ (ps : List (Particle F64)) {h : Hist F64}, h.Dbls c n →
    fillHist h ps = ((ps.filter (fun p => h.particle = p.name)).map Particle.energy).foldlM
      Hist.count h := by
  intro ps
  induction ps with
  | nil => intro h _; rfl
  | cons p ps ih =>
    intro h hs
    rw [fillHist, List.filter_cons]
    by_cases hp : h.particle = p.name
    · obtain ⟨h1, e1, s1, p1, -⟩ := Hist.count_dbls hs hc p.energy
      rw [if_pos hp, if_pos (by simpa using hp), List.map_cons, List.foldlM_cons, Hist.appParticle,
        if_neg (by rw [hs.nBins]; have := hc.two; omega), e1]
      have := ih s1
      rw [p1] at this
      exact this
    · rw [if_neg hp, if_neg (by simpa using hp)]
      exact ih hs

/-! ## Bin centres made by the constructor -/

namespace F64

theorem mul_val (a b : F64) : (a *. b).1 = rnd (a.1 *. b.1) := rfl

theorem div_val (a b : F64) : (a /. b).1 = rnd (a.1 /. b.1) := rfl

/-- The relative error of rounding, with an absolute error for subnormal numbers. -/
theorem round_rel (x : ℝ) : |round x - x| ≤ 2 ^ (-53 : ℤ) * |x| + 2 ^ (-1075 : ℤ) := by
  have h := round_error x
  have e1 : (2 : ℝ) ^ (-1074 : ℤ) = 2 * 2 ^ (-1075 : ℤ) := by
    rw [show (-1074 : ℤ) = 1 + -1075 by norm_num, zpow_add₀ (by norm_num), zpow_one]
  have hp := two_zpow_pos (-1075)
  by_cases hx : x = 0
  · subst hx
    simp
  have hpos : 0 < |x| := abs_pos.mpr hx
  have hexp : expo x = max (Int.log 2 |x| - 52) (-1074) := rfl
  rcases le_total (Int.log 2 |x| - 52) (-1074) with hc | hc
  · rw [hexp, max_eq_right hc, e1] at h
    have := mul_nonneg (two_zpow_pos (-53)).le hpos.le
    linarith
  · rw [hexp, max_eq_left hc] at h
    have hl : (2 : ℝ) ^ Int.log 2 |x| ≤ |x| := by
      have := Int.zpow_log_le_self (b := 2) (r := |x|) (by norm_num) hpos
      exact_mod_cast this
    have e2 : (2 : ℝ) ^ (Int.log 2 |x| - 52) / 2 = 2 ^ (-53 : ℤ) * 2 ^ Int.log 2 |x| := by
      rw [← zpow_add₀ (by norm_num), div_eq_mul_inv, ← zpow_neg_one, ← zpow_add₀ (by norm_num)]
      congr 1
      ring
    rw [e2] at h
    have := mul_le_mul_of_nonneg_left hl (two_zpow_pos (-53)).le
    linarith

end F64

/-- The step between bin centres, in doubles. -/
noncomputable def dblDelta (lo hi : ℝ) (n : Nat) : ℝ := F64.round (F64.round (hi - lo) / (n - 1))

/-- Bin centre `i`, in doubles. -/
noncomputable def dblCentre (lo hi : ℝ) (n i : Nat) : ℝ :=
  F64.round (lo + F64.round (i * dblDelta lo hi n))

theorem dblDelta_nonneg {lo hi : ℝ} (h : lo ≤ hi) {n : Nat} (hn : 2 ≤ n) : 0 ≤ dblDelta lo hi n := by
  have h2 : (2 : ℝ) ≤ n := by exact_mod_cast hn
  exact F64.le_round F64.form_zero (div_nonneg (F64.le_round F64.form_zero (by linarith)) (by linarith))

theorem dblCentre_mono {lo hi : ℝ} (h : lo ≤ hi) {n i j : Nat} (hn : 2 ≤ n) (hij : i ≤ j) :
    dblCentre lo hi n i ≤ dblCentre lo hi n j := by
  have hd := dblDelta_nonneg h hn
  have : (i : ℝ) ≤ j := by exact_mod_cast hij
  have := F64.round_mono (mul_le_mul_of_nonneg_right this hd)
  exact F64.round_mono (by linarith)

/-- Bin centres in doubles are close to the exact ones; also the intermediate results are bounded. -/
theorem dblCentre_error {lo hi : ℝ} (h : lo ≤ hi) {n i : Nat} (hn : 2 ≤ n) (hi' : i < n) :
    |dblCentre lo hi n i - binCentre lo hi n i| ≤
      2 ^ (-50 : ℤ) * (|lo| + |hi|) + (2 * n + 10) * 2 ^ (-1075 : ℤ) ∧
    |F64.round (hi - lo)| ≤ 2 * (|lo| + |hi|) + 1 ∧ |dblDelta lo hi n| ≤ 4 * (|lo| + |hi|) + 4 ∧
    |(i : ℝ) * dblDelta lo hi n| ≤ 4 * (|lo| + |hi|) + n ∧
    |F64.round (i * dblDelta lo hi n)| ≤ 8 * (|lo| + |hi|) + 2 * n + 1 := by
  have h2 : (2 : ℝ) ≤ n := by exact_mod_cast hn
  have hi0 : (0 : ℝ) ≤ i := by positivity
  have hin : (i : ℝ) ≤ n - 1 := by
    have : (i : ℝ) + 1 ≤ n := by exact_mod_cast hi'
    linarith
  set u : ℝ := 2 ^ (-53 : ℤ) with hu
  set t : ℝ := 2 ^ (-1075 : ℤ) with ht
  have hu0 : 0 < u := F64.two_zpow_pos _
  have hu1 : u ≤ 1 / 1000 := by rw [hu]; norm_num
  have ht0 : 0 < t := F64.two_zpow_pos _
  have ht1 : t ≤ 1 / 1000 := by
    have : (2 : ℝ) ^ (-1075 : ℤ) ≤ 2 ^ (-10 : ℤ) := zpow_le_zpow_right₀ (by norm_num) (by norm_num)
    rw [ht]
    exact this.trans (by norm_num)
  have h8 : (2 : ℝ) ^ (-50 : ℤ) = 8 * u := by rw [hu]; norm_num
  rw [h8]
  set M := |lo| + |hi| with hM
  have hM0 : 0 ≤ M := by positivity
  have hS0 : 0 ≤ hi - lo := by linarith
  have hSM : hi - lo ≤ M := by
    have := le_abs_self hi
    have := neg_abs_le lo
    linarith
  obtain ⟨S, hS⟩ : ∃ S, S = hi - lo := ⟨_, rfl⟩
  have hbc : binCentre lo hi n i = lo + i * (S / (n - 1)) := by rw [hS]; rfl
  rw [hbc]
  unfold dblCentre
  rw [← hS] at hS0 hSM ⊢
  -- the range
  have hrel : ∀ x, |F64.round x - x| ≤ u * |x| + t := F64.round_rel
  clear_value u t
  clear hu ht h8
  have r0 := hrel S
  rw [abs_of_nonneg hS0] at r0
  have p0 : 0 ≤ F64.round S := F64.le_round F64.form_zero hS0
  obtain ⟨R, hR⟩ : ∃ R, R = F64.round S := ⟨_, rfl⟩
  rw [← hR] at r0 p0 ⊢
  obtain ⟨r0a, r0b⟩ := abs_le.mp r0
  -- the step
  have q : (0 : ℝ) < n - 1 := by linarith
  have r1 := hrel (R / (n - 1))
  have hdel : dblDelta lo hi n = F64.round (R / (n - 1)) := by unfold dblDelta; rw [hR, hS]
  have p1 := dblDelta_nonneg h hn
  obtain ⟨Δ, hΔ⟩ : ∃ Δ, Δ = dblDelta lo hi n := ⟨_, rfl⟩
  rw [← hdel, ← hΔ, abs_of_nonneg (div_nonneg p0 q.le)] at r1
  rw [← hΔ] at p1 ⊢
  obtain ⟨r1a, r1b⟩ := abs_le.mp r1
  obtain ⟨d, hd⟩ : ∃ d, d = R / (n - 1) := ⟨_, rfl⟩
  have hd0 : 0 ≤ d := by rw [hd]; exact div_nonneg p0 q.le
  have hdR : d * (n - 1) = R := by rw [hd]; field_simp
  rw [← hd] at r1a r1b
  obtain ⟨e, he⟩ : ∃ e, e = S / ((n : ℝ) - 1) := ⟨_, rfl⟩
  have he0 : 0 ≤ e := by rw [he]; exact div_nonneg hS0 q.le
  have heS : e * (n - 1) = S := by rw [he]; field_simp
  rw [← he]
  have hide : (i : ℝ) * d ≤ R := by rw [← hdR, mul_comm d]; exact mul_le_mul_of_nonneg_right hin hd0
  have hiee : (i : ℝ) * e ≤ S := by rw [← heS, mul_comm e]; exact mul_le_mul_of_nonneg_right hin he0
  have huS : u * S ≤ 1 / 1000 * S := mul_le_mul_of_nonneg_right hu1 hS0
  have huR : u * R ≤ 1 / 1000 * R := mul_le_mul_of_nonneg_right hu1 p0
  have hRS : R ≤ S + u * S + t := by linarith
  -- i times the difference of the steps
  have k1 : |(i : ℝ) * Δ - i * d| ≤ u * R + (n - 1) * t := by
    rw [← mul_sub, abs_mul, abs_of_nonneg hi0]
    calc (i : ℝ) * |Δ - d| ≤ i * (u * d + t) := mul_le_mul_of_nonneg_left (abs_le.mpr ⟨r1a, r1b⟩) hi0
      _ = u * (i * d) + i * t := by ring
      _ ≤ u * R + (n - 1) * t := add_le_add (mul_le_mul_of_nonneg_left hide hu0.le)
          (mul_le_mul_of_nonneg_right hin ht0.le)
  have k2 : |(i : ℝ) * d - i * e| ≤ u * S + t := by
    have : d - e = (R - S) / (n - 1) := by rw [hd, he]; ring
    rw [← mul_sub, abs_mul, abs_of_nonneg hi0, this, abs_div, abs_of_pos q, ← mul_div_assoc,
      div_le_iff₀ q]
    calc (i : ℝ) * |R - S| ≤ (n - 1) * (u * S + t) :=
          mul_le_mul hin (abs_le.mpr ⟨r0a, r0b⟩) (abs_nonneg _) q.le
      _ = _ := by ring
  obtain ⟨k1a, k1b⟩ := abs_le.mp k1
  obtain ⟨k2a, k2b⟩ := abs_le.mp k2
  have hiΔ0 : 0 ≤ (i : ℝ) * Δ := mul_nonneg hi0 p1
  have hiΔ : (i : ℝ) * Δ ≤ R + u * R + (n - 1) * t := by linarith
  have r2 := hrel (i * Δ)
  have p2 : 0 ≤ F64.round (i * Δ) := F64.le_round F64.form_zero hiΔ0
  rw [abs_of_nonneg hiΔ0] at r2
  obtain ⟨m, hm⟩ : ∃ m, m = F64.round (i * Δ) := ⟨_, rfl⟩
  rw [← hm] at r2 p2 ⊢
  obtain ⟨r2a, r2b⟩ := abs_le.mp r2
  have r3 := hrel (lo + m)
  have habs : |lo + m| ≤ |lo| + m := by
    have := abs_add_le lo m
    rwa [abs_of_nonneg p2] at this
  have hulo : u * |lo + m| ≤ u * (|lo| + m) := mul_le_mul_of_nonneg_left habs hu0.le
  have hloM : |lo| ≤ M := by have := abs_nonneg hi; linarith
  have huM : u * |lo| ≤ u * M := mul_le_mul_of_nonneg_left hloM hu0.le
  have huSM : u * S ≤ u * M := mul_le_mul_of_nonneg_left hSM hu0.le
  have hnt : (n - 1) * t ≤ (n - 1) * (1 / 1000) := mul_le_mul_of_nonneg_left ht1 q.le
  have hiΔu : u * (i * Δ) ≤ 1 / 1000 * (i * Δ) := mul_le_mul_of_nonneg_right hu1 hiΔ0
  -- products with u
  have u1 : u * R ≤ u * S * (1001 / 1000) + t / 1000 := by
    have a1 := mul_le_mul_of_nonneg_left hRS hu0.le
    have a2 : u * (u * S) ≤ 1 / 1000 * (u * S) :=
      mul_le_mul_of_nonneg_right hu1 (mul_nonneg hu0.le hS0)
    have a3 : u * t ≤ 1 / 1000 * t := mul_le_mul_of_nonneg_right hu1 ht0.le
    linarith
  have u2 : u * (i * Δ) ≤ u * R * (1001 / 1000) + (n - 1) * t / 1000 := by
    have a1 := mul_le_mul_of_nonneg_left hiΔ hu0.le
    have a2 : u * (u * R) ≤ 1 / 1000 * (u * R) :=
      mul_le_mul_of_nonneg_right hu1 (mul_nonneg hu0.le p0)
    have a3 : u * ((n - 1) * t) ≤ 1 / 1000 * ((n - 1) * t) :=
      mul_le_mul_of_nonneg_right hu1 (mul_nonneg q.le ht0.le)
    linarith
  have u3 : u * m ≤ u * (i * Δ) * (1001 / 1000) + t / 1000 := by
    have hm' : m ≤ i * Δ + u * (i * Δ) + t := by linarith
    have a1 := mul_le_mul_of_nonneg_left hm' hu0.le
    have a2 : u * (u * (i * Δ)) ≤ 1 / 1000 * (u * (i * Δ)) :=
      mul_le_mul_of_nonneg_right hu1 (mul_nonneg hu0.le hiΔ0)
    have a3 : u * t ≤ 1 / 1000 * t := mul_le_mul_of_nonneg_right hu1 ht0.le
    linarith
  have hnt0 : 0 ≤ (n - 1) * t := mul_nonneg q.le ht0.le
  have huM0 : 0 ≤ u * M := mul_nonneg hu0.le hM0
  obtain ⟨r3a, r3b⟩ := abs_le.mp r3
  refine ⟨?_, ?_, ?_, ?_, ?_⟩
  · rw [abs_le]
    constructor <;> linarith
  · rw [abs_of_nonneg p0]
    linarith
  · rw [abs_of_nonneg p1]
    have hdR' : d ≤ R := by
      rw [← hdR]
      have : d * 1 ≤ d * (n - 1) := mul_le_mul_of_nonneg_left (by linarith) hd0
      linarith
    have : u * d ≤ 1 / 1000 * d := mul_le_mul_of_nonneg_right hu1 hd0
    linarith
  · rw [abs_of_nonneg hiΔ0]
    linarith
  · rw [abs_of_nonneg p2]
    linarith

theorem two_pow_bound {M : ℝ} {n : Nat} (hM : M ≤ 2 ^ 901) (hn : n < 2 ^ 32) :
    9 * M + 2 * n + 4 ≤ (2 : ℝ) ^ 1000 := by
  have h1 : (n : ℝ) ≤ (2 : ℝ) ^ 32 := by exact_mod_cast hn.le
  clear hn
  have e : (2 : ℝ) ^ 1000 = 2 ^ 901 * 2 ^ 99 := by rw [← pow_add]
  have h2 : (2 : ℝ) ^ 40 ≤ 2 ^ 901 := pow_le_pow_right₀ (by norm_num) (by norm_num)
  rw [e]
  clear e
  generalize (2 : ℝ) ^ 901 = P at *
  generalize (n : ℝ) = N at *
  norm_num at *
  linarith

/-- A histogram made by the constructor, in doubles. -/
theorem Hist.new_dbls (name part type : String) (time : F64) {lo hi : ℝ} (rlo : F64.Rep lo)
    (rhi : F64.Rep hi) (h : lo ≤ hi) (slo : |lo| ≤ 2 ^ 900) (shi : |hi| ≤ 2 ^ 900) {n : Nat}
    (hn : 2 ≤ n) (hb : n < 2 ^ 32) (g : Nat) :
    (Hist.new name part type time (F64.fin lo rlo) (F64.fin hi rhi) n g).Dbls (dblCentre lo hi n) n ∧
      Centres (dblCentre lo hi n) n := by
  have hM : |lo| + |hi| ≤ 2 ^ 901 := by
    have e : (2 : ℝ) ^ 901 = 2 ^ 900 + 2 ^ 900 := by rw [pow_succ]; ring
    rw [e]
    exact add_le_add slo shi
  have hM0 : 0 ≤ |lo| + |hi| := by positivity
  have hbig := two_pow_bound hM hb
  have hn0 : (0 : ℝ) ≤ n := by positivity
  have hlt : (2 : ℝ) ^ 1000 < 2 ^ 1023 := pow_lt_pow_right₀ (by norm_num) (by norm_num)
  have hle : (2 : ℝ) ^ 1000 ≤ 2 ^ 1021 := pow_le_pow_right₀ (by norm_num) (by norm_num)
  have hf : F64.Form ((2 : ℝ) ^ 1000) := by
    have := F64.form_zpow (e := 1000) (by norm_num)
    rwa [zpow_ofNat] at this
  have hlo : |lo| ≤ |lo| + |hi| := by have := abs_nonneg hi; linarith
  have hsmall : ∀ y : ℝ, |y| ≤ 9 * (|lo| + |hi|) + 2 * n + 4 → |y| < 2 ^ 1023 := fun y hy =>
    (hy.trans hbig).trans_lt hlt
  have sum : ∀ i < n, |lo + F64.round (i * dblDelta lo hi n)| ≤ 2 ^ 1000 := by
    intro i hi'
    obtain ⟨-, -, -, -, b⟩ := dblCentre_error h hn hi'
    refine (abs_add_le _ _).trans (le_trans ?_ hbig)
    clear hbig hlt hle hf hM slo shi
    linarith
  refine ⟨⟨rfl, by simp [Hist.new, Hist.binCentres], ?_, by simp [Hist.new]⟩,
    ⟨hn, hb, fun i j hij _ => dblCentre_mono h hn hij, fun i hi' => ?_⟩⟩
  · intro i hi'
    have hi'' : i < n := by simpa [Hist.new, Hist.binCentres] using hi'
    obtain ⟨-, b1, b2, b3, b4⟩ := dblCentre_error h hn hi''
    have rn : F64.Rep ((n : ℚ) : ℝ) := by
      rw [Rat.cast_natCast]; exact F64.rep_nat (by omega)
    have r1 : F64.Rep ((1 : ℚ) : ℝ) := by simpa using F64.rep_nat (n := 1) (by norm_num)
    have ri : F64.Rep ((i : ℚ) : ℝ) := by
      rw [Rat.cast_natCast]; exact F64.rep_nat (by omega)
    have e1 : (Dbl.lit (n : ℚ) -. Dbl.lit 1 : F64).1 = .fin (n - 1) := by
      rw [F64.sub_val, F64.lit_rep rn, F64.lit_rep r1]
      show F64.rnd (.fin (((n : ℚ) : ℝ) - ((1 : ℚ) : ℝ))) = _
      have : (((n : ℚ) : ℝ) - ((1 : ℚ) : ℝ)) = ((n - 1 : ℕ) : ℝ) := by
        rw [Nat.cast_sub (by omega)]; simp
      rw [this, F64.rnd_rep (F64.rep_nat (by omega)), Nat.cast_sub (by omega), Nat.cast_one]
    have hn1 : ((n : ℝ) - 1) ≠ 0 := by
      have : (2 : ℝ) ≤ n := by exact_mod_cast hn
      linarith
    have e0 : (F64.fin hi rhi -. F64.fin lo rlo).1 = .fin (F64.round (hi - lo)) := by
      rw [F64.sub_val]
      refine F64.rnd_fin ?_
      refine hsmall _ ((abs_sub _ _).trans ?_)
      clear hbig hlt hle hf hM slo shi hsmall
      linarith
    have e2 : ((F64.fin hi rhi -. F64.fin lo rlo) /. (Dbl.lit (n : ℚ) -. Dbl.lit 1)).1 =
        .fin (dblDelta lo hi n) := by
      rw [F64.div_val, e0, e1]
      have : (XR.fin (F64.round (hi - lo)) /. XR.fin ((n : ℝ) - 1)) =
          .fin (F64.round (hi - lo) / (n - 1)) := XR.div_fin _ _ hn1
      rw [this]
      refine F64.rnd_fin (hsmall _ ?_)
      clear hbig hlt hle hf hM slo shi hsmall
      have h1 : (1 : ℝ) ≤ n - 1 := by
        have : (2 : ℝ) ≤ n := by exact_mod_cast hn
        linarith
      rw [abs_div, abs_of_nonneg (by linarith : (0 : ℝ) ≤ n - 1)]
      refine (div_le_self (abs_nonneg _) h1).trans ?_
      linarith
    have e3 : (Dbl.lit (i : ℚ) *. ((F64.fin hi rhi -. F64.fin lo rlo) /.
        (Dbl.lit (n : ℚ) -. Dbl.lit 1)) : F64).1 = .fin (F64.round (i * dblDelta lo hi n)) := by
      rw [F64.mul_val, e2, F64.lit_rep ri]
      show F64.rnd (.fin (((i : ℚ) : ℝ) * _)) = _
      rw [Rat.cast_natCast]
      refine F64.rnd_fin (hsmall _ (b3.trans ?_))
      clear hbig hlt hle hf hM slo shi hsmall
      linarith
    simp only [Hist.new, Hist.binCentres, List.getElem_map, List.getElem_range]
    rw [F64.add_val, e3]
    exact F64.rnd_fin ((sum i hi'').trans_lt hlt)
  · have := abs_le.mp (sum i hi')
    exact abs_le.mpr ⟨(neg_le_neg hle).trans (F64.le_round hf.neg this.1),
      (F64.round_le hf this.2).trans hle⟩

/-! ## Sums of counts -/

/-- A sum of whole numbers in doubles is exact up to `2 ^ 53`. -/
theorem add_nat {a b : F64} {x y : Nat} (ha : a.1 = .fin x) (hb : b.1 = .fin y)
    (h : x + y ≤ 2 ^ 53) : (a +. b).1 = .fin ((x + y : ℕ) : ℝ) := by
  rw [F64.add_val, ha, hb]
  show F64.rnd (.fin ((x : ℝ) + y)) = _
  rw [← Nat.cast_add, F64.rnd_rep (F64.rep_nat h)]

/-- Bins that hold whole numbers, added up in some order. -/
theorem foldl_counts (m : Nat) (v : Nat → List F64) (N : Nat → Nat → Nat) :
    ∀ (order : List Nat) (acc : List F64) (M : Nat → Nat),
      (∀ j ∈ order, ∀ i < m, ∃ w, (v j)[i]? = some w ∧ w.1 = .fin (N j i)) →
      (∀ i < m, ∃ w, acc[i]? = some w ∧ w.1 = .fin (M i)) →
      (∀ i < m, M i + (order.map fun j => N j i).sum ≤ 2 ^ 53) →
      ∀ i < m, ∃ w, (order.foldl (fun acc j => List.zipWith (· +. ·) acc (v j)) acc)[i]? = some w ∧
        w.1 = .fin ((M i + (order.map fun j => N j i).sum : ℕ) : ℝ) := by
  intro order
  induction order with
  | nil => intro acc M _ h _ i hi; simpa using h i hi
  | cons j order ih =>
    intro acc M hv ha hb i hi
    rw [List.foldl_cons]
    have := ih (List.zipWith (· +. ·) acc (v j)) (fun i => M i + N j i)
      (fun k hk => hv k (by simp [hk])) (fun i hi => by
        obtain ⟨w, hw, ew⟩ := ha i hi
        obtain ⟨w', hw', ew'⟩ := hv j (by simp) i hi
        refine ⟨w +. w', by rw [List.getElem?_zipWith, hw, hw'], add_nat ew ew' ?_⟩
        have := hb i hi
        rw [List.map_cons, List.sum_cons] at this
        omega) (fun i hi => by
        have := hb i hi
        rw [List.map_cons, List.sum_cons] at this
        omega) i hi
    rw [List.map_cons, List.sum_cons, ← Nat.add_assoc]
    exact this

end QED
