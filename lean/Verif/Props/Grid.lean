import Verif.Lemmas.OutputRun
import Mathlib.Tactic.Ring
import Mathlib.Tactic.NormNum
import Mathlib.Tactic.Linarith

set_option autoImplicit false
set_option linter.unusedSectionVars false

/-!
# Field grids in the output file (C58)
-/

namespace QED

open Dbl OutMgr

variable {D : Type} [Dbl D]

/-- Row-major position of a grid point. -/
def flatIndex (ny nz i j k : Nat) : Nat := (i * ny + j) * nz + k

theorem flatIndex_lt {nx ny nz i j k : Nat} (hi : i < nx) (hj : j < ny) (hk : k < nz) :
    flatIndex ny nz i j k < nx * ny * nz := by
  unfold flatIndex
  have h1 : i * ny + j + 1 ≤ nx * ny := by
    calc i * ny + j + 1 ≤ i * ny + ny := by omega
      _ = (i + 1) * ny := by ring
      _ ≤ nx * ny := Nat.mul_le_mul_right _ hi
  calc (i * ny + j) * nz + k < (i * ny + j) * nz + nz := by omega
    _ = (i * ny + j + 1) * nz := by ring
    _ ≤ nx * ny * nz := Nat.mul_le_mul_right _ h1

theorem flatIndex_inj {ny nz i j k i' j' k' : Nat} (hj : j < ny) (hk : k < nz) (hj' : j' < ny)
    (hk' : k' < nz) (h : flatIndex ny nz i j k = flatIndex ny nz i' j' k') :
    i = i' ∧ j = j' ∧ k = k' := by
  unfold flatIndex at h
  have hnz : 0 < nz := by omega
  have hny : 0 < ny := by omega
  have e1 : k = k' := by
    have := congrArg (· % nz) h
    simpa [Nat.add_mod, Nat.mod_eq_of_lt hk, Nat.mod_eq_of_lt hk'] using this
  subst e1
  have e2 : i * ny + j = i' * ny + j' := by
    have : (i * ny + j) * nz = (i' * ny + j') * nz := by omega
    exact Nat.eq_of_mul_eq_mul_right hnz this
  have e3 : j = j' := by
    have := congrArg (· % ny) e2
    simpa [Nat.add_mod, Nat.mod_eq_of_lt hj, Nat.mod_eq_of_lt hj'] using this
  subst e3
  exact ⟨Nat.eq_of_mul_eq_mul_right hny (by omega), rfl, rfl⟩

theorem flatIndex_surj {nx ny nz q : Nat} (h : q < nx * ny * nz) :
    ∃ i j k, i < nx ∧ j < ny ∧ k < nz ∧ flatIndex ny nz i j k = q := by
  have hnz : 0 < nz := by
    rcases Nat.eq_zero_or_pos nz with h0 | h0
    · subst h0; simp at h
    · exact h0
  have hny : 0 < ny := by
    rcases Nat.eq_zero_or_pos ny with h0 | h0
    · subst h0; simp at h
    · exact h0
  refine ⟨q / nz / ny, q / nz % ny, q % nz, ?_, Nat.mod_lt _ hny, Nat.mod_lt _ hnz, ?_⟩
  · rw [Nat.div_lt_iff_lt_mul hny, Nat.div_lt_iff_lt_mul hnz]; exact h
  · unfold flatIndex
    rw [Nat.div_add_mod' (q / nz) ny, Nat.div_add_mod']

theorem gridIndex_eq {nx ny nz i j k : Nat} (hb : nx * ny * nz ≤ 2 ^ 32) (hi : i < nx) (hj : j < ny)
    (hk : k < nz) : gridIndex ny nz i j k = flatIndex ny nz i j k := by
  unfold gridIndex
  have h := flatIndex_lt hi hj hk
  have e : i * ny * nz + j * nz + k = flatIndex ny nz i j k := by unfold flatIndex; ring
  rw [e, Nat.mod_eq_of_lt (by omega)]

/-- C58 for the flat index of up to `2 ^ 32` grid points: it is the row-major position, distinct
points have distinct indices and every index of the buffer is used. Missing: larger grids, for which
it is false (`C58_refuted`). -/
theorem C58_index_partial {nx ny nz : Nat} (hb : nx * ny * nz ≤ 2 ^ 32) :
    (∀ i j k, i < nx → j < ny → k < nz → gridIndex ny nz i j k = (i * ny + j) * nz + k ∧
      gridIndex ny nz i j k < nx * ny * nz) ∧
    (∀ i j k i' j' k', i < nx → j < ny → k < nz → i' < nx → j' < ny → k' < nz →
      gridIndex ny nz i j k = gridIndex ny nz i' j' k' → i = i' ∧ j = j' ∧ k = k') ∧
    (∀ q < nx * ny * nz, ∃ i j k, i < nx ∧ j < ny ∧ k < nz ∧ gridIndex ny nz i j k = q) := by
  refine ⟨?_, ?_, ?_⟩
  · intro i j k hi hj hk
    rw [gridIndex_eq hb hi hj hk]
    exact ⟨rfl, flatIndex_lt hi hj hk⟩
  · intro i j k i' j' k' hi hj hk hi' hj' hk' h
    rw [gridIndex_eq hb hi hj hk, gridIndex_eq hb hi' hj' hk'] at h
    exact flatIndex_inj hj hk hj' hk' h
  · intro q hq
    obtain ⟨i, j, k, hi, hj, hk, h⟩ := flatIndex_surj hq
    exact ⟨i, j, k, hi, hj, hk, by rw [gridIndex_eq hb hi hj hk, h]⟩

/-! ### The buffer -/

theorem gridK_spec (g : Nat → Nat → Nat → D) (ny nz i j N : Nat) :
    ∀ (n k : Nat) (b : Buf D), b.length = N → (∀ k', k ≤ k' → k' < k + n → gridIndex ny nz i j k' < N) →
    ∃ b', gridK g ny nz i j n k b = .ok b' ∧ b'.length = N ∧
      (∀ q, (∀ k', k ≤ k' → k' < k + n → gridIndex ny nz i j k' ≠ q) → b'[q]? = b[q]?) ∧
      ((∀ k1 k2, k ≤ k1 → k1 < k + n → k ≤ k2 → k2 < k + n →
          gridIndex ny nz i j k1 = gridIndex ny nz i j k2 → k1 = k2) →
        ∀ k', k ≤ k' → k' < k + n → b'[gridIndex ny nz i j k']? = some (some (g i j k'))) := by
  intro n
  induction n with
  | zero =>
    intro k b hb _
    exact ⟨b, rfl, hb, fun _ _ => rfl, fun _ k' h1 h2 => by omega⟩
  | succ n ih =>
    intro k b hb hN
    have h0 := hN k le_rfl (by omega)
    have hw : b.write (gridIndex ny nz i j k) (g i j k) =
        .ok (b.set (gridIndex ny nz i j k) (some (g i j k))) := by
      rw [Buf.write, if_pos (by omega)]
    obtain ⟨b', h1, h2, h3, h4⟩ := ih (k + 1) (b.set (gridIndex ny nz i j k) (some (g i j k)))
      (by simpa using hb) fun k' ha hb => hN k' (by omega) (by omega)
    refine ⟨b', by simp only [gridK, hw, Res.ok_bind, h1], h2, ?_, ?_⟩
    · intro q hq
      rw [h3 q fun k' ha hb => hq k' (by omega) (by omega),
        List.getElem?_set_ne (hq k le_rfl (by omega))]
    · intro hinj k' hk1 hk2
      rcases Nat.eq_or_lt_of_le hk1 with rfl | hlt
      · rw [h3 _ fun k'' ha hb he => by
          have := hinj k'' k (by omega) (by omega) (by omega) (by omega) he
          omega]
        simp [hb, h0]
      · exact h4 (fun k1 k2 a1 a2 a3 a4 => hinj k1 k2 (by omega) (by omega) (by omega) (by omega)) k'
          hlt (by omega)

theorem gridJ_spec (g : Nat → Nat → Nat → D) (ny nz i N : Nat) :
    ∀ (n j : Nat) (b : Buf D), b.length = N →
      (∀ j' k', j ≤ j' → j' < j + n → k' < nz → gridIndex ny nz i j' k' < N) →
      (∀ j1 k1 j2 k2, j ≤ j1 → j1 < j + n → k1 < nz → j ≤ j2 → j2 < j + n → k2 < nz →
          gridIndex ny nz i j1 k1 = gridIndex ny nz i j2 k2 → j1 = j2 ∧ k1 = k2) →
    ∃ b', gridJ g ny nz i n j b = .ok b' ∧ b'.length = N ∧
      (∀ q, (∀ j' k', j ≤ j' → j' < j + n → k' < nz → gridIndex ny nz i j' k' ≠ q) →
        b'[q]? = b[q]?) ∧
      (∀ j' k', j ≤ j' → j' < j + n → k' < nz →
        b'[gridIndex ny nz i j' k']? = some (some (g i j' k'))) := by
  intro n
  induction n with
  | zero =>
    intro j b hb _ _
    exact ⟨b, rfl, hb, fun _ _ => rfl, fun j' k' h1 h2 => by omega⟩
  | succ n ih =>
    intro j b hb hN hinj
    obtain ⟨b1, e1, l1, o1, v1⟩ := gridK_spec g ny nz i j N nz 0 b hb
      fun k' _ hk => hN j k' le_rfl (by omega) (by omega)
    have v1' := v1 fun k1 k2 _ a2 _ a4 he =>
      (hinj j k1 j k2 le_rfl (by omega) (by omega) le_rfl (by omega) (by omega) he).2
    obtain ⟨b', h1, h2, h3, h4⟩ := ih (j + 1) b1 l1
      (fun j' k' ha hb hk => hN j' k' (by omega) (by omega) hk)
      (fun j1 k1 j2 k2 a1 a2 a3 a4 a5 a6 => hinj j1 k1 j2 k2 (by omega) (by omega) a3 (by omega)
        (by omega) a6)
    refine ⟨b', by simp only [gridJ, e1, Res.ok_bind, h1], h2, ?_, ?_⟩
    · intro q hq
      rw [h3 q fun j' k' ha hb hk => hq j' k' (by omega) (by omega) hk,
        o1 q fun k' _ hk => hq j k' le_rfl (by omega) (by omega)]
    · intro j' k' hj1 hj2 hk
      rcases Nat.eq_or_lt_of_le hj1 with rfl | hlt
      · rw [h3 _ fun j'' k'' ha hb hk' he => by
          have := (hinj j'' k'' j k' (by omega) (by omega) hk' (by omega) (by omega) hk he).1
          omega]
        exact v1' k' (by omega) (by omega)
      · exact h4 j' k' hlt (by omega) hk

theorem gridI_spec (g : Nat → Nat → Nat → D) (ny nz N : Nat) :
    ∀ (n i : Nat) (b : Buf D), b.length = N →
      (∀ i' j' k', i ≤ i' → i' < i + n → j' < ny → k' < nz → gridIndex ny nz i' j' k' < N) →
      (∀ i1 j1 k1 i2 j2 k2, i ≤ i1 → i1 < i + n → j1 < ny → k1 < nz → i ≤ i2 → i2 < i + n →
          j2 < ny → k2 < nz → gridIndex ny nz i1 j1 k1 = gridIndex ny nz i2 j2 k2 →
          i1 = i2 ∧ j1 = j2 ∧ k1 = k2) →
    ∃ b', gridI g ny nz n i b = .ok b' ∧ b'.length = N ∧
      (∀ q, (∀ i' j' k', i ≤ i' → i' < i + n → j' < ny → k' < nz →
        gridIndex ny nz i' j' k' ≠ q) → b'[q]? = b[q]?) ∧
      (∀ i' j' k', i ≤ i' → i' < i + n → j' < ny → k' < nz →
        b'[gridIndex ny nz i' j' k']? = some (some (g i' j' k'))) := by
  intro n
  induction n with
  | zero =>
    intro i b hb _ _
    exact ⟨b, rfl, hb, fun _ _ => rfl, fun i' j' k' h1 h2 => by omega⟩
  | succ n ih =>
    intro i b hb hN hinj
    obtain ⟨b1, e1, l1, o1, v1⟩ := gridJ_spec g ny nz i N ny 0 b hb
      (fun j' k' _ hj hk => hN i j' k' le_rfl (by omega) (by omega) hk)
      (fun j1 k1 j2 k2 _ a2 a3 _ a5 a6 he =>
        (hinj i j1 k1 i j2 k2 le_rfl (by omega) (by omega) a3 le_rfl (by omega) (by omega) a6 he).2)
    obtain ⟨b', h1, h2, h3, h4⟩ := ih (i + 1) b1 l1
      (fun i' j' k' ha hb hj hk => hN i' j' k' (by omega) (by omega) hj hk)
      (fun i1 j1 k1 i2 j2 k2 a1 a2 a3 a4 a5 a6 a7 a8 => hinj i1 j1 k1 i2 j2 k2 (by omega) (by omega)
        a3 a4 (by omega) (by omega) a7 a8)
    refine ⟨b', by simp only [gridI, e1, Res.ok_bind, h1], h2, ?_, ?_⟩
    · intro q hq
      rw [h3 q fun i' j' k' ha hb hj hk => hq i' j' k' (by omega) (by omega) hj hk,
        o1 q fun j' k' _ hj hk => hq i j' k' le_rfl (by omega) (by omega) hk]
    · intro i' j' k' hi1 hi2 hj hk
      rcases Nat.eq_or_lt_of_le hi1 with rfl | hlt
      · rw [h3 _ fun i'' j'' k'' ha hb hj' hk' he => by
          have := (hinj i'' j'' k'' i j' k' (by omega) (by omega) hj' hk' (by omega) (by omega) hj hk
            he).1
          omega]
        exact v1 j' k' (by omega) (by omega) hk
      · exact h4 i' j' k' hlt (by omega) hj hk

/-- C58 for the buffer that is handed to the file: for up to `2 ^ 32` grid points no access is out of
bounds, every cell is set, and the value at grid point `(i, j, k)` is at its row-major position. -/
theorem C58_buffer_partial (g : Nat → Nat → Nat → D) {nx ny nz : Nat} (hb : nx * ny * nz ≤ 2 ^ 32) :
    ∃ b, gridBuffer g nx ny nz = .ok b ∧ b.length = nx * ny * nz ∧
      (∀ i j k, i < nx → j < ny → k < nz → b[(i * ny + j) * nz + k]? = some (some (g i j k))) ∧
      (∀ q < nx * ny * nz, ∃ v, b[q]? = some (some v)) := by
  obtain ⟨c1, c2, c3⟩ := C58_index_partial hb
  obtain ⟨b, h1, h2, -, h4⟩ := gridI_spec g ny nz (nx * ny * nz) nx 0 (Buf.new (nx * ny * nz))
    (by simp [Buf.new]) (fun i j k _ hi hj hk => (c1 i j k (by omega) hj hk).2)
    (fun i1 j1 k1 i2 j2 k2 _ a2 a3 a4 _ a6 a7 a8 => c2 i1 j1 k1 i2 j2 k2 (by omega) a3 a4 (by omega)
      a7 a8)
  refine ⟨b, h1, h2, ?_, ?_⟩
  · intro i j k hi hj hk
    rw [← (c1 i j k hi hj hk).1]
    exact h4 i j k (by omega) (by omega) hj hk
  · intro q hq
    obtain ⟨i, j, k, hi, hj, hk, rfl⟩ := c3 q hq
    exact ⟨_, h4 i j k (by omega) (by omega) hj hk⟩

/-- C58 is false of larger grids: in a grid of `2 × 65536 × 65536` points the first point of the
second plane has the index of the first point of the first plane, and the upper half of the buffer
is never written. -/
theorem C58_refuted : ∃ nx ny nz : Nat, nx = 2 ∧ ny = 65536 ∧ nz = 65536 ∧
    gridIndex ny nz 1 0 0 = gridIndex ny nz 0 0 0 ∧
    (∀ i j k, gridIndex ny nz i j k < 2 ^ 32) ∧ 2 ^ 32 < nx * ny * nz := by
  refine ⟨2, 65536, 65536, rfl, rfl, rfl, by norm_num [gridIndex], ?_, by norm_num⟩
  intro i j k
  exact Nat.mod_lt _ (by norm_num)

/-- A grid of 3 × 4 × 5 points. -/
example : 3 * 4 * 5 ≤ 2 ^ 32 ∧ gridIndex 4 5 2 3 4 = 59 := by norm_num [gridIndex]

end QED
