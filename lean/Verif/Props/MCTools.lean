import Verif.Model.MCTools
import Mathlib.Tactic.Linarith
import Mathlib.Tactic.Ring
import Mathlib.Tactic.NormNum
import Mathlib.Tactic.FieldSimp
import Mathlib.Algebra.Order.BigOperators.Group.List
import Mathlib.MeasureTheory.Measure.Lebesgue.Basic

set_option autoImplicit false

/-!
# Properties C10 and C11: random sampling

`u` is the raw uniform draw in `[0, 1)`; `ws` the weights. Slice `i` of the
cumulative weights is `[(ws.take i).sum, (ws.take (i + 1)).sum)`.
-/

namespace QED
open MCTools

/-- Usable weights: non-negative with positive sum. -/
structure IsWeights (ws : List ℝ) : Prop where
  nonneg : ∀ w ∈ ws, 0 ≤ w
  pos : 0 < ws.sum

/-- The scaled draw lies in slice `i`. -/
def InSlice (ws : List ℝ) (u : ℝ) (i : Nat) : Prop :=
  (ws.take i).sum ≤ u * ws.sum ∧ u * ws.sum < (ws.take (i + 1)).sum

theorem cumul_length : ∀ (ws : List ℝ) (acc : ℝ), (cumul acc ws).length = ws.length
  | [], _ => rfl
  | w :: ws, acc => by simp [cumul, cumul_length ws]

theorem cumul_getElem : ∀ (ws : List ℝ) (acc : ℝ) (k : Nat) (h : k < (cumul acc ws).length),
    (cumul acc ws)[k] = acc + (ws.take (k + 1)).sum
  | [], _, _, h => by simp [cumul] at h
  | w :: ws, acc, 0, _ => by simp [cumul]
  | w :: ws, acc, k + 1, h => by
    have := cumul_getElem ws (acc + w) k (by simpa [cumul] using h)
    simp [cumul, this, add_assoc]

theorem cumul_getLast (ws : List ℝ) (acc : ℝ) :
    (cumul acc ws).getLast?.getD acc = acc + ws.sum := by
  rcases ws with _ | ⟨w, ws⟩
  · simp [cumul]
  · have hl := cumul_length (w :: ws) acc
    rw [List.getLast?_eq_getElem?, List.getElem?_eq_getElem (by rw [hl]; simp),
      Option.getD_some, cumul_getElem, hl]
    simp

/-- What the code computes. -/
theorem randDiscrete_eq {w0 : ℝ} {ws : List ℝ} (h : IsWeights (w0 :: ws)) (u : ℝ) :
    randDiscrete (w0 :: ws) u =
      .ok (((cumul w0 ws).findIdx? (fun c => decide (u * (w0 :: ws).sum < c))).elim 0 (· + 1)) := by
  unfold randDiscrete
  simp only [cumul_getLast]
  have hp := h.pos
  rw [List.sum_cons] at hp
  have : randDouble (Dbl.lit 0) (w0 + ws.sum) u = .ok (u * (w0 :: ws).sum) := by
    unfold randDouble
    rw [if_pos (by simpa using hp.le)]
    simp
  rw [this]
  simp only [real_lt]
  cases (cumul w0 ws).findIdx? (fun c => decide (u * (w0 :: ws).sum < c)) <;> rfl

theorem take_sum_mono {ws : List ℝ} (h : ∀ w ∈ ws, 0 ≤ w) {i j : Nat} (hij : i ≤ j) :
    (ws.take i).sum ≤ (ws.take j).sum := by
  obtain ⟨k, rfl⟩ := Nat.exists_eq_add_of_le hij
  rw [List.take_add, List.sum_append]
  have : 0 ≤ ((ws.drop i).take k).sum :=
    List.sum_nonneg fun w hw => h w (List.mem_of_mem_drop (List.mem_of_mem_take hw))
  linarith

/-! ## C10 Discrete sampling -/

/-- C10 is false for every list of two or more weights: index 0 is never returned. -/
theorem C10_first_index_refuted {ws : List ℝ} (h : IsWeights ws) (h2 : 2 ≤ ws.length) {u : ℝ}
    (hu : u < 1) : randDiscrete ws u ≠ .ok 0 := by
  rcases ws with _ | ⟨w0, ws⟩
  · simp at h2
  rw [randDiscrete_eq h]
  intro hc
  rcases hf : (cumul w0 ws).findIdx? (fun c => decide (u * (w0 :: ws).sum < c)) with _ | k
  · rw [List.findIdx?_eq_none_iff] at hf
    have hl := cumul_length ws w0
    have hlen : 1 ≤ ws.length := by simpa using h2
    have := hf ((cumul w0 ws)[ws.length - 1]'(by omega)) (List.getElem_mem _)
    rw [cumul_getElem, Nat.sub_add_cancel hlen, List.take_length] at this
    have hp := h.pos
    rw [List.sum_cons] at this hp
    have := not_lt.mp (of_decide_eq_false this)
    nlinarith
  · rw [hf] at hc; simp at hc

/-- The full statement of C10 is false. -/
theorem C10_refuted :
    ¬ ∀ ws : List ℝ, IsWeights ws → ∀ u : ℝ, 0 ≤ u → u < 1 → ∀ i,
      (randDiscrete ws u = .ok i ↔ InSlice ws u i) := by
  intro h
  have hw : IsWeights [1, 1] := ⟨by simp, by norm_num⟩
  have := (h [1, 1] hw 0 le_rfl one_pos 0).mpr (by simp [InSlice])
  exact C10_first_index_refuted hw (by simp) one_pos this

/-- What holds: the call always returns a valid index; index 0 comes up only for a
single weight; index 1 comes up on the slices of 0 and 1 together; every index
from 2 on comes up exactly on its own slice. Missing from C10: slices 0 and 1 are
not told apart. -/
theorem C10_slices_partial {ws : List ℝ} (h : IsWeights ws) {u : ℝ} (h0 : 0 ≤ u) (h1 : u < 1) :
    (∃ i, i < ws.length ∧ randDiscrete ws u = .ok i) ∧
    (randDiscrete ws u = .ok 0 ↔ ws.length = 1) ∧
    (2 ≤ ws.length → (randDiscrete ws u = .ok 1 ↔ InSlice ws u 0 ∨ InSlice ws u 1)) ∧
    (∀ i, 2 ≤ i → (randDiscrete ws u = .ok i ↔ InSlice ws u i)) := by
  have hpos := h.pos
  rcases ws with _ | ⟨w0, ws⟩
  · simp at hpos
  have hl := cumul_length ws w0
  set W := (w0 :: ws).sum with hW
  have hget : ∀ k (hk : k < ws.length),
      (cumul w0 ws)[k]'(by omega) = ((w0 :: ws).take (k + 2)).sum := by
    intro k hk; rw [cumul_getElem]; simp
  have hmono := fun {i j : Nat} (hij : i ≤ j) => take_sum_mono h.nonneg hij
  have hfull : ∀ i, ws.length + 1 ≤ i → ((w0 :: ws).take i).sum = W := by
    intro i hi; rw [List.take_of_length_le (by simpa using hi)]
  have hlt : u * W < W := by nlinarith
  have hnn : 0 ≤ u * W := by positivity
  rw [randDiscrete_eq h]
  rcases hf : (cumul w0 ws).findIdx? (fun c => decide (u * W < c)) with _ | k
  · -- only possible for a single weight
    have hws : ws = [] := by
      by_contra hne
      apply C10_first_index_refuted h (u := u) _ h1
      · rw [randDiscrete_eq h, hf]; rfl
      · have := List.length_pos_iff.mpr hne
        simp; omega
    subst hws
    refine ⟨⟨0, by simp, rfl⟩, by simp, by simp, ?_⟩
    intro i hi
    have hno : ¬ InSlice [w0] u i := by
      rintro ⟨a, b⟩
      rw [List.take_of_length_le (by simp; omega)] at a
      linarith
    simp only [hno, iff_false]
    intro hc
    simp at hc; omega
  · rw [List.findIdx?_eq_some_iff_getElem] at hf
    obtain ⟨hk, hlt', hbefore⟩ := hf
    have hk' : k < ws.length := by omega
    have hup : u * W < ((w0 :: ws).take (k + 2)).sum := by
      rw [← hget k hk']; simpa using hlt'
    have hlow : ∀ j, j < k → ((w0 :: ws).take (j + 2)).sum ≤ u * W := by
      intro j hj
      have := hbefore j hj
      rw [← hget j (by omega)]; simpa using this
    refine ⟨⟨k + 1, by simpa using hk', rfl⟩, ?_, fun _ => ?_, fun i hi => ?_⟩
    · simp; intro hh; subst hh; simp at hk'
    · constructor
      · intro hc
        have hk0 : k = 0 := by simpa using hc
        subst hk0
        rcases lt_or_ge (u * W) ((w0 :: ws).take 1).sum with a | a
        · exact Or.inl ⟨by rw [List.take_zero, List.sum_nil]; exact hnn, a⟩
        · exact Or.inr ⟨a, hup⟩
      · intro hc
        have : u * W < ((w0 :: ws).take 2).sum := by
          rcases hc with ⟨_, b⟩ | ⟨_, b⟩
          · exact b.trans_le (hmono (by omega))
          · exact b
        rcases Nat.eq_zero_or_pos k with rfl | hkp
        · rfl
        · have := hlow 0 hkp
          linarith
    · constructor
      · intro hc
        have hki : k + 1 = i := by simpa using hc
        subst hki
        refine ⟨?_, hup⟩
        obtain ⟨j, rfl⟩ : ∃ j, k = j + 1 := ⟨k - 1, by omega⟩
        exact hlow j (by omega)
      · rintro ⟨a, b⟩
        have : k + 1 = i := by
          rcases lt_trichotomy (k + 1) i with hlt2 | heq | hgt
          · have := hmono (show k + 2 ≤ i by omega)
            simp only [← hW] at a; linarith
          · exact heq
          · have := hlow (i - 1) (by omega)
            rw [show i - 1 + 2 = i + 1 by omega] at this
            simp only [← hW] at b; linarith
        rw [← this]; rfl

/-- Probability form of the same: an index from 2 on has the right probability, under
the uniform distribution of the draw on `[0, 1)`. -/
theorem C10_probability_partial {ws : List ℝ} (h : IsWeights ws) (i : Nat) (h2 : 2 ≤ i)
    (hi : i < ws.length) :
    MeasureTheory.volume {u : ℝ | u ∈ Set.Ico 0 1 ∧ randDiscrete ws u = .ok i} =
      ENNReal.ofReal (ws[i] / ws.sum) := by
  have hpos := h.pos
  have hA : 0 ≤ (ws.take i).sum := List.sum_nonneg fun w hw => h.nonneg w (List.mem_of_mem_take hw)
  have hB : (ws.take (i + 1)).sum ≤ ws.sum := by
    have := take_sum_mono h.nonneg (show i + 1 ≤ ws.length by omega)
    rwa [List.take_length] at this
  have hset : {u : ℝ | u ∈ Set.Ico 0 1 ∧ randDiscrete ws u = .ok i} =
      Set.Ico ((ws.take i).sum / ws.sum) ((ws.take (i + 1)).sum / ws.sum) := by
    ext u
    simp only [Set.mem_ofPred_eq, Set.mem_Ico, div_le_iff₀ hpos, lt_div_iff₀ hpos]
    constructor
    · rintro ⟨⟨a, b⟩, hr⟩
      exact ((C10_slices_partial h a b).2.2.2 i h2).mp hr
    · rintro ⟨a, b⟩
      have u0 : 0 ≤ u := by
        by_contra hneg
        nlinarith
      have u1 : u < 1 := by
        by_contra hneg
        nlinarith
      exact ⟨⟨u0, u1⟩, ((C10_slices_partial h u0 u1).2.2.2 i h2).mpr ⟨a, b⟩⟩
  rw [hset, Real.volume_Ico]
  congr 1
  rw [List.take_add_one, List.getElem?_eq_getElem hi]
  simp only [Option.toList_some, List.sum_append, List.sum_singleton]
  ring

example : IsWeights [1, 2, 3] := ⟨by simp, by norm_num⟩
example : InSlice [1, 2, 3] (3 / 4) 2 := by norm_num [InSlice]

/-! ## C11 Seeding -/

/-- C11 is false: `SetSeed` changes no draw, whatever the generator, its state, the
seed and the number of draws. -/
theorem C11_setSeed_no_effect_refuted {G C X : Type} (srand : Int → C) (step : G → X × G)
    (seed : Int) (s : GlobalRng G C) (n : Nat) :
    draws step n (setSeed srand seed s) = draws step n s := by
  have key : ∀ (n : Nat) (s t : GlobalRng G C), s.generator = t.generator →
      draws step n s = draws step n t := by
    intro n
    induction n with
    | zero => intros; rfl
    | succ n ih =>
      intro s t h
      simp only [draws, h]
      congr 1
      exact ih _ _ rfl
  exact key n _ _ rfl

/-- The full statement of C11 is false: two runs seeded alike differ. -/
theorem C11_refuted :
    ¬ ∀ (G C X : Type) (srand : Int → C) (step : G → X × G) (seed : Int) (s t : GlobalRng G C)
      (n : Nat), draws step n (setSeed srand seed s) = draws step n (setSeed srand seed t) := by
  intro h
  have := h Nat Unit Nat (fun _ => ()) (fun g => (g, g + 1)) 0 ⟨0, ()⟩ ⟨1, ()⟩ 1
  simp [draws, setSeed] at this

/-- What holds: the sequence is determined by the state of the generator object
alone. Missing from C11: any dependence on the seed. -/
theorem C11_determined_by_generator_partial {G C X : Type} (srand : Int → C) (step : G → X × G)
    (seed seed' : Int) (s t : GlobalRng G C) (h : s.generator = t.generator) (n : Nat) :
    draws step n (setSeed srand seed s) = draws step n (setSeed srand seed' t) := by
  have e : ∀ n, ∀ s t : GlobalRng G C, s.generator = t.generator →
      draws step n s = draws step n t := by
    intro n
    induction n with
    | zero => intros; rfl
    | succ n ih => intro s t h; simp only [draws, h]; congr 1; exact ih _ _ rfl
  exact e n _ _ h

/-- What `SetSeed` does determine: the numbers the C library's own generator would give next, which
no sampling function asks for. -/
theorem C11_c_library_partial {G C X : Type} (srand : Int → C) (rand : C → X × C) (seed : Int)
    (s t : GlobalRng G C) (n : Nat) :
    draws rand n ⟨(setSeed srand seed s).crand, ()⟩ = draws rand n ⟨(setSeed srand seed t).crand, ()⟩ := rfl

example : (⟨3, 1⟩ : GlobalRng Nat Nat).generator = (⟨3, 2⟩ : GlobalRng Nat Nat).generator := rfl

end QED
