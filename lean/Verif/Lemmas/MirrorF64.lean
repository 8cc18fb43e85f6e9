import Verif.Lemmas.Mirror
import Verif.Lemmas.F64Witness

set_option autoImplicit false

/-!
# Mirrors in double precision
-/

namespace QED

open Dbl

theorem Mirror.flip_fixed (a : F64) : Mirror.flip true a = a ↔ Flat a := by
  show -. a = a ↔ _
  constructor
  · intro h
    have h1 := congrArg Subtype.val h
    rw [F64.neg_val] at h1
    unfold Flat
    cases e : a.1 with
    | fin x =>
      rw [e] at h1
      have : -x = x := by simpa using h1
      left
      rw [show x = 0 by linarith]
    | pinf => rw [e] at h1; cases h1
    | ninf => rw [e] at h1; cases h1
    | nan => exact .inr rfl
  · intro h
    apply Subtype.ext
    rw [F64.neg_val]
    rcases h with h | h <;> rw [h]
    · simp
    · rfl

theorem Mirror.vec_fixed (v : V3 F64) : (Mirror.mk false false true).vec v = v ↔ Flat v.z := by
  rw [← Mirror.flip_fixed]
  constructor
  · intro h; exact congrArg V3.z h
  · intro h
    rcases v with ⟨x, y, z⟩
    show V3.mk x y (Mirror.flip true z) = _
    rw [show Mirror.flip true z = z from h]

theorem Mirror.map_fixed {α : Type} {f : α → α} : ∀ {l : List α}, l.map f = l ↔ ∀ v ∈ l, f v = v
  | [] => by simp
  | a :: l => by simp [Mirror.map_fixed (l := l)]

theorem Mirror.part_fixed (p : Particle F64) : (Mirror.mk false false true).part p = p ↔ InPlane p := by
  constructor
  · intro h
    refine ⟨(Mirror.vec_fixed _).mp (congrArg Particle.position h),
      (Mirror.vec_fixed _).mp (congrArg Particle.momentum h), ?_, ?_⟩
    · intro v hv
      exact (Mirror.vec_fixed _).mp (Mirror.map_fixed.mp (congrArg Particle.posHistory h) v hv)
    · intro v hv
      exact (Mirror.vec_fixed _).mp (Mirror.map_fixed.mp (congrArg Particle.momHistory h) v hv)
  · intro h
    have h1 := (Mirror.vec_fixed _).mpr h.position
    have h2 := (Mirror.vec_fixed _).mpr h.momentum
    have h3 := Mirror.map_fixed.mpr fun v hv => (Mirror.vec_fixed v).mpr (h.posHistory v hv)
    have h4 := Mirror.map_fixed.mpr fun v hv => (Mirror.vec_fixed v).mpr (h.momHistory v hv)
    unfold Mirror.part
    rw [h1, h2, h3, h4]

namespace MirrorWitness

/-- 3 · 2²⁴ -/
theorem k_val : (lit 50331648 : F64).1 = .fin 50331648 := by
  have := F64.lit_val (q := ((50331648 : ℕ) : ℚ)) (F64.rep_small (by norm_num))
  simpa using this

theorem s_val : (lit (7 / 16) : F64).1 = .fin (7 / 16) := by
  have h : F64.Rep ((7 / 16 : ℚ) : ℝ) :=
    ⟨⟨7, -4, by norm_num, by norm_num, by norm_num⟩, by
      calc |((7 / 16 : ℚ) : ℝ)| ≤ 1 := by norm_num
        _ < 2 ^ 1024 := one_lt_pow₀ (by norm_num) (by norm_num)⟩
  have := F64.lit_val h
  rw [this]; norm_num

theorem k_sq : (lit 50331648 *. lit 50331648 : F64).1 = .fin 2533274790395904 :=
  F64.mul_at k_val k_val (F64.lt_big (by norm_num)) (by
    rw [F64.round_int_mul 2533274790395904 0 (by norm_num) (by norm_num)]; norm_num)

theorem s_sq : (lit (7 / 16) *. lit (7 / 16) : F64).1 = .fin (49 / 256) :=
  F64.mul_at s_val s_val (F64.lt_big (by norm_num)) (by
    rw [F64.round_form_eq ⟨49, -8, by norm_num, by norm_num, by norm_num⟩]; norm_num)

/-- The small squares are lost one by one. -/
theorem lost : F64.round (2533274790395904 + 49 / 256) = 2533274790395904 := by
  rw [F64.round_digits 5066549580791808 1 (by norm_num) (by norm_num) (by norm_num)
    (.inl (by rw [abs_lt]; norm_num))]
  norm_num

/-- Their sum is not. -/
theorem kept : F64.round (49 / 128 + 2533274790395904) = 2533274790395904 + 1 / 2 := by
  rw [F64.round_digits 5066549580791809 1 (by norm_num) (by norm_num) (by norm_num)
    (.inl (by rw [abs_lt]; norm_num))]
  norm_num

theorem first : (V3.mag ⟨lit 50331648, lit (7 / 16), lit (7 / 16)⟩ : F64).1 = .fin 50331648 := by
  have h1 := F64.add_at (z := 2533274790395904) k_sq s_sq (F64.lt_big (by norm_num)) lost
  have h2 := F64.add_at (z := 2533274790395904) h1 s_sq (F64.lt_big (by norm_num)) lost
  have hs : Real.sqrt 2533274790395904 = 50331648 := by
    rw [show (2533274790395904 : ℝ) = 50331648 ^ 2 by norm_num]
    exact Real.sqrt_sq (by norm_num)
  exact F64.sqrt_at (z := 50331648) h2 (by norm_num) (by rw [hs]; exact F64.lt_big (by norm_num)) (by
    rw [hs, F64.round_int_mul 50331648 0 (by norm_num) (by norm_num)])

theorem second : (V3.mag ⟨lit (7 / 16), lit (7 / 16), lit 50331648⟩ : F64).1 =
    .fin (50331648 + 1 / 2 ^ 27) := by
  have h1 := F64.add_at (z := 49 / 128) s_sq s_sq (F64.lt_big (by norm_num)) (by
    rw [F64.round_form_eq ⟨49, -7, by norm_num, by norm_num, by norm_num⟩]; norm_num)
  have h2 := F64.add_at (z := 2533274790395904 + 1 / 2) h1 k_sq (F64.lt_big (by norm_num)) kept
  have lo : (50331648 : ℝ) + 1 / 2 ^ 28 < Real.sqrt (2533274790395904 + 1 / 2) := by
    apply Real.lt_sqrt_of_sq_lt
    norm_num
  have hi : Real.sqrt (2533274790395904 + 1 / 2) < 50331648 + 1 / 2 ^ 27 := by
    rw [Real.sqrt_lt' (by norm_num)]
    norm_num
  refine F64.sqrt_at (z := 50331648 + 1 / 2 ^ 27) h2 (by norm_num) (F64.lt_big ?_) ?_
  · rw [abs_of_nonneg (Real.sqrt_nonneg _)]
    have : (50331648 : ℝ) + 1 / 2 ^ 27 ≤ 2 ^ 100 := by norm_num
    linarith
  · rw [F64.round_digits (50331648 * 2 ^ 27 + 1) 27 (by norm_num)]
    · push_cast; ring
    · norm_num at lo ⊢; linarith
    · norm_num at hi ⊢; linarith
    · left
      rw [abs_lt]
      push_cast
      constructor <;> norm_num at lo hi ⊢ <;> linarith

end MirrorWitness

end QED
