import Verif.Spec.Signs
import Verif.Base.F64

set_option autoImplicit false

/-!
# The laws of signs in the arithmetics of the model
-/

namespace QED

open Dbl

instance : SignLaws ℝ where
  neg_neg a := by simp
  add_neg a b := by simp; ring
  sub_neg a b := by simp; ring
  neg_mul a b := by simp
  mul_neg a b := by simp
  neg_div a b := by simp [neg_div]
  sq_neg a := by
    simp only [real_pow, real_neg, real_lit, Rat.cast_ofNat]
    rw [show (2 : ℝ) = ((2 : ℕ) : ℝ) by norm_num, Real.rpow_natCast, Real.rpow_natCast, neg_sq]
  neg_zero := by simp

namespace XR

theorem pow_two (a : ℝ) : pow (fin a) (fin 2) = fin (a ^ 2) := by
  have h2 : a ^ (2 : ℝ) = a ^ 2 := by
    rw [show (2 : ℝ) = ((2 : ℕ) : ℝ) by norm_num, Real.rpow_natCast]
  rcases lt_trichotomy a 0 with h | h | h
  · simp only [pow]
    rw [if_neg (by linarith), if_neg h.ne, if_pos ⟨2, by norm_num⟩, h2]
  · subst h; simp [pow]
  · simp only [pow]
    rw [if_pos h, h2]

theorem ninf_two : pow ninf (fin 2) = pinf := by
  have h : ¬ ∃ n : ℤ, Odd n ∧ (2 : ℝ) = n := by
    rintro ⟨n, ho, hn⟩
    have : n = 2 := by exact_mod_cast hn.symm
    subst this
    exact absurd ho (by decide)
  simp only [pow]
  rw [if_neg (by norm_num), if_neg (by norm_num), if_neg h]

theorem pinf_two : pow pinf (fin 2) = pinf := by
  simp only [pow]
  rw [if_pos (by norm_num)]

theorem sign_sq (a : XR) : pow (neg a) (fin 2) = pow a (fin 2) := by
  cases a with
  | fin x => simp only [neg]; rw [pow_two, pow_two, neg_sq]
  | pinf => exact ninf_two.trans pinf_two.symm
  | ninf => exact pinf_two.trans ninf_two.symm
  | nan => rfl

theorem infSign_neg (x : ℝ) : infSign (-x) = neg (infSign x) := by
  unfold infSign
  rcases lt_trichotomy x 0 with h | h | h
  · rw [if_pos (by linarith), if_neg (by linarith), if_pos h]; rfl
  · subst h; simp [neg]
  · rw [if_neg (by linarith), if_pos (by linarith), if_pos h]; rfl

theorem neg_twice (x : XR) : neg (neg x) = x := by
  cases x <;> simp [neg]

end XR

theorem XR.sign_add (a b : XR) : (-. a) +. (-. b) = -. (a +. b) := by
  cases a <;> cases b <;> first | rfl | skip
  simp; ring

theorem XR.sign_neg (a : XR) : -. (-. a) = a := by
  cases a <;> first | rfl | simp

theorem XR.sign_mul (a b : XR) : (-. a) *. b = -. (a *. b) := by
  cases a <;> cases b <;> first | rfl | simp only [mul_fin, neg_fin, neg_mul] | skip
  all_goals
    show XR.infSign _ = XR.neg (XR.infSign _)
    simp only [XR.infSign_neg, XR.neg_twice]

theorem XR.sign_mul' (a b : XR) : a *. (-. b) = -. (a *. b) := by
  cases a <;> cases b <;> first | rfl | simp only [mul_fin, neg_fin, mul_neg] | skip
  all_goals
    show XR.infSign _ = XR.neg (XR.infSign _)
    simp only [XR.infSign_neg, XR.neg_twice]

theorem XR.sign_div (a b : XR) : (-. a) /. b = -. (a /. b) := by
  cases a <;> cases b <;> first | rfl | skip
  all_goals simp only [Dbl.neg, Dbl.div, XR.neg, XR.div]
  · split_ifs
    · rw [XR.infSign_neg]; rfl
    · simp [neg_div]
  all_goals first | (split_ifs <;> rfl) | simp

instance : SignLaws XR where
  neg_neg := XR.sign_neg
  add_neg := XR.sign_add
  sub_neg a b := XR.sign_add a (-. b)
  neg_mul := XR.sign_mul
  mul_neg := XR.sign_mul'
  neg_div := XR.sign_div
  sq_neg a := by
    have h : (lit 2 : XR) = .fin 2 := by simp
    rw [h]; exact XR.sign_sq a
  neg_zero := by simp

namespace F64

theorem lit_two : (lit 2 : F64).1 = .fin 2 := by
  show rnd (.fin ((2 : ℚ) : ℝ)) = .fin 2
  rw [show ((2 : ℚ) : ℝ) = ((2 : ℤ) : ℝ) by norm_num]
  rw [rnd_rep (rep_int (by norm_num))]
  norm_num

theorem rnd_neg (v : XR) : rnd (-. v) = -. rnd v := by
  cases v with
  | fin x =>
    show rnd (.fin (-x)) = -. rnd (.fin x)
    simp only [rnd, round_neg, abs_neg]
    split_ifs
    · rfl
    · exact XR.infSign_neg x
  | pinf => rfl
  | ninf => rfl
  | nan => rfl

theorem rnd_val (a : F64) : rnd a.1 = a.1 := by
  rcases a with ⟨v, hv⟩
  cases v with
  | fin x => exact rnd_rep (hv x rfl)
  | pinf => rfl
  | ninf => rfl
  | nan => rfl

/-- Changing the sign needs no rounding. -/
theorem neg_val (a : F64) : (-. a : F64).1 = -. a.1 := by
  show rnd (-. a.1) = _
  rw [rnd_neg, rnd_val]

end F64

instance : SignLaws F64 where
  neg_neg a := Subtype.ext (by rw [F64.neg_val, F64.neg_val, XR.sign_neg])
  add_neg a b := Subtype.ext (by
    rw [F64.neg_val]
    show F64.rnd ((-. a : F64).1 +. (-. b : F64).1) = -. F64.rnd (a.1 +. b.1)
    rw [F64.neg_val, F64.neg_val, XR.sign_add, F64.rnd_neg])
  sub_neg a b := Subtype.ext (by
    rw [F64.neg_val]
    show F64.rnd ((-. a : F64).1 -. (-. b : F64).1) = -. F64.rnd (a.1 -. b.1)
    rw [F64.neg_val, F64.neg_val, SignLaws.sub_neg, F64.rnd_neg])
  neg_mul a b := Subtype.ext (by
    rw [F64.neg_val]
    show F64.rnd ((-. a : F64).1 *. b.1) = -. F64.rnd (a.1 *. b.1)
    rw [F64.neg_val, XR.sign_mul, F64.rnd_neg])
  mul_neg a b := Subtype.ext (by
    rw [F64.neg_val]
    show F64.rnd (a.1 *. (-. b : F64).1) = -. F64.rnd (a.1 *. b.1)
    rw [F64.neg_val, XR.sign_mul', F64.rnd_neg])
  neg_div a b := Subtype.ext (by
    rw [F64.neg_val]
    show F64.rnd ((-. a : F64).1 /. b.1) = -. F64.rnd (a.1 /. b.1)
    rw [F64.neg_val, XR.sign_div, F64.rnd_neg])
  sq_neg a := Subtype.ext (by
    show F64.rnd (XR.pow (-. a : F64).1 (lit 2 : F64).1) = F64.rnd (XR.pow a.1 (lit 2 : F64).1)
    rw [F64.neg_val, F64.lit_two]
    exact congrArg F64.rnd (XR.sign_sq a.1))
  neg_zero := Subtype.ext (by
    rw [F64.neg_val]
    show -. F64.rnd (.fin ((0 : ℚ) : ℝ)) = F64.rnd (.fin ((0 : ℚ) : ℝ))
    rw [← F64.rnd_neg]; simp)

end QED
