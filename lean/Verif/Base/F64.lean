import Verif.Base.Dbl
import Mathlib.Data.Int.Log

set_option autoImplicit false

/-!
# Double precision

`F64` is the set of IEEE binary64 numbers with one zero and one NaN, as an instance of `Dbl`: each
operation is the exact one of `XR` followed by rounding to nearest, ties to even, with gradual
underflow and overflow to infinity. The functions of the C library (`exp`, `log`, `pow`, `sin`, ...) are
rounded in the same way; real libraries may be off by some units in the last place.
-/

namespace QED
namespace F64

/-- The nearest integer, the even one if there are two. -/
noncomputable def roundEven (x : ℝ) : ℤ :=
  open Classical in
  if x - ⌊x⌋ < 1 / 2 then ⌊x⌋
  else if 1 / 2 < x - ⌊x⌋ then ⌊x⌋ + 1
  else if Even ⌊x⌋ then ⌊x⌋ else ⌊x⌋ + 1

/-- The exponent of the spacing of doubles about `x`: 53 significant bits, not below `2 ^ (-1074)`. -/
noncomputable def expo (x : ℝ) : ℤ := max (Int.log 2 |x| - 52) (-1074)

/-- Rounding without overflow. -/
noncomputable def round (x : ℝ) : ℝ := roundEven (x / 2 ^ expo x) * 2 ^ expo x

/-- Rounding. -/
noncomputable def rnd : XR → XR
  | .fin x => open Classical in if |round x| < 2 ^ 1024 then .fin (round x) else XR.infSign x
  | .pinf => .pinf
  | .ninf => .ninf
  | .nan => .nan

/-- A number that has a double: at most 53 significant bits, exponents within the range. -/
def Rep (x : ℝ) : Prop :=
  (∃ m e : ℤ, |m| < 2 ^ 53 ∧ -1074 ≤ e ∧ x = m * 2 ^ e) ∧ |x| < 2 ^ 1024

/-- The finite ones are representable. -/
def IsDouble (v : XR) : Prop := ∀ x, v = .fin x → Rep x

theorem roundEven_floor (x : ℝ) : roundEven x = ⌊x⌋ ∨ roundEven x = ⌊x⌋ + 1 := by
  unfold roundEven
  split_ifs <;> simp

theorem roundEven_int (n : ℤ) : roundEven n = n := by
  simp [roundEven]

theorem roundEven_error (x : ℝ) : |(roundEven x : ℝ) - x| ≤ 1 / 2 := by
  have h1 := Int.floor_le x
  have h2 := Int.lt_floor_add_one x
  unfold roundEven
  rw [abs_le]
  split_ifs <;> push_cast <;> constructor <;> linarith

theorem roundEven_le {x : ℝ} {n : ℤ} (h : x ≤ n) : roundEven x ≤ n := by
  rcases h.lt_or_eq with h | h
  · have : ⌊x⌋ < n := Int.floor_lt.mpr h
    rcases roundEven_floor x with h | h <;> omega
  · rw [h, roundEven_int]

theorem le_roundEven {x : ℝ} {n : ℤ} (h : (n : ℝ) ≤ x) : n ≤ roundEven x := by
  have : n ≤ ⌊x⌋ := Int.le_floor.mpr h
  rcases roundEven_floor x with h | h <;> omega

theorem roundEven_spec (x : ℝ) : |(roundEven x : ℝ) - x| < 1 / 2 ∨
    (|(roundEven x : ℝ) - x| = 1 / 2 ∧ Even (roundEven x)) := by
  have h1 := Int.floor_le x
  have h2 := Int.lt_floor_add_one x
  unfold roundEven
  split_ifs with ha hb hc
  · left; rw [abs_lt]; constructor <;> linarith
  · left; push_cast; rw [abs_lt]; constructor <;> linarith
  · right; refine ⟨?_, hc⟩; rw [abs_of_nonpos (by linarith)]; linarith
  · right
    refine ⟨?_, (Int.not_even_iff_odd.mp hc).add_one⟩
    push_cast; rw [abs_of_nonneg (by linarith)]; linarith

theorem roundEven_unique {x : ℝ} {n : ℤ} (h : |(n : ℝ) - x| < 1 / 2 ∨
    (|(n : ℝ) - x| = 1 / 2 ∧ Even n)) : roundEven x = n := by
  have hle : |(n : ℝ) - x| ≤ 1 / 2 := by rcases h with h | h; exacts [h.le, h.1.le]
  have hle' := roundEven_error x
  have hd : |((roundEven x - n : ℤ) : ℝ)| ≤ 1 := by
    push_cast
    rw [abs_le] at *
    constructor <;> linarith [hle.1, hle.2, hle'.1, hle'.2]
  have hd' : |roundEven x - n| ≤ 1 := by exact_mod_cast hd
  by_contra hne
  have hone : |((roundEven x - n : ℤ) : ℝ)| = 1 := by
    have : |roundEven x - n| = 1 := by
      have : 0 < |roundEven x - n| := abs_pos.mpr (sub_ne_zero.mpr hne)
      omega
    exact_mod_cast this
  have htri : |((roundEven x - n : ℤ) : ℝ)| ≤ |(roundEven x : ℝ) - x| + |(n : ℝ) - x| := by
    push_cast
    calc _ = |((roundEven x : ℝ) - x) - ((n : ℝ) - x)| := by ring_nf
      _ ≤ _ := abs_sub _ _
  rcases h with h | ⟨h, he⟩
  · linarith
  · rcases roundEven_spec x with h' | ⟨h', he'⟩
    · linarith
    · have : |roundEven x - n| = 1 := by exact_mod_cast hone
      have hev : Even (roundEven x - n) := he'.sub he
      rcases (abs_eq (by norm_num : (0 : ℤ) ≤ 1)).mp this with h | h <;> rw [h] at hev <;>
        exact absurd hev (by decide)

theorem roundEven_neg (x : ℝ) : roundEven (-x) = -roundEven x := by
  apply roundEven_unique
  have h : |((-roundEven x : ℤ) : ℝ) - -x| = |(roundEven x : ℝ) - x| := by
    rw [← abs_neg]; congr 1; push_cast; ring
  rw [h, even_neg]
  exact roundEven_spec x

/-- Rounding to an integer keeps the order. -/
theorem roundEven_mono {x y : ℝ} (h : x ≤ y) : roundEven x ≤ roundEven y := by
  have hf := Int.floor_mono h
  by_cases hlt : ⌊x⌋ < ⌊y⌋
  · rcases roundEven_floor x with h1 | h1 <;> rcases roundEven_floor y with h2 | h2 <;> omega
  · have he : ⌊x⌋ = ⌊y⌋ := by omega
    unfold roundEven
    rw [he]
    split_ifs <;> first | omega | (exfalso; linarith)

theorem two_zpow_pos (e : ℤ) : (0 : ℝ) < 2 ^ e := by positivity

theorem abs_lt_expo (x : ℝ) : |x| / 2 ^ expo x < 2 ^ 53 := by
  rw [div_lt_iff₀ (two_zpow_pos _)]
  have h1 : |x| < (2 : ℝ) ^ (Int.log 2 |x| + 1) := by
    exact_mod_cast Int.lt_zpow_succ_log_self (b := 2) (by norm_num) |x|
  have h2 : (2 : ℝ) ^ (Int.log 2 |x| + 1) ≤ 2 ^ ((53 : ℤ) + expo x) := by
    apply zpow_le_zpow_right₀ (by norm_num)
    have : Int.log 2 |x| - 52 ≤ expo x := le_max_left _ _
    omega
  calc |x| < _ := h1
    _ ≤ _ := h2
    _ = _ := by rw [zpow_add₀ (by norm_num)]; norm_num

/-- What rounding gives, up to overflow. -/
theorem round_form (x : ℝ) : ∃ m e : ℤ, |m| < 2 ^ 53 ∧ -1074 ≤ e ∧ round x = m * 2 ^ e := by
  have he : -1074 ≤ expo x := le_max_right _ _
  have hx := abs_lt_expo x
  have hle : |roundEven (x / 2 ^ expo x)| ≤ 2 ^ 53 := by
    have h0 : |x / 2 ^ expo x| < 2 ^ 53 := by
      rw [abs_div, abs_of_pos (two_zpow_pos (expo x))]; exact hx
    rw [abs_lt] at h0
    rw [abs_le]
    constructor
    · exact le_roundEven (by push_cast; linarith)
    · exact roundEven_le (by push_cast; linarith)
  rcases hle.lt_or_eq with h | h
  · exact ⟨_, _, h, he, rfl⟩
  · have h2 : (2 : ℝ) ^ (expo x + 1) = 2 * 2 ^ expo x := by
      rw [zpow_add₀ (by norm_num)]; ring
    rcases abs_choice (roundEven (x / 2 ^ expo x)) with hc | hc
    · refine ⟨2 ^ 52, expo x + 1, by norm_num, by omega, ?_⟩
      unfold round
      rw [show roundEven (x / 2 ^ expo x) = 2 ^ 53 by omega, h2]
      push_cast
      ring
    · refine ⟨-2 ^ 52, expo x + 1, by norm_num, by omega, ?_⟩
      unfold round
      rw [show roundEven (x / 2 ^ expo x) = -2 ^ 53 by omega, h2]
      push_cast
      ring

theorem isDouble_rnd (v : XR) : IsDouble (rnd v) := by
  intro y hy
  cases v with
  | fin x =>
    simp only [rnd] at hy
    split_ifs at hy with h
    · obtain rfl : round x = y := by simpa using hy
      exact ⟨round_form x, h⟩
    · unfold XR.infSign at hy
      split_ifs at hy
  | pinf => cases hy
  | ninf => cases hy
  | nan => cases hy

/-- The form of a representable number, without the bound on its size. -/
def Form (x : ℝ) : Prop := ∃ m e : ℤ, |m| < 2 ^ 53 ∧ -1074 ≤ e ∧ x = m * 2 ^ e

theorem Form.neg {x : ℝ} (h : Form x) : Form (-x) := by
  obtain ⟨m, e, hm, he, rfl⟩ := h
  exact ⟨-m, e, by rwa [abs_neg], he, by push_cast; ring⟩

@[simp] theorem expo_neg (x : ℝ) : expo (-x) = expo x := by simp [expo]

theorem round_neg (x : ℝ) : round (-x) = -round x := by
  unfold round
  rw [expo_neg, neg_div, roundEven_neg]
  push_cast
  ring

@[simp] theorem round_zero : round 0 = 0 := by
  have := roundEven_int 0
  simp only [Int.cast_zero] at this
  simp [round, this]

/-- Rounding never passes a representable number. -/
theorem round_le {x r : ℝ} (hr : Form r) (h : x ≤ r) : round x ≤ r := by
  obtain ⟨m, e, hm, he, rfl⟩ := hr
  have hp := two_zpow_pos (expo x)
  by_cases hx : x = 0
  · subst hx; rw [round_zero]; exact h
  by_cases hle : expo x ≤ e
  · obtain ⟨k, hk⟩ := Int.eq_ofNat_of_zero_le (sub_nonneg.mpr hle)
    have hn : (m : ℝ) * 2 ^ e = ((m * 2 ^ k : ℤ) : ℝ) * 2 ^ expo x := by
      rw [show e = k + expo x by omega, zpow_add₀ (by norm_num)]
      push_cast
      rw [zpow_natCast]
      ring
    rw [hn] at h ⊢
    have := roundEven_le ((div_le_iff₀ hp).mpr h)
    unfold round
    exact mul_le_mul_of_nonneg_right (by exact_mod_cast this) hp.le
  · have hex : expo x = Int.log 2 |x| - 52 := by
      have : expo x = Int.log 2 |x| - 52 ∨ expo x = -1074 := max_choice _ _
      omega
    have hm' : |(m : ℝ)| < 2 ^ 53 := by exact_mod_cast hm
    have hlog : (2 : ℝ) ^ Int.log 2 |x| ≤ |x| := by
      exact_mod_cast Int.zpow_log_le_self (b := 2) (by norm_num) (abs_pos.mpr hx)
    have hr : |(m : ℝ) * 2 ^ e| < 2 ^ Int.log 2 |x| := by
      rw [abs_mul, abs_of_pos (two_zpow_pos e)]
      calc |(m : ℝ)| * 2 ^ e < 2 ^ 53 * 2 ^ e := mul_lt_mul_of_pos_right hm' (two_zpow_pos e)
        _ = 2 ^ ((53 : ℤ) + e) := by rw [zpow_add₀ (by norm_num)]; norm_num
        _ ≤ _ := zpow_le_zpow_right₀ (by norm_num) (by omega)
    have hneg : x < 0 := by
      by_contra hn
      rw [abs_of_nonneg (not_lt.mp hn)] at hlog hr
      have := le_abs_self ((m : ℝ) * 2 ^ e)
      linarith
    have hpow : (2 : ℝ) ^ Int.log 2 |x| = 2 ^ 52 * 2 ^ expo x := by
      rw [hex, show Int.log 2 |x| = (52 : ℤ) + (Int.log 2 |x| - 52) by ring,
        zpow_add₀ (by norm_num)]
      norm_num
    have h1 : x / 2 ^ expo x ≤ ((-2 ^ 52 : ℤ) : ℝ) := by
      rw [div_le_iff₀ hp]
      push_cast
      rw [abs_of_neg hneg] at hlog hpow
      linarith
    have h2 : (roundEven (x / 2 ^ expo x) : ℝ) ≤ ((-2 ^ 52 : ℤ) : ℝ) := by
      exact_mod_cast roundEven_le h1
    have h3 : round x ≤ -(2 : ℝ) ^ Int.log 2 |x| := by
      unfold round
      rw [hpow]
      calc _ ≤ ((-2 ^ 52 : ℤ) : ℝ) * 2 ^ expo x := mul_le_mul_of_nonneg_right h2 hp.le
        _ = _ := by push_cast; ring
    have := neg_abs_le ((m : ℝ) * 2 ^ e)
    linarith

theorem le_round {x r : ℝ} (hr : Form r) (h : r ≤ x) : r ≤ round x := by
  have := round_le hr.neg (neg_le_neg h)
  rw [round_neg] at this
  linarith

/-- Representable numbers are not changed. -/
theorem round_form_eq {x : ℝ} (h : Form x) : round x = x :=
  le_antisymm (round_le h le_rfl) (le_round h le_rfl)

theorem form_round (x : ℝ) : Form (round x) := round_form x

theorem form_zero : Form 0 := ⟨0, 0, by norm_num, by norm_num, by simp⟩

theorem form_zpow {e : ℤ} (he : -1074 ≤ e) : Form (2 ^ e) := ⟨1, e, by norm_num, he, by simp⟩

/-- Integers of at most 53 bits. -/
theorem form_int {n : ℤ} (h : |n| ≤ 2 ^ 53) : Form n := by
  rcases h.lt_or_eq with h | h
  · exact ⟨n, 0, h, by norm_num, by simp⟩
  · rcases abs_choice n with hc | hc
    · rw [show n = 2 ^ 53 by omega]
      exact ⟨1, 53, by norm_num, by norm_num, by push_cast; norm_num⟩
    · rw [show n = -2 ^ 53 by omega]
      exact ⟨-1, 53, by norm_num, by norm_num, by push_cast; norm_num⟩

theorem expo_mono {x y : ℝ} (hx : x ≠ 0) (h : |x| ≤ |y|) : expo x ≤ expo y := by
  have := Int.log_mono_right (b := 2) (abs_pos.mpr hx) h
  unfold expo
  omega

/-- The error of rounding is at most half the spacing. -/
theorem round_error (x : ℝ) : |round x - x| ≤ 2 ^ expo x / 2 := by
  have hp := two_zpow_pos (expo x)
  have h := roundEven_error (x / 2 ^ expo x)
  have : round x - x = ((roundEven (x / 2 ^ expo x) : ℝ) - x / 2 ^ expo x) * 2 ^ expo x := by
    unfold round; field_simp
  rw [this, abs_mul, abs_of_pos hp]
  nlinarith

theorem round_mono_pos {x y : ℝ} (hx : 0 < x) (h : x ≤ y) : round x ≤ round y := by
  have hy : 0 < y := hx.trans_le h
  have he : expo x ≤ expo y := expo_mono hx.ne' (by rwa [abs_of_pos hx, abs_of_pos hy])
  rcases he.lt_or_eq with he | he
  · have hex : expo y = Int.log 2 |y| - 52 := by
      have h1 : expo y = Int.log 2 |y| - 52 ∨ expo y = -1074 := max_choice _ _
      have h2 : -1074 ≤ expo x := le_max_right _ _
      omega
    have hy' : (2 : ℝ) ^ Int.log 2 |y| ≤ y := by
      have := Int.zpow_log_le_self (b := 2) (by norm_num) (abs_pos.mpr hy.ne')
      rw [abs_of_pos hy] at this ⊢
      exact_mod_cast this
    have hx' : x ≤ (2 : ℝ) ^ Int.log 2 |y| := by
      have h1 : Int.log 2 |x| - 52 ≤ expo x := le_max_left _ _
      have h2 : |x| < (2 : ℝ) ^ (Int.log 2 |x| + 1) := by
        exact_mod_cast Int.lt_zpow_succ_log_self (b := 2) (by norm_num) |x|
      have h3 : (2 : ℝ) ^ (Int.log 2 |x| + 1) ≤ 2 ^ Int.log 2 |y| :=
        zpow_le_zpow_right₀ (by norm_num) (by omega)
      rw [abs_of_pos hx] at h2 h3
      linarith
    have h2 : -1074 ≤ expo x := le_max_right _ _
    have hf : Form ((2 : ℝ) ^ Int.log 2 |y|) := form_zpow (by omega)
    exact (round_le hf hx').trans (le_round hf hy')
  · unfold round
    rw [he]
    have hp := two_zpow_pos (expo y)
    exact mul_le_mul_of_nonneg_right (by
      exact_mod_cast roundEven_mono (div_le_div_of_nonneg_right h hp.le)) hp.le

/-- Rounding keeps the order. -/
theorem round_mono {x y : ℝ} (h : x ≤ y) : round x ≤ round y := by
  rcases lt_trichotomy x 0 with hx | hx | hx
  · rcases lt_or_ge y 0 with hy | hy
    · have := round_mono_pos (neg_pos.mpr hy) (neg_le_neg h)
      rw [round_neg, round_neg] at this
      linarith
    · exact (round_le form_zero hx.le).trans (le_round form_zero hy)
  · subst hx
    rw [round_zero]
    exact le_round form_zero h
  · exact round_mono_pos hx h

end F64

/-- IEEE double precision numbers, with one zero and one NaN. -/
def F64 : Type := { v : XR // F64.IsDouble v }

namespace F64

/-- Rounding into the type. -/
noncomputable def of (v : XR) : F64 := ⟨rnd v, isDouble_rnd v⟩

end F64

noncomputable instance instDblF64 : Dbl F64 where
  lit q := .of (.fin q)
  add a b := .of (a.1 +. b.1)
  sub a b := .of (a.1 -. b.1)
  mul a b := .of (a.1 *. b.1)
  div a b := .of (a.1 /. b.1)
  neg a := .of (-. a.1)
  sqrt a := .of (Dbl.sqrt a.1)
  exp a := .of (Dbl.exp a.1)
  log a := .of (Dbl.log a.1)
  log10 a := .of (Dbl.log10 a.1)
  pow a b := .of (Dbl.pow a.1 b.1)
  sin a := .of (Dbl.sin a.1)
  cos a := .of (Dbl.cos a.1)
  atan a := .of (Dbl.atan a.1)
  lt a b := a.1 <. b.1
  le a b := a.1 <=. b.1
  eq a b := a.1 ==. b.1

namespace F64

theorem rep_iff {x : ℝ} : Rep x ↔ Form x ∧ |x| < 2 ^ 1024 := Iff.rfl

theorem rnd_rep {x : ℝ} (h : Rep x) : rnd (.fin x) = .fin x := by
  simp only [rnd]
  rw [round_form_eq h.1, if_pos h.2]

/-- The double with this value. -/
def fin (x : ℝ) (h : Rep x) : F64 := ⟨.fin x, fun y hy => by cases hy; exact h⟩

theorem of_rep {x : ℝ} (h : Rep x) : of (.fin x) = fin x h := Subtype.ext (rnd_rep h)

theorem lit_rep {q : ℚ} (h : Rep (q : ℝ)) : (Dbl.lit q : F64) = fin q h := of_rep h

theorem add_val (a b : F64) : (a +. b).1 = rnd (a.1 +. b.1) := rfl

theorem add_fin {x y : ℝ} (hx : Rep x) (hy : Rep y) : fin x hx +. fin y hy = of (.fin (x + y)) := rfl

/-- A sum that is representable is exact. -/
theorem add_exact {x y : ℝ} (hx : Rep x) (hy : Rep y) (h : Rep (x + y)) :
    fin x hx +. fin y hy = fin (x + y) h := of_rep h

@[simp] theorem lt_fin {x y : ℝ} (hx : Rep x) (hy : Rep y) :
    (fin x hx <. fin y hy) = decide (x < y) := XR.lt_fin x y

@[simp] theorem le_fin {x y : ℝ} (hx : Rep x) (hy : Rep y) :
    (fin x hx <=. fin y hy) = decide (x ≤ y) := XR.le_fin x y

@[simp] theorem eq_fin {x y : ℝ} (hx : Rep x) (hy : Rep y) :
    (fin x hx ==. fin y hy) = decide (x = y) := XR.eq_fin x y

theorem rep_int {n : ℤ} (h : |n| ≤ 2 ^ 53) : Rep n := by
  refine ⟨form_int h, ?_⟩
  have h1 : |(n : ℝ)| ≤ 2 ^ 53 := by exact_mod_cast h
  calc |(n : ℝ)| ≤ 2 ^ 53 := h1
    _ < 2 ^ 1024 := pow_lt_pow_right₀ (by norm_num) (by norm_num)

theorem rep_nat {n : ℕ} (h : n ≤ 2 ^ 53) : Rep n := by
  have := rep_int (n := (n : ℤ)) (by rw [abs_of_nonneg (by positivity)]; exact_mod_cast h)
  exact_mod_cast this

end F64
end QED
