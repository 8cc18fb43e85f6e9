import Verif.Data.Files
import Verif.Lemmas.Numeral
import Verif.Spec.TableFiles
import Mathlib.Data.Rat.Cast.Order

set_option autoImplicit false

/-! # Helper lemmas about the table files that come with the program -/

namespace QED
namespace Shipped

open TableFile

theorem digits_length (w m : Nat) : (digits w m).length = w := by
  induction w generalizing m with
  | zero => rfl
  | succ w ih => simp [digits, ih]

theorem digits_nat (w m : Nat) : Numeral.nat (digits w m) = m % 10 ^ w := by
  induction w generalizing m with
  | zero => simp [digits, Numeral.nat, Nat.mod_one]
  | succ w ih =>
    rw [digits, Numeral.nat_append, ih]
    have h1 : Numeral.nat [Fin.ofNat 10 m] = m % 10 := by
      simp [Numeral.nat]
    rw [h1, List.length_singleton, pow_one, pow_succ, mul_comm (10 ^ w) 10, Nat.mod_mul]
    omega

/-- A checked numeral. -/
structure Tok.Good (t : Tok) : Prop where
  int : 0 < t.int
  mant : t.mant < 10 ^ (t.int + t.width)
  places : t.width + t.down ≤ 40
  exp : ∀ e, t.exp = some e → 0 < e.1 ∧ e.2 < 10 ^ e.1
  letter : t.letter = 'e' ∨ t.letter = 'E'

theorem Tok.good {t : Tok} (h : t.ok = true) : t.Good := by
  unfold Tok.ok at h
  simp only [Bool.and_eq_true, decide_eq_true_eq, Bool.or_eq_true] at h
  obtain ⟨⟨⟨⟨h1, h2⟩, h3⟩, h4⟩, h5⟩ := h
  refine ⟨h1, h2, h3, fun e he => ?_, h5⟩
  rw [he] at h4
  simpa using h4

theorem Tok.Good.wf {t : Tok} (h : t.Good) : t.numeral.WF := by
  refine ⟨Or.inl fun h0 => ?_, fun e he h0 => ?_⟩
  · have := digits_length t.int (t.mant / 10 ^ t.width)
    have h1 : digits t.int (t.mant / 10 ^ t.width) = [] := h0
    rw [h1] at this
    have := h.int
    simp_all
  · obtain ⟨neg, i, m, f, e', l⟩ := t
    cases e' with
    | none => cases he
    | some e' =>
      obtain rfl := Option.some.inj he
      have h1 := (h.exp e' rfl).1
      have := digits_length e'.1 e'.2
      have h2 : digits e'.1 e'.2 = [] := h0
      rw [h2] at this
      simp at this
      omega

/-- The number a checked numeral stands for. -/
theorem Tok.Good.value {t : Tok} (h : t.Good) : t.numeral.value = (t.units : ℚ) / 10 ^ 40 := by
  have h10 : (10 : ℚ) ≠ 0 := by norm_num
  have hint : Numeral.nat (digits t.int (t.mant / 10 ^ t.width)) = t.mant / 10 ^ t.width := by
    rw [digits_nat]
    refine Nat.mod_eq_of_lt ?_
    rw [Nat.div_lt_iff_lt_mul (by positivity), ← pow_add]
    exact h.mant
  have hfrac : ((Numeral.nat ((t.frac.map fun w => digits w t.mant).getD []) : ℕ) : ℚ) /
      10 ^ ((t.frac.map fun w => digits w t.mant).getD []).length =
      ((t.mant % 10 ^ t.width : ℕ) : ℚ) / 10 ^ t.width := by
    unfold Tok.width
    cases t.frac with
    | none => simp [Numeral.nat, Nat.mod_one]
    | some w => simp [digits_nat, digits_length]
  have hexp : Numeral.expVal (t.exp.map fun e => (true, digits e.1 e.2)) = -(t.down : ℤ) := by
    have h' := h.exp
    unfold Tok.down
    revert h'
    cases t.exp with
    | none => intro _; rfl
    | some e =>
      intro h'
      have := digits_nat e.1 e.2
      rw [Nat.mod_eq_of_lt (h' e rfl).2] at this
      simp [Numeral.expVal, this]
  have hsum : ((t.mant / 10 ^ t.width : ℕ) : ℚ) + ((t.mant % 10 ^ t.width : ℕ) : ℚ) / 10 ^ t.width =
      (t.mant : ℚ) / 10 ^ t.width := by
    have := Nat.div_add_mod t.mant (10 ^ t.width)
    have h2 : ((10 : ℚ) ^ t.width) * ((t.mant / 10 ^ t.width : ℕ) : ℚ) + ((t.mant % 10 ^ t.width : ℕ) : ℚ) =
        t.mant := by exact_mod_cast this
    field_simp
    linarith
  have hsize : (t.size : ℚ) / 10 ^ 40 = (t.mant : ℚ) / 10 ^ t.width * (10 : ℚ) ^ (-(t.down : ℤ)) := by
    unfold Tok.size
    have : (10 : ℚ) ^ 40 = 10 ^ (40 - (t.width + t.down)) * (10 ^ t.width * 10 ^ t.down) := by
      rw [← pow_add, ← pow_add]
      congr 1
      have := h.places
      omega
    rw [this, zpow_neg, zpow_natCast]
    push_cast
    field_simp
  show (if t.neg then -1 else 1) * (((Numeral.nat (digits t.int (t.mant / 10 ^ t.width)) : ℕ) : ℚ) +
      ((Numeral.nat ((t.frac.map fun w => digits w t.mant).getD []) : ℕ) : ℚ) /
      10 ^ ((t.frac.map fun w => digits w t.mant).getD []).length) *
      10 ^ Numeral.expVal (t.exp.map fun e => (true, digits e.1 e.2)) = _
  rw [hint, hfrac, hexp, hsum, mul_assoc, ← hsize]
  unfold Tok.units
  cases t.neg
  · simp
  · simp; ring

/-- A checked text: all numerals are good, and each is followed by white space. -/
def checked (ts : List (Tok × List Char)) : Bool :=
  ts.all fun p => p.1.ok && !p.2.isEmpty && p.2.all Ini.isSpace

/-- A checked text lists its numerals. -/
theorem text_lists {last : List Char} (hl : ∀ c ∈ last, Ini.isSpace c = true) :
    ∀ (ts : List (Tok × List Char)) (ws : List Char), (∀ c ∈ ws, Ini.isSpace c = true) → checked ts = true →
      Lists (ts.map fun p => p.1.numeral) (ws ++ text last ts)
  | [], ws, hws, _ => by
    refine .done fun c hc => ?_
    rcases List.mem_append.1 hc with hc | hc
    · exact hws c hc
    · exact hl c hc
  | (t, s) :: ts, ws, hws, h => by
    unfold checked at h
    rw [List.all_cons, Bool.and_eq_true] at h
    obtain ⟨h1, h2⟩ := h
    simp only [Bool.and_eq_true, Bool.not_eq_true', List.all_eq_true] at h1
    obtain ⟨⟨h3, h4⟩, h5⟩ := h1
    have hg := Tok.good h3
    refine Lists.more hws hg.letter hg.wf ?_ (text_lists hl ts s h5 h2)
    intro c hc
    cases s with
    | nil => cases h4
    | cons d s =>
      obtain rfl : d = c := by simpa using hc
      exact h5 d (by simp)

theorem row_fst (s e : List Char) : ∀ ts : List Tok, (row s e ts).map Prod.fst = ts
  | [] => rfl
  | [t] => rfl
  | t :: u :: ts => by
    rw [row, List.map_cons, row_fst s e (u :: ts)]

theorem rows_fst (s e : List Char) (rows : List (List Tok)) :
    (rows.flatMap (row s e)).map (fun p => p.1.numeral) =
      (rows.map fun r => r.map Tok.numeral).flatten := by
  induction rows with
  | nil => rfl
  | cons r rows ih =>
    rw [List.flatMap_cons, List.map_append, ih, List.map_cons, List.flatten_cons]
    congr 1
    conv_rhs => rw [← row_fst s e r]
    rw [List.map_map]
    rfl

theorem pairs_fst (s e : List Char) (ps : List (Tok × Tok)) :
    (ps.flatMap fun p => [(p.1, s), (p.2, e)]).map (fun p => p.1.numeral) =
      (ps.map fun p => (p.1.numeral, p.2.numeral)).flatMap fun p => [p.1, p.2] := by
  induction ps with
  | nil => rfl
  | cons p ps ih =>
    rw [List.flatMap_cons, List.map_append, ih]
    rfl

end Shipped
end QED
