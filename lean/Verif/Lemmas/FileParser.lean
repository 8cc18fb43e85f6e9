import Verif.Model.FileParser
import Verif.Lemmas.Numeral
import Mathlib.Data.List.Infix
import Mathlib.Tactic.IntervalCases
import Mathlib.Data.Finset.Card
import Mathlib.Order.Interval.Finset.Nat

set_option autoImplicit false

/-! Lemmas about reading numbers and about numbered sections. -/

namespace QED

open Ini Num FileParser

/-! ## Decimal digits of a natural number -/

theorem digitVal_digitChar {d : Nat} (h : d < 10) : digitVal d.digitChar = some d := by
  interval_cases d <;> decide

theorem ofDigits_append_single (s : List Char) (c : Char) :
    ofDigits 10 (s ++ [c]) = ofDigits 10 s * 10 + (digitVal c).getD 0 := by
  simp [ofDigits]

theorem ofDigits_toDigits (n : Nat) : ofDigits 10 (Nat.toDigits 10 n) = n := by
  induction n using Nat.strongRecOn with
  | _ n ih =>
    by_cases h : n < 10
    · rw [Nat.toDigits_of_lt_base h]
      simp [ofDigits, digitVal_digitChar h]
    · rw [Nat.toDigits_of_base_le (by omega) (by omega), ofDigits_append_single,
        ih (n / 10) (by omega), digitVal_digitChar (by omega)]
      simp
      omega

theorem toDigits_inj {m n : Nat} (h : Nat.toDigits 10 m = Nat.toDigits 10 n) : m = n := by
  rw [← ofDigits_toDigits m, h, ofDigits_toDigits]

theorem numbered_inj {pre : String} {m n : Nat} (h : numbered pre m = numbered pre n) : m = n :=
  toDigits_inj (List.append_cancel_left h)

/-! ## `strtol` and `strtod` -/

theorem isDigit_digitChar {d : Nat} (h : d < 10) : isDigit 10 d.digitChar = true := by
  interval_cases d <;> decide

theorem toDigits_all (n : Nat) : ∀ c ∈ Nat.toDigits 10 n, ∃ d < 10, c = d.digitChar := by
  induction n using Nat.strongRecOn with
  | _ n ih =>
    by_cases h : n < 10
    · rw [Nat.toDigits_of_lt_base h]
      intro c hc
      simp at hc
      exact ⟨n, h, hc⟩
    · rw [Nat.toDigits_of_base_le (by omega) (by omega)]
      intro c hc
      rcases List.mem_append.mp hc with hc | hc
      · exact ih (n / 10) (by omega) c hc
      · simp at hc
        exact ⟨n % 10, by omega, hc⟩

theorem toDigits_head (n : Nat) (h : 0 < n) :
    ∃ d t, 0 < d ∧ d < 10 ∧ Nat.toDigits 10 n = d.digitChar :: t := by
  induction n using Nat.strongRecOn with
  | _ n ih =>
    by_cases h' : n < 10
    · exact ⟨n, [], h, h', Nat.toDigits_of_lt_base h'⟩
    · obtain ⟨d, t, h1, h2, h3⟩ := ih (n / 10) (by omega) (by omega)
      refine ⟨d, t ++ [(n % 10).digitChar], h1, h2, ?_⟩
      rw [Nat.toDigits_of_base_le (by omega) (by omega), h3]
      rfl

theorem strtol_decimal (d : Nat) (t : List Char) (h1 : 0 < d) (h2 : d < 10) :
    strtol (d.digitChar :: t) =
      some (max (-(2 ^ 63)) (min (2 ^ 63 - 1)
        ((ofDigits 10 ((d.digitChar :: t).takeWhile (isDigit 10)) : Nat) : Int))) := by
  have hne : (d.digitChar :: t).takeWhile (isDigit 10) ≠ [] := by
    simp [isDigit_digitChar h2]
  have : strtol (d.digitChar :: t) =
      (if (d.digitChar :: t).takeWhile (isDigit 10) = [] then none
      else some (max (-(2 ^ 63)) (min (2 ^ 63 - 1)
        ((ofDigits 10 ((d.digitChar :: t).takeWhile (isDigit 10)) : Nat) : Int)))) := by
    interval_cases d <;> rfl
  rw [this, if_neg hne]

theorem strtol_toDigits (n : Nat) (h : n < 2 ^ 63) : strtol (Nat.toDigits 10 n) = some (n : Int) := by
  rcases Nat.eq_zero_or_pos n with rfl | hn
  · decide
  · obtain ⟨d, t, h1, h2, h3⟩ := toDigits_head n hn
    have hall : (Nat.toDigits 10 n).takeWhile (isDigit 10) = Nat.toDigits 10 n := by
      rw [List.takeWhile_eq_self_iff]
      intro c hc
      obtain ⟨d, hd, rfl⟩ := toDigits_all n c hc
      exact isDigit_digitChar hd
    have hval := ofDigits_toDigits n
    rw [h3] at hall hval ⊢
    rw [strtol_decimal d t h1 h2, hall, hval]
    congr 1
    have : (n : Int) < 2 ^ 63 := by exact_mod_cast h
    omega

/-- The exponent of `strtod`. -/
def expOf (t : List Char) : Int :=
  match exponent t with
  | some (e, _) => e
  | none => 0

/-- The unsigned part of `strtod`. -/
def dbody (neg : Bool) (t : List Char) : Option ℚ :=
  let ip := t.takeWhile (isDigit 10)
  let t1 := t.drop ip.length
  let (fp, t2) :=
    match t1 with
    | '.' :: cs => let fp := cs.takeWhile (isDigit 10); (fp, cs.drop fp.length)
    | _ => ([], t1)
  if ip = [] ∧ fp = [] then none
  else some (if neg then -decimal ip fp (expOf t2) else decimal ip fp (expOf t2))

theorem strtod_eq (s : List Char) : strtod s = dbody (sign (lskip s)).1 (sign (lskip s)).2 := rfl

theorem dbody_frac (neg : Bool) (i f : List (Fin 10)) (t2 : List Char) (h : Numeral.NoDigit t2)
    (hne : i ≠ [] ∨ f ≠ []) :
    dbody neg (i.map Numeral.digit ++ '.' :: (f.map Numeral.digit ++ t2)) =
      some (if neg then -decimal (i.map Numeral.digit) (f.map Numeral.digit) (expOf t2)
        else decimal (i.map Numeral.digit) (f.map Numeral.digit) (expOf t2)) := by
  have hd : Numeral.NoDigit ('.' :: (f.map Numeral.digit ++ t2)) := by
    intro c hc; simp at hc; subst hc; rfl
  unfold dbody
  dsimp only
  rw [Numeral.takeWhile_digits i hd, Numeral.drop_digits]
  have e : (match '.' :: (f.map Numeral.digit ++ t2) with
    | '.' :: cs => ((cs.takeWhile (isDigit 10), cs.drop (cs.takeWhile (isDigit 10)).length) :
        List Char × List Char)
    | _ => ([], '.' :: (f.map Numeral.digit ++ t2))) = (f.map Numeral.digit, t2) := by
    show ((f.map Numeral.digit ++ t2).takeWhile (isDigit 10),
      (f.map Numeral.digit ++ t2).drop
        ((f.map Numeral.digit ++ t2).takeWhile (isDigit 10)).length) = _
    rw [Numeral.takeWhile_digits f h, Numeral.drop_digits]
  rw [e]
  dsimp only
  rw [if_neg]
  simp only [List.map_eq_nil_iff]
  rcases hne with h' | h'
  · exact fun x => h' x.1
  · exact fun x => h' x.2

theorem dbody_int (neg : Bool) (i : List (Fin 10)) (t2 : List Char) (h : Numeral.NoDigit t2)
    (hp : t2.head? ≠ some '.') (hne : i ≠ []) :
    dbody neg (i.map Numeral.digit ++ t2) =
      some (if neg then -decimal (i.map Numeral.digit) [] (expOf t2)
        else decimal (i.map Numeral.digit) [] (expOf t2)) := by
  unfold dbody
  dsimp only
  rw [Numeral.takeWhile_digits i h, Numeral.drop_digits]
  have e : (match t2 with
      | '.' :: cs => (cs.takeWhile (isDigit 10), cs.drop (cs.takeWhile (isDigit 10)).length)
      | _ => (([] : List Char), t2)) = ([], t2) := by
    split
    · simp at hp
    · rfl
  rw [e]
  dsimp only
  rw [if_neg]
  simp only [List.map_eq_nil_iff]
  exact fun x => hne x.1

theorem expOf_text (e : Option (Bool × List (Fin 10))) (h : ∀ x, e = some x → x.2 ≠ []) :
    expOf (Numeral.expText e) = Numeral.expVal e := by
  have hnil : Numeral.NoDigit [] := by intro c hc; simp at hc
  cases e with
  | none => rfl
  | some x =>
    obtain ⟨neg, ds⟩ := x
    have hne := h _ rfl
    have ht : (ds.map Numeral.digit).takeWhile (isDigit 10) = ds.map Numeral.digit := by
      have := Numeral.takeWhile_digits ds hnil
      rwa [List.append_nil] at this
    have hs : sign (Numeral.signText neg ++ ds.map Numeral.digit) = (neg, ds.map Numeral.digit) := by
      cases neg with
      | true => rfl
      | false =>
        cases ds with
        | nil => exact absurd rfl hne
        | cons d ds =>
          have hd : ∀ (d : Fin 10) (t : List Char), sign (Numeral.digit d :: t) =
              (false, Numeral.digit d :: t) := by
            intro d t
            fin_cases d <;> rfl
          exact hd d _
    unfold expOf exponent Numeral.expText
    dsimp only [List.cons_append]
    rw [if_pos (Or.inl rfl), hs]
    dsimp only
    rw [ht, if_neg (by simpa using hne)]
    dsimp only
    rw [Numeral.ofDigits_digits]
    rfl

theorem dbody_text (neg : Bool) (i : List (Fin 10)) (f : Option (List (Fin 10)))
    (e : Option (Bool × List (Fin 10))) (h : (⟨neg, i, f, e⟩ : Numeral).WF) :
    dbody neg (i.map Numeral.digit ++ (Numeral.fracText f ++ Numeral.expText e)) =
      some (⟨neg, i, f, e⟩ : Numeral).value := by
  obtain ⟨h1, h2⟩ := h
  dsimp only at h1 h2
  have hd : Numeral.NoDigit (Numeral.expText e) := by
    intro c hc
    cases e with
    | none => simp [Numeral.expText] at hc
    | some x => simp [Numeral.expText] at hc; subst hc; rfl
  have hx := expOf_text e h2
  cases f with
  | some f =>
    have := dbody_frac neg i f (Numeral.expText e) hd (by
      rcases h1 with h1 | ⟨f', h1, h3⟩
      · exact Or.inl h1
      · cases h1; exact Or.inr h3)
    simp only [Numeral.fracText, List.cons_append]
    rw [this, hx, Numeral.decimal_digits]
    cases neg with
    | true => simp [Numeral.value]; ring
    | false => simp [Numeral.value]
  | none =>
    have hi : i ≠ [] := by
      rcases h1 with h1 | ⟨f', h1, h3⟩
      · exact h1
      · cases h1
    have := dbody_int neg i (Numeral.expText e) hd (by
      cases e with
      | none => simp [Numeral.expText]
      | some x => simp [Numeral.expText]) hi
    simp only [Numeral.fracText, List.nil_append]
    rw [this, hx]
    have hdd := Numeral.decimal_digits i [] (Numeral.expVal e)
    rw [List.map_nil] at hdd
    rw [hdd]
    cases neg with
    | true => simp [Numeral.value]; ring
    | false => simp [Numeral.value]

theorem strtod_text {n : Numeral} (h : n.WF) : strtod n.text = some n.value := by
  have hl : lskip n.text = n.text := by
    have := lskip_of_head (Numeral.text_head (x := 'e') h [])
    rw [← Numeral.text_eq] at this
    simpa using this
  rw [strtod_eq, hl]
  obtain ⟨neg, i, f, e⟩ := n
  have := dbody_text neg i f e h
  cases neg with
  | true =>
    have hs : sign (⟨true, i, f, e⟩ : Numeral).text =
        (true, i.map Numeral.digit ++ (Numeral.fracText f ++ Numeral.expText e)) := by
      simp [Numeral.text, Numeral.signText, sign]
    rw [hs]
    exact this
  | false =>
    have hs : sign (⟨false, i, f, e⟩ : Numeral).text =
        (false, i.map Numeral.digit ++ (Numeral.fracText f ++ Numeral.expText e)) := by
      have hd : ∀ (d : Fin 10) (t : List Char), sign (Numeral.digit d :: t) =
          (false, Numeral.digit d :: t) := by
        intro d t
        fin_cases d <;> rfl
      cases i with
      | cons d i => simp [Numeral.text, Numeral.signText, hd]
      | nil =>
        rcases h.1 with h1 | ⟨f', h1, -⟩
        · exact absurd rfl h1
        · simp only at h1
          subst h1
          simp [Numeral.text, Numeral.signText, Numeral.fracText, sign]
    rw [hs]
    exact this

/-! ## Numbered sections -/

/-- There is a first missing number, and the fuel reaches it. -/
theorem first_missing (sections : List (List Char)) (pre : String) :
    ∃ n, n ≤ sections.length ∧ (∀ i, 1 ≤ i → i ≤ n → numbered pre i ∈ sections) ∧
      numbered pre (n + 1) ∉ sections := by
  classical
  have hex : ∃ n, n ≤ sections.length ∧ numbered pre (n + 1) ∉ sections := by
    by_contra hno
    have hall : ∀ n ≤ sections.length, numbered pre (n + 1) ∈ sections := by
      intro n hn
      by_contra h
      exact hno ⟨n, hn, h⟩
    have hsub : (Finset.range (sections.length + 1)).image (fun n => numbered pre (n + 1)) ⊆
        sections.toFinset := by
      intro x hx
      obtain ⟨n, hn, rfl⟩ := Finset.mem_image.mp hx
      rw [List.mem_toFinset]
      exact hall n (by have := Finset.mem_range.mp hn; omega)
    have hc := Finset.card_le_card hsub
    rw [Finset.card_image_of_injective _ (fun a b h => by
      have := numbered_inj h
      omega), Finset.card_range] at hc
    have := sections.toFinset_card_le
    omega
  have h := Nat.find_spec hex
  refine ⟨Nat.find hex, h.1, ?_, h.2⟩
  intro i h1 h2
  have := Nat.find_min hex (m := i - 1) (by omega)
  by_contra hc
  apply this
  refine ⟨by omega, ?_⟩
  have e : i - 1 + 1 = i := by omega
  rwa [e]

instance : LawfulMonad Res := LawfulMonad.mk'
  (id_map := fun x => by cases x <;> rfl)
  (pure_bind := fun _ _ => rfl)
  (bind_assoc := fun x _ _ => by cases x <;> rfl)

/-- What the loop reads: the sections up to the first missing number, in order. -/
theorem readNumbered_spec {α : Type} (sections : List (List Char)) (pre : String)
    (read : List Char → Res α) (k : Nat) : ∀ (fuel i : Nat), k < fuel →
    (∀ j < k, numbered pre (i + j) ∈ sections) → numbered pre (i + k) ∉ sections →
    readNumbered sections pre read fuel i =
      ((List.range k).map fun j => numbered pre (i + j)).mapM read := by
  induction k with
  | zero =>
    intro fuel i hf _ hno
    obtain ⟨f, rfl⟩ : ∃ f, fuel = f + 1 := ⟨fuel - 1, by omega⟩
    unfold readNumbered
    rw [if_neg (by simpa using hno)]
    rfl
  | succ k ih =>
    intro fuel i hf hin hno
    obtain ⟨f, rfl⟩ : ∃ f, fuel = f + 1 := ⟨fuel - 1, by omega⟩
    unfold readNumbered
    rw [if_pos (by simpa using hin 0 (by omega)), List.range_succ_eq_map, List.map_cons,
      List.mapM_cons, ih f (i + 1) (by omega)]
    · have e : (List.range k).map (fun j => numbered pre (i + 1 + j)) =
          (List.map Nat.succ (List.range k)).map fun j => numbered pre (i + j) := by
        rw [List.map_map]
        apply List.map_congr_left
        intro j _
        simp [Nat.add_assoc, Nat.add_comm 1]
      rw [e]
      rfl
    · intro j hj
      have := hin (j + 1) (by omega)
      have e : i + 1 + j = i + (j + 1) := by omega
      rwa [e]
    · have e : i + 1 + k = i + (k + 1) := by omega
      rwa [e]

theorem mapM_ok {α β : Type} {f : α → Res β} : ∀ {xs : List α} {ys : List β},
    xs.mapM f = .ok ys → List.Forall₂ (fun x y => f x = .ok y) xs ys := by
  intro xs
  induction xs with
  | nil => intro ys h; simp at h; subst h; exact .nil
  | cons x xs ih =>
    intro ys h
    rw [List.mapM_cons] at h
    cases hx : f x with
    | ok y =>
      rw [hx, Res.ok_bind] at h
      cases hm : xs.mapM f with
      | ok zs =>
        rw [hm, Res.ok_bind] at h
        cases h
        exact .cons hx (ih hm)
      | exit c => rw [hm] at h; cases h
      | throw w => rw [hm] at h; cases h
      | ub w => rw [hm] at h; cases h
    | exit c => rw [hx] at h; cases h
    | throw w => rw [hx] at h; cases h
    | ub w => rw [hx] at h; cases h

end QED
