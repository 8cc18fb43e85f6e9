import Verif.Spec.Numeral
import Verif.Lemmas.Ini
import Mathlib.Tactic.Ring
import Mathlib.Tactic.FieldSimp

set_option autoImplicit false

/-! # Helper lemmas for reading numerals -/

namespace QED

open Ini Num

namespace Numeral

theorem digit_isDigit (d : Fin 10) : isDigit 10 (digit d) = true := by
  revert d; decide

theorem digit_val (d : Fin 10) : digitVal (digit d) = some d.val := by
  revert d; decide

theorem digit_not_space (d : Fin 10) : isSpace (digit d) = false := by
  revert d; decide

theorem ofDigits_digits (ds : List (Fin 10)) : ofDigits 10 (ds.map digit) = nat ds := by
  have key : ∀ (ds : List (Fin 10)) (n : Nat),
      (ds.map digit).foldl (fun n c => n * 10 + (digitVal c).getD 0) n =
        n * 10 ^ ds.length + nat ds := by
    intro ds
    induction ds with
    | nil => intro n; simp [nat]
    | cons d ds ih =>
      intro n
      rw [List.map_cons, List.foldl_cons, ih, digit_val]
      simp only [nat, List.reverse_cons, List.map_append, List.map_cons, List.map_nil,
        Nat.ofDigits_append, List.length_cons, List.length_map, List.length_reverse,
        Nat.ofDigits_singleton, Option.getD_some]
      ring
  simpa [ofDigits] using key ds 0

theorem nat_append (a b : List (Fin 10)) : nat (a ++ b) = nat a * 10 ^ b.length + nat b := by
  simp only [nat, List.reverse_append, List.map_append, Nat.ofDigits_append, List.length_map,
    List.length_reverse]
  ring

/-- No digit at the start. -/
def NoDigit (r : List Char) : Prop := ∀ c, r.head? = some c → isDigit 10 c = false

theorem takeWhile_digits (ds : List (Fin 10)) {r : List Char} (h : NoDigit r) :
    (ds.map digit ++ r).takeWhile (isDigit 10) = ds.map digit := by
  induction ds with
  | nil =>
    cases r with
    | nil => rfl
    | cons c r => simp [h c rfl]
  | cons d ds ih => simp [digit_isDigit, ih]

theorem drop_digits (ds : List (Fin 10)) (r : List Char) :
    (ds.map digit ++ r).drop (ds.map digit).length = r := by
  simp

theorem decimal_digits (i f : List (Fin 10)) (ex : Int) :
    decimal (i.map digit) (f.map digit) ex =
      ((nat i : ℚ) + (nat f : ℚ) / 10 ^ f.length) * (10 : ℚ) ^ ex := by
  unfold decimal
  rw [← List.map_append, ofDigits_digits, nat_append]
  have h10 : (10 : ℚ) ≠ 0 := by norm_num
  rw [List.length_map, zpow_sub₀ h10, zpow_natCast]
  push_cast
  have : (10 : ℚ) ^ f.length ≠ 0 := pow_ne_zero _ h10
  field_simp

/-- The rest after a numeral: nothing, or white space. -/
def Sep (r : List Char) : Prop := r = [] ∨ ∃ c t, r = c :: t ∧ isSpace c = true

theorem space_cases {c : Char} (h : isSpace c = true) :
    isDigit 10 c = false ∧ c ≠ '.' ∧ c ≠ 'e' ∧ c ≠ 'E' := by
  have h' := h
  simp only [isSpace, Bool.or_eq_true, decide_eq_true_eq] at h
  refine ⟨?_, ?_, ?_, ?_⟩
  · rcases h with ((((h | h) | h) | h) | h) | h <;> subst h <;> rfl
  all_goals (rintro rfl; simp [isSpace] at h')

theorem Sep.noDigit {r : List Char} (h : Sep r) : NoDigit r := by
  intro c hc
  rcases h with rfl | ⟨d, t, rfl, hd⟩
  · simp at hc
  · simp at hc; subst hc; exact (space_cases hd).1

/-- How the exponent is written after `x`. -/
def expWith (x : Char) : Option (Bool × List (Fin 10)) → List Char
  | none => []
  | some e => x :: signText e.1 ++ e.2.map digit

theorem textWith_eq (x : Char) (n : Numeral) :
    n.textWith x = signText n.neg ++ n.int.map digit ++ fracText n.frac ++ expWith x n.exp := by
  obtain ⟨neg, i, f, e⟩ := n
  cases e <;> rfl

theorem text_eq (n : Numeral) : n.text = n.textWith 'e' := by
  obtain ⟨neg, i, f, e⟩ := n
  cases e <;> rfl

theorem text_head {x : Char} {n : Numeral} (h : n.WF) (r : List Char) :
    ∀ c, (n.textWith x ++ r).head? = some c → isSpace c = false := by
  intro c hc
  rw [textWith_eq] at hc
  obtain ⟨neg, i, f, e⟩ := n
  cases neg with
  | true => simp [signText] at hc; subst hc; rfl
  | false =>
    cases i with
    | cons d i => simp [signText] at hc; subst hc; exact digit_not_space d
    | nil =>
      obtain ⟨h1, -⟩ := h
      rcases h1 with h1 | ⟨f', h1, -⟩
      · exact absurd rfl h1
      · simp only at h1
        subst h1
        simp [signText, fracText] at hc; subst hc; rfl

/-- The exponent digits of `extract`. -/
def expTail (neg eneg : Bool) (ip fp u : List Char) : Option (ℚ × List Char) :=
  let ds := u.takeWhile (isDigit 10)
  if ds = [] then none
  else
    let e : Int := if eneg then -(ofDigits 10 ds : Int) else ofDigits 10 ds
    some (if neg then -decimal ip fp e else decimal ip fp e, u.drop ds.length)

/-- The tail of `extract` after the mantissa. -/
def tail (neg : Bool) (ip fp t2 : List Char) : Option (ℚ × List Char) :=
  match t2 with
  | c :: cs =>
    if c = 'e' ∨ c = 'E' then expTail neg (sign cs).1 ip fp (sign cs).2
    else some (if neg then -decimal ip fp 0 else decimal ip fp 0, t2)
  | [] => some (if neg then -decimal ip fp 0 else decimal ip fp 0, [])

/-- The unsigned part of `extract`. -/
def body (neg : Bool) (t : List Char) : Option (ℚ × List Char) :=
  let ip := t.takeWhile (isDigit 10)
  let t1 := t.drop ip.length
  let (fp, t2) :=
    match t1 with
    | '.' :: cs => let fp := cs.takeWhile (isDigit 10); (fp, cs.drop fp.length)
    | _ => ([], t1)
  if ip = [] ∧ fp = [] then none
  else tail neg ip fp t2

theorem extract_eq (s : List Char) : extract s = body (sign (lskip s)).1 (sign (lskip s)).2 := rfl

theorem extract_neg (t : List Char) : extract ('-' :: t) = body true t := rfl

theorem sign_of {t : List Char} (h : t.head? ≠ some '-') (h' : t.head? ≠ some '+') :
    sign t = (false, t) := by
  cases t with
  | nil => rfl
  | cons c t =>
    have h1 : c ≠ '-' := fun e => h (by rw [e]; rfl)
    have h2 : c ≠ '+' := fun e => h' (by rw [e]; rfl)
    unfold sign
    split
    · rename_i heq; simp at heq; exact absurd heq.1 h1
    · rename_i heq; simp at heq; exact absurd heq.1 h2
    · rfl

theorem extract_pos {t : List Char} (h1 : lskip t = t) (h2 : t.head? ≠ some '-')
    (h3 : t.head? ≠ some '+') : extract t = body false t := by
  rw [extract_eq, h1, sign_of h2 h3]

theorem body_frac (neg : Bool) (i f : List (Fin 10)) (t2 : List Char) (h : NoDigit t2)
    (hne : i ≠ [] ∨ f ≠ []) :
    body neg (i.map digit ++ '.' :: (f.map digit ++ t2)) =
      tail neg (i.map digit) (f.map digit) t2 := by
  have hd : NoDigit ('.' :: (f.map digit ++ t2)) := by
    intro c hc; simp at hc; subst hc; rfl
  unfold body
  dsimp only
  rw [takeWhile_digits i hd, drop_digits]
  have e : (match '.' :: (f.map digit ++ t2) with
    | '.' :: cs => ((cs.takeWhile (isDigit 10), cs.drop (cs.takeWhile (isDigit 10)).length) :
        List Char × List Char)
    | _ => ([], '.' :: (f.map digit ++ t2))) = (f.map digit, t2) := by
    show ((f.map digit ++ t2).takeWhile (isDigit 10),
      (f.map digit ++ t2).drop ((f.map digit ++ t2).takeWhile (isDigit 10)).length) = _
    rw [takeWhile_digits f h, drop_digits]
  rw [e]
  dsimp only
  rw [if_neg (by
    rintro ⟨h1, h2⟩
    simp at h1 h2
    rcases hne with h' | h'
    · exact h' h1
    · exact h' h2)]

theorem body_int (neg : Bool) (i : List (Fin 10)) (t2 : List Char) (h : NoDigit t2)
    (hp : t2.head? ≠ some '.') (hne : i ≠ []) :
    body neg (i.map digit ++ t2) = tail neg (i.map digit) [] t2 := by
  unfold body
  dsimp only
  rw [takeWhile_digits i h, drop_digits]
  have e : (match t2 with
    | '.' :: cs => ((cs.takeWhile (isDigit 10), cs.drop (cs.takeWhile (isDigit 10)).length) :
        List Char × List Char)
    | _ => ([], t2)) = ([], t2) := by
    split
    · exact absurd rfl hp
    · rfl
  rw [e]
  dsimp only
  rw [if_neg (by rintro ⟨h1, -⟩; simp at h1; exact hne h1)]

theorem tail_none (neg : Bool) (ip fp r : List Char) (h : Sep r) :
    tail neg ip fp r = some (if neg then -decimal ip fp 0 else decimal ip fp 0, r) := by
  rcases h with rfl | ⟨c, t, rfl, hc⟩
  · rfl
  · obtain ⟨-, -, h1, h2⟩ := space_cases hc
    unfold tail
    dsimp only
    rw [if_neg (by simp [h1, h2])]

theorem expTail_digits (neg eneg : Bool) (ip fp r : List Char) (ds : List (Fin 10)) (hds : ds ≠ [])
    (h : Sep r) : expTail neg eneg ip fp (ds.map digit ++ r) =
      some (if neg then -decimal ip fp (if eneg then -(nat ds : ℤ) else nat ds)
        else decimal ip fp (if eneg then -(nat ds : ℤ) else nat ds), r) := by
  have hne : ds.map digit ≠ [] := by simpa using hds
  unfold expTail
  dsimp only
  rw [takeWhile_digits ds h.noDigit, drop_digits, if_neg hne, ofDigits_digits]

theorem digit_ne_minus : ∀ d, digit d ≠ '-' := by decide

theorem digit_ne_plus : ∀ d, digit d ≠ '+' := by decide

theorem tail_exp {x : Char} (hx : x = 'e' ∨ x = 'E') (neg eneg : Bool) (ip fp r : List Char)
    (ds : List (Fin 10)) (hds : ds ≠ []) (h : Sep r) :
    tail neg ip fp (x :: (signText eneg ++ (ds.map digit ++ r))) =
      some (if neg then -decimal ip fp (if eneg then -(nat ds : ℤ) else nat ds)
        else decimal ip fp (if eneg then -(nat ds : ℤ) else nat ds), r) := by
  rw [← expTail_digits neg eneg ip fp r ds hds h]
  unfold tail
  dsimp only
  rw [if_pos hx]
  cases eneg with
  | true => rfl
  | false =>
    cases ds with
    | nil => exact absurd rfl hds
    | cons d ds =>
      rw [signText, if_neg (by simp), List.nil_append, sign_of]
      · simpa using digit_ne_minus d
      · simpa using digit_ne_plus d

theorem unsigned_text {x : Char} (hx : x = 'e' ∨ x = 'E') (neg : Bool) (i : List (Fin 10)) (f : Option (List (Fin 10)))
    (e : Option (Bool × List (Fin 10))) (h : (⟨neg, i, f, e⟩ : Numeral).WF) {r : List Char}
    (hr : Sep r) :
    body neg (i.map digit ++ (fracText f ++ (expWith x e ++ r))) =
      some ((⟨neg, i, f, e⟩ : Numeral).value, r) := by
  obtain ⟨h1, h2⟩ := h
  dsimp only at h1 h2
  have hd : ∀ t, NoDigit (x :: t) := by
    intro e c hc; simp at hc; subst hc; rcases hx with rfl | rfl <;> rfl
  have hval : ∀ (x : ℚ), (if neg = true then -x else x) = (if neg then -1 else 1) * x := by
    intro x; cases neg <;> simp
  have htail : ∀ ip fp, tail neg ip fp (expWith x e ++ r) = some (((if neg then -1 else 1) : ℚ) *
      decimal ip fp (expVal e), r) := by
    intro ip fp
    cases e with
    | none => rw [expWith, List.nil_append, tail_none _ _ _ _ hr, hval, expVal]
    | some e =>
      have : expWith x (some e) ++ r = x :: (signText e.1 ++ (e.2.map digit ++ r)) := by
        simp [expWith]
      rw [this, tail_exp hx _ _ _ _ _ _ (h2 e rfl) hr, hval, expVal]
  have hnd : NoDigit (expWith x e ++ r) := by
    cases e with
    | none => exact hr.noDigit
    | some e => exact hd _
  cases f with
  | none =>
    have hi : i ≠ [] := by
      rcases h1 with h1 | ⟨f, h1, -⟩
      · exact h1
      · cases h1
    rw [fracText, List.nil_append, body_int neg i _ hnd ?_ hi, htail]
    · have := decimal_digits i []
      rw [List.map_nil] at this
      rw [this, ← mul_assoc]
      rfl
    · cases e with
      | none =>
        rcases hr with rfl | ⟨c, t, rfl, hc⟩
        · simp [expWith]
        · simpa [expWith] using (space_cases hc).2.1
      | some e => rcases hx with rfl | rfl <;> simp [expWith]
  | some f =>
    have hne : i ≠ [] ∨ f ≠ [] := by
      rcases h1 with h1 | ⟨f', h1, h'⟩
      · exact Or.inl h1
      · cases h1; exact Or.inr h'
    rw [fracText, List.cons_append, body_frac neg i f _ hnd hne, htail, decimal_digits,
      ← mul_assoc]
    rfl

/-- Reading one numeral. -/
theorem extract_textWith {x : Char} (hx : x = 'e' ∨ x = 'E') {n : Numeral} (h : n.WF) {r : List Char}
    (hr : Sep r) : extract (n.textWith x ++ r) = some (n.value, r) := by
  have hl := lskip_of_head (text_head (x := x) h r)
  obtain ⟨neg, i, f, e⟩ := n
  rw [← unsigned_text hx neg i f e h hr]
  have e1 : (⟨neg, i, f, e⟩ : Numeral).textWith x ++ r =
      signText neg ++ (i.map digit ++ (fracText f ++ (expWith x e ++ r))) := by
    rw [textWith_eq]; simp
  rw [e1] at hl ⊢
  cases neg with
  | true => rfl
  | false =>
    rw [extract_pos hl]
    · rfl
    · cases i with
      | cons d i =>
        have := digit_ne_minus d
        simpa [signText] using this
      | nil =>
        rcases h.1 with h1 | ⟨f', h1, -⟩
        · exact absurd rfl h1
        · dsimp only at h1
          subst h1
          simp [signText, fracText]
    · cases i with
      | cons d i =>
        have := digit_ne_plus d
        simpa [signText] using this
      | nil =>
        rcases h.1 with h1 | ⟨f', h1, -⟩
        · exact absurd rfl h1
        · dsimp only at h1
          subst h1
          simp [signText, fracText]

theorem extract_text {n : Numeral} (h : n.WF) {r : List Char} (hr : Sep r) :
    extract (n.text ++ r) = some (n.value, r) := by
  rw [text_eq]
  exact extract_textWith (Or.inl rfl) h hr

theorem extract_space (s : List Char) : extract (' ' :: s) = extract s := by
  have : lskip (' ' :: s) = lskip s := by simp [lskip, isSpace]
  unfold extract
  rw [this]

theorem textWith_ne_nil {x : Char} {n : Numeral} (h : n.WF) : n.textWith x ≠ [] := by
  obtain ⟨neg, i, f, e⟩ := n
  intro h'
  rw [textWith_eq] at h'
  rcases h.1 with h1 | ⟨f', h1, -⟩
  · simp at h'
    exact h1 h'.2.1
  · simp only at h1
    subst h1
    simp [fracText] at h'

theorem text_ne_nil {n : Numeral} (h : n.WF) : n.text ≠ [] := by
  rw [text_eq]
  exact textWith_ne_nil h

/-- Reading all numerals. -/
theorem extractAll_joined : ∀ (ns : List Numeral) (fuel : Nat), (∀ n ∈ ns, n.WF) →
    (joined [' '] ns).length ≤ fuel →
    extractAll fuel (joined [' '] ns) = ns.map value ∧
    extractAll fuel (' ' :: joined [' '] ns) = ns.map value := by
  intro ns
  induction ns with
  | nil =>
    intro fuel _ _
    cases fuel with
    | zero => exact ⟨rfl, rfl⟩
    | succ k => exact ⟨rfl, rfl⟩
  | cons n ns ih =>
    intro fuel hw hf
    have hn := hw n (by simp)
    have hpos := List.length_pos_of_ne_nil (text_ne_nil hn)
    cases ns with
    | nil =>
      simp only [joined] at hf ⊢
      obtain ⟨k, rfl⟩ : ∃ k, fuel = k + 1 := ⟨fuel - 1, by omega⟩
      have hx := extract_text hn (r := []) (Or.inl rfl)
      rw [List.append_nil] at hx
      have h0 : extractAll k [] = [] := by cases k <;> rfl
      rw [extractAll, extractAll, extract_space, hx]
      simp [h0]
    | cons m ns =>
      have e : joined [' '] (n :: m :: ns) = n.text ++ ' ' :: joined [' '] (m :: ns) := by
        simp [joined]
      rw [e] at hf ⊢
      simp only [List.length_append, List.length_cons] at hf
      obtain ⟨k, rfl⟩ : ∃ k, fuel = k + 1 := ⟨fuel - 1, by omega⟩
      have hx := extract_text hn (r := ' ' :: joined [' '] (m :: ns)) (Or.inr ⟨_, _, rfl, rfl⟩)
      have hi := (ih k (fun n' h' => hw n' (by simp [h'])) (by omega)).2
      rw [extractAll, extractAll, extract_space, hx]
      simp [hi]

theorem text_kept (n : Numeral) : n.text.filter vecChar = n.text := by
  rw [List.filter_eq_self]
  intro c hc
  have hd : ∀ d : Fin 10, vecChar (digit d) = true := by decide
  have hs : ∀ b, ∀ c ∈ signText b, vecChar c = true := by
    intro b c hc
    cases b with
    | true => simp [signText] at hc; subst hc; rfl
    | false => simp [signText] at hc
  have hm : ∀ (ds : List (Fin 10)), ∀ c ∈ ds.map digit, vecChar c = true := by
    intro ds c hc
    obtain ⟨d, -, rfl⟩ := List.mem_map.mp hc
    exact hd d
  obtain ⟨neg, i, f, e⟩ := n
  simp only [text, List.mem_append] at hc
  rcases hc with ((hc | hc) | hc) | hc
  · exact hs _ c hc
  · exact hm _ c hc
  · cases f with
    | none => simp [fracText] at hc
    | some f =>
      rcases List.mem_cons.mp hc with rfl | hc
      · rfl
      · exact hm _ c hc
  · cases e with
    | none => simp [expText] at hc
    | some e =>
      rw [expText, List.cons_append] at hc
      rcases List.mem_cons.mp hc with rfl | hc
      · rfl
      · rcases List.mem_append.mp hc with hc | hc
        · exact hs _ c hc
        · exact hm _ c hc

theorem joined_kept (sep : List Char) : ∀ (ns : List Numeral),
    (joined sep ns).filter vecChar = joined (sep.filter vecChar) ns := by
  intro ns
  induction ns with
  | nil => rfl
  | cons n ns ih =>
    cases ns with
    | nil => exact text_kept n
    | cons m ns =>
      simp only [joined, List.filter_append, text_kept, List.append_assoc] at ih ⊢
      rw [ih]

end Numeral
end QED
